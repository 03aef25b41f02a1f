import Verif.Model.Runtime
import Mathlib.Data.List.Forall2

/-!
Specification vocabulary for scenarios, generators and the runtime (C143–C149).
-/
namespace Bark.Run.Spec

variable {A M F J T : Type}

/-- contents of the agents of a scenario, in the order of its list -/
def agentsOf (h : Heap A) (s : Scenario M F J) : List A := s.agents.map h.cell

/-- the scenario's agents are distinct existing objects -/
def Proper (h : Heap A) (s : Scenario M F J) : Prop := s.agents.Nodup ∧ ∀ r ∈ s.agents, r < h.next

/-- `cs` are agents by id: strictly increasing ids, and under each id the last agent of `as` that has it -/
def IsIndexed (id : A → Nat) (as : List A) (cs : List (Nat × A)) : Prop :=
  cs.Pairwise (fun a b => a.1 < b.1) ∧
  ∀ i a, (i, a) ∈ cs ↔ ∃ pre post, as = pre ++ a :: post ∧ id a = i ∧ ∀ b ∈ post, id b ≠ i

/-- the initial contents of a world for agents with contents `as` on map `m`: each agent with its corridor -/
def IsInitial (c : Code A M F J T) (m : M) (as : List A) (cs : List (Nat × A)) : Prop :=
  ∃ as', List.Forall₂ (fun a a' => c.corridor m a = .ok a') as as' ∧ IsIndexed c.id as' cs

/-- a simulation step on contents: all agents plan in the same situation, … -/
def planned (c : Code A M F J T) (m : M) (t : T) (cs : List (Nat × A)) : List (Nat × A) :=
  cs.map fun p => (p.1, c.plan m t cs p.1 p.2)

/-- … then all execute in the same situation, … -/
def executed (c : Code A M F J T) (m : M) (t : T) (cs : List (Nat × A)) : List (Nat × A) :=
  cs.map fun p => (p.1, c.execute m t cs p.1 p.2)

/-- … and those that are to go are removed -/
def advance (c : Code A M F J T) (m : M) (t : T) (cs : List (Nat × A)) : List (Nat × A) :=
  let cs' := executed c m t (planned c m t cs)
  cs'.filter fun p => c.stays m cs' p.1

/-- contents after `n` steps -/
def after (c : Code A M F J T) (m : M) (t : T) (cs : List (Nat × A)) : Nat → List (Nat × A)
  | 0 => cs
  | n + 1 => advance c m t (after c m t cs n)

/-- copies of contents -/
def copies (c : Code A M F J T) (cs : List (Nat × A)) : List (Nat × A) := cs.map fun p => (p.1, c.cloned p.2)

/-- objects of two scenarios are disjoint -/
def Apart (s t : Scenario M F J) : Prop := ∀ r ∈ s.agents, r ∉ t.agents

/-- the number of a certain kind of call in a history -/
def nexts (ops : List (Op T)) : Nat := ops.countP fun o => match o with | .next => true | _ => false

def iterNexts (ops : List (Op T)) : Nat := ops.countP fun o => match o with | .iterNext => true | _ => false

/-- no call restarts the iteration -/
def NoIter (ops : List (Op T)) : Prop := ∀ o ∈ ops, o ≠ .iter

/-- what a program does with a runtime: `reset()` or `step()` -/
inductive Call where
  | reset
  | step

/-- the number of resets -/
def resets (calls : List Call) : Nat := calls.countP fun o => match o with | .reset => true | _ => false

end Bark.Run.Spec
