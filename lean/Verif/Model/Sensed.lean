import Verif.Model.Basic
import Mathlib.Order.Nat
import Mathlib.Algebra.Order.Field.Basic

/-!
Model of what agents retain through `GetSensedWorld` (C13). Only the pointer structure is kept: a sensed
world holds the cloned agents of the step, each cloned agent holds the sensed world it had before the step.
-/
namespace Bark.Sensed

/-- An observed world as retained by an agent: for every agent of the snapshot the sensed world that the
snapshot's copy of it holds (`none` = null). agent.hpp:226 `sensed_world_`; agent.cpp:65-79 copies it. -/
inductive SWorld where
  | node (agents : List (Nat × Option SWorld))

/-- length of the longest chain of retained observed worlds -/
def SWorld.depth : SWorld → Nat
  | .node l => 1 + (l.attach.map (fun p =>
      match h : p.1.2 with
      | none => 0
      | some s => s.depth)).foldr max 0
termination_by s => sizeOf s
decreasing_by
  have h1 := List.sizeOf_lt_of_mem p.2
  have : sizeOf p.1 = 1 + sizeOf p.1.1 + sizeOf p.1.2 := by cases p.1; rfl
  rw [h] at this
  simp at this ⊢
  omega

/-- worlds retained by an agent: depth of its sensed world -/
def retained : Option SWorld → Nat
  | none => 0
  | some s => s.depth

/-- world.cpp:70-84 `PlanAgents`, restricted to `SetSensedWorld`: the snapshot is cloned once, every active
agent's sensed world becomes an observation of that snapshot. `active` says which agents are active. -/
def planSensed (active : Nat → Bool) (w : List (Nat × Option SWorld)) : List (Nat × Option SWorld) :=
  w.map (fun p => if active p.1 then (p.1, some (.node w)) else p)

/-- `n` steps -/
def steps (active : Nat → Bool) (w : List (Nat × Option SWorld)) : Nat → List (Nat × Option SWorld)
  | 0 => w
  | n + 1 => planSensed active (steps active w n)

end Bark.Sensed
