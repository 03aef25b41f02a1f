import Verif.Model.World
import Verif.Model.Traffic

/-! Vocabulary of C222: the same world with other numbers for the agents. -/
namespace Bark.Rename
open Bark
set_option linter.unusedSectionVars false

section
variable {K St Act B E Sh Box O : Type} [Field K] [LinearOrder K] [IsStrictOrderedRing K]

/-- the agent with its new number -/
def agent (ρ : Nat → Nat) (a : Agent K St Act B E Sh) : Agent K St Act B E Sh := { a with id := ρ a.id }

/-- the world with the new numbers: in the registry, in the index and in the observer (`fO`) -/
def world (ρ : Nat → Nat) (fO : O → O) (w : World K St Act B E Sh Box O) : World K St Act B E Sh Box O :=
  { w with agents := w.agents.map (fun p => (ρ p.1, agent ρ p.2)), rtree := w.rtree.map (fun p => (p.1, ρ p.2)), observer := fO w.observer }

/-- the same call with the new numbers -/
def op (ρ : Nat → Nat) : World.Op K St Act B E Sh → World.Op K St Act B E Sh
  | .addAgent a => .addAgent (agent ρ a)
  | .removeAgent i => .removeAgent (ρ i)
  | o => o

/-- planning and observing do not depend on the numbers -/
structure Nameless (P : Plug K St Act B E Sh Box O) (ρ : Nat → Nat) (fO : O → O) : Prop where
  plan : ∀ b dt w i, P.plan b dt (world ρ fO w) (ρ i) = P.plan b dt w i
  observe : ∀ o w i, P.observe (fO o) (world ρ fO w) (ρ i) = (fO (P.observe o w i).1, world ρ fO (P.observe o w i).2)

end

/-- the nearest search of the index is about boxes, not about the numbers stored with them -/
def ByBoxes {Box Lane : Type} (u : Flow.Setup Box Lane) : Prop :=
  ∀ (ρ : Nat → Nat), StrictMono ρ → ∀ x n l, u.nearest x n (l.map (fun p => (p.1, ρ p.2))) = (u.nearest x n l).map (fun p => (p.1, ρ p.2))

end Bark.Rename
