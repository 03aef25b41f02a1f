import Verif.Spec.Traffic
import Verif.Spec.TrafficEval

/-! Vocabulary of C218: straight lanes side by side. -/
namespace Bark.Flow.Spec
open Bark Bark.Ln Bark.Ln.Spec

variable {Box Lane : Type}

/-- lane `ℓ` leads straight from `a ℓ` to `b ℓ`; any two of the lanes have the same or the opposite direction -/
structure SideBySide (u : Setup Box Lane) (lanes : Set Lane) (a b : Lane → Pt) : Prop where
  straight : ∀ ℓ ∈ lanes, Straight u ℓ (a ℓ) (b ℓ)
  parallel : ∀ ℓ ∈ lanes, ∀ ℓ' ∈ lanes, unit (a ℓ') (b ℓ') = unit (a ℓ) (b ℓ) ∨ unit (a ℓ') (b ℓ') = -unit (a ℓ) (b ℓ)

/-- the outline reaches no further to the left or right than the shape says -/
def Narrow (sh : Shape.Poly) : Prop := ∀ p ∈ sh.pts, |p.2| ≤ sh.left

/-- vehicles on different lanes are narrow enough for the distance of these lanes; `ln i` is the lane of vehicle `i` -/
def Beside (a b : Lane → Pt) (ln : Nat → Lane) (w : W Box) : Prop :=
  ∀ i j ai aj, w.getAgent i = some ai → w.getAgent j = some aj → ln i ≠ ln j →
    ai.shape.left + aj.shape.left < |leftOfLane (a (ln i)) (b (ln i)) (a (ln j))|

/-- any two vehicles of the same lane have room between them, and the one behind would still stop before the one ahead -/
def LaneClear (ln : Nat → Lane) (w : W Box) (x : Nat → ℝ × ℝ) : Prop :=
  ∀ i j ai aj, w.getAgent i = some ai → w.getAgent j = some aj → i ≠ j → ln i = ln j → (x i).1 ≤ (x j).1 →
    Loop.Spec.Clear (gap ai.shape aj.shape (x i).1 (x j).1) (x i).2 (x j).2

/-- world `v` has exactly those agents of world `w` for which `A` holds, at the same time -/
structure PartOf (A : Nat → Prop) (w v : W Box) : Prop where
  time : v.time = w.time
  removal : v.removeAgents = w.removeAgents
  here : ∀ i, A i → v.getAgent i = w.getAgent i
  gone : ∀ i, ¬A i → v.getAgent i = none

end Bark.Flow.Spec
