import Verif.Spec.Traffic

/-! Vocabulary of C213: a straight road as a strip, and checks of containment. -/
namespace Bark.Flow.Spec
open Bark Bark.Ln Bark.Ln.Spec

/-- how far along the lane from `a` to `b` the point `q` is -/
noncomputable def alongLane (a b q : Pt) : ℝ := (q.1 - a.1) * (unit a b).1 + (q.2 - a.2) * (unit a b).2

/-- how far to the left of the lane from `a` to `b` the point `q` is -/
noncomputable def leftOfLane (a b q : Pt) : ℝ := (q.2 - a.2) * (unit a b).1 - (q.1 - a.1) * (unit a b).2

/-- the strip along the lane from `a` to `b`: `rear` metres before its start to `front` metres beyond its end, `right` metres to the right to
`left` metres to the left -/
def strip (a b : Pt) (rear front right left : ℝ) : Set Pt :=
  {q | -rear ≤ alongLane a b q ∧ alongLane a b q ≤ pdist a b + front ∧ -right ≤ leftOfLane a b q ∧ leftOfLane a b q ≤ left}

/-- the shape reaches at most `rear` metres back, `front` metres forward, `right` and `left` metres sideways -/
def Fits (sh : Shape.Poly) (rear front right left : ℝ) : Prop :=
  ∀ p ∈ sh.pts, -rear ≤ p.1 ∧ p.1 ≤ front ∧ -right ≤ p.2 ∧ p.2 ≤ left

/-- a check for containment that answers yes whenever all of the outline's hull is in the region of the other polygon -/
def Accepts (within : Shape.Poly → Shape.Poly → Bool) (region : Shape.Poly → Set Pt) : Prop :=
  ∀ p r, convexHull ℝ {q : ℝ × ℝ | q ∈ p.pts} ⊆ region r → within p r = true

end Bark.Flow.Spec
