import Verif.Model.SafeArea
import Verif.Spec.Shape

/-!
Specification vocabulary for the safe distance to the border of the drivable area, the evasive lateral acceleration and further labels
(C177–C179).
-/
namespace Bark.Area.Spec
open Real

/-- how far a point is to the left of the line through the origin in direction `φ` -/
noncomputable def lateral (φ : ℝ) (p : ℝ × ℝ) : ℝ := cos φ * p.2 - sin φ * p.1

/-- all points lie strictly between the borders `lo` (right) and `hi` (left) of a straight road of direction `φ` -/
def InStrip (φ lo hi : ℝ) (ps : List (ℝ × ℝ)) : Prop := ∀ p ∈ ps, lo < lateral φ p ∧ lateral φ p < hi

/-- a vehicle outline that reaches `f` ahead, `r` behind, `d` to the right and `l` to the left of its reference point, which is the
origin, looking along the x-axis -/
structure Outline (s : Shape.Poly) (f r d l : ℝ) : Prop where
  origin : s.center = ⟨0, 0, 0⟩
  extents : Shape.Spec.Extents ⟨0, 0, 0⟩ s.pts f r d l
  ahead : 0 ≤ f
  behind : 0 < r
  right : 0 < d
  left : 0 ≤ l

end Bark.Area.Spec
