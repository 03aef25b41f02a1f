import Verif.Spec.Line
import Verif.Spec.Angle
import Verif.Model.GoalLimits

/-! Specification vocabulary for the goals with state limits and for laterally shifted lines. -/
namespace Bark.Goal.Spec
open Bark.Ln

/-- the heading `θ` deviates from the direction `t` by at most `right` clockwise or `left` anti-clockwise:
turning from `t` to `θ` by some angle within these bounds -/
def HeadingWithin (t θ right left : ℝ) : Prop :=
  ∃ r : ℝ, -left ≤ r ∧ r ≤ right ∧ Angle.Spec.SameDir (t - r) θ

/-- signed distance of `q` from the straight line through `a` and `b`, positive on the left of the direction from `a` to `b` -/
noncomputable def offset (a b q : Pt) : ℝ :=
  ((b.1 - a.1) * (q.2 - a.2) - (b.2 - a.2) * (q.1 - a.1)) / pdist a b

end Bark.Goal.Spec
