import Verif.Model.Frenet
import Verif.Spec.Line
import Verif.Spec.Angle

/-! Specification vocabulary for frenet coordinates: where a vector points, seen in direction `θ`. -/
namespace Bark.Fren.Spec
open Bark.Ln

/-- component of `v` along the direction `θ` -/
noncomputable def along (θ : ℝ) (v : Pt) : ℝ := v.1 * Real.cos θ + v.2 * Real.sin θ

/-- component of `v` to the left of the direction `θ` -/
noncomputable def leftward (θ : ℝ) (v : Pt) : ℝ := v.2 * Real.cos θ - v.1 * Real.sin θ

/-- `q`, at arc length `s`, is the point of the line closest to `p`, and `θ` is the tangent direction there -/
def Foot (l : Line) (p : Pt) (s : ℝ) (q : Pt) (θ : ℝ) : Prop :=
  Ln.Spec.AtArc l.pts s q ∧ (∀ q', Ln.Spec.OnLine l.pts q' → pdist p q ≤ pdist p q') ∧ tangentAngleAtS l s = .ok θ

end Bark.Fren.Spec
