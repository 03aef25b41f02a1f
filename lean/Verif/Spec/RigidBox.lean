import Verif.Spec.Rigid
import Verif.Model.Bounds

/-! Specification vocabulary for C212: distance from a box, and turns that keep the axes. -/
namespace Bark.Rigid.Spec
open Bark.Ln

/-- how far `x` is from the interval from `a` to `b` -/
noncomputable def out (a b x : ℝ) : ℝ := max 0 (max (a - x) (x - b))

/-- squared distance of the point `p` from the box `b` -/
noncomputable def boxDist2 (b : Bnd.Box) (p : Pt) : ℝ := out b.1.1 b.2.1 p.1 ^ 2 + out b.1.2 b.2.2 p.2 ^ 2

/-- the new axes are parallel to the old ones (shifts and turns by multiples of a quarter turn) -/
def KeepsAxes (M : Motion) : Prop := Real.sin M.turn = 0 ∨ Real.cos M.turn = 0

end Bark.Rigid.Spec
