import Verif.Model.Frenet
import Verif.Spec.Line
import Verif.Spec.Angle

/-! Specification vocabulary for changes of the map's coordinate system (C210, C211). -/
namespace Bark.Rigid.Spec
open Bark.Ln

/-- another choice of the origin and of the axes: everything is turned by `turn` about the origin and then shifted -/
structure Motion where
  turn : ℝ
  dx : ℝ
  dy : ℝ

/-- the new coordinates of the point `p` -/
noncomputable def Motion.pt (M : Motion) (p : Pt) : Pt :=
  (Real.cos M.turn * p.1 - Real.sin M.turn * p.2 + M.dx, Real.sin M.turn * p.1 + Real.cos M.turn * p.2 + M.dy)

/-- the new coordinates of a free vector (a difference of points) -/
noncomputable def Motion.vec (M : Motion) (v : Pt) : Pt :=
  (Real.cos M.turn * v.1 - Real.sin M.turn * v.2, Real.sin M.turn * v.1 + Real.cos M.turn * v.2)

/-- `l'` is the line `l` in the new coordinates; both have the right arc length table -/
structure MovedLine (M : Motion) (l l' : Line) : Prop where
  right : Ln.Spec.TableRight l
  right' : Ln.Spec.TableRight l'
  pts : l'.pts = l.pts.map M.pt

/-- `x'` is the state `x` in the new coordinates: the heading may differ by whole turns -/
structure MovedState (M : Motion) (x x' : Fren.VState) : Prop where
  time : x'.time = x.time
  pos : (x'.x, x'.y) = M.pt (x.x, x.y)
  theta : Angle.Spec.SameDir x'.theta (x.theta + M.turn)
  vel : x'.vel = x.vel

/-- nowhere does the line turn back onto itself by exactly half a turn -/
def NoUTurn (pts : List Pt) : Prop := ∀ (i : Nat) (a b c : Pt), pts[i]? = some a → pts[i + 1]? = some b → pts[i + 2]? = some c →
  Ln.Spec.unit a b + Ln.Spec.unit b c ≠ 0

end Bark.Rigid.Spec
