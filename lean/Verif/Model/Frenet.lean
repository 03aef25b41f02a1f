import Verif.Model.GoalLimits

/-!
Model of `bark/commons/transformation/frenet.{hpp,cpp}` and of the conversions between states and
frenet states in `frenet_state.{hpp,cpp}`, over ℝ.  The queries on lines are those of `Model/Line.lean`.
`rnd` is the conversion to `float` inside `NormToPI`.
-/
namespace Bark.Fren
open Bark.Ln

/-- dynamic_model.hpp:24-36: the entries of a minimal state vector -/
structure VState where
  time : ℝ
  x : ℝ
  y : ℝ
  theta : ℝ
  vel : ℝ

/-- frenet_state.hpp:22-51 `FrenetState` -/
structure FState where
  lon : ℝ
  lat : ℝ
  vlon : ℝ
  vlat : ℝ
  angle : ℝ
  angleRoad : ℝ

/-- commons.hpp:51-54 `operator-` -/
def sub (p q : Pt) : Pt := (p.1 - q.1, p.2 - q.2)

/-- frenet.cpp:38-41, frenet_state.cpp:45-49: the sign of the lateral coordinate -/
noncomputable def sideSign (rnd : ℝ → ℝ) (tangent : ℝ) (d : Pt) : ℝ :=
  if 0 < Angle.signedAngleDiff rnd tangent (Dyn.atan2 d.2 d.1) then -1
  else if Angle.signedAngleDiff rnd tangent (Dyn.atan2 d.2 d.1) < 0 then 1 else 0

/-- frenet.cpp:31-33, frenet_state.cpp:37-39: distance from the nearest point -/
noncomputable def latVal (q p : Pt) : ℝ :=
  Real.sqrt ((q.1 - p.1) * (q.1 - p.1) + (q.2 - p.2) * (q.2 - p.2))

/-- frenet.cpp:19-44 `FrenetPosition::FrenetPosition` -/
noncomputable def position (rnd : ℝ → ℝ) (l : Line) (p : Pt) : Res (ℝ × ℝ) := do
  let n ← nearest l p
  let th ← tangentAngleAtS l n.2.1
  .ok (n.2.1, latVal n.1 p * sideSign rnd th (sub p n.1))

/-- frenet_state.cpp:27-58 `FrenetState::FrenetState` -/
noncomputable def ofState (rnd : ℝ → ℝ) (l : Line) (x : VState) : Res FState := do
  let n ← nearest l (x.x, x.y)
  let th ← tangentAngleAtS l n.2.1
  .ok {
    lon := n.2.1
    lat := latVal n.1 (x.x, x.y) * sideSign rnd th (sub (x.x, x.y) n.1)
    vlon := Real.cos (Angle.signedAngleDiff rnd x.theta th) * x.vel
    vlat := Real.sin (Angle.signedAngleDiff rnd x.theta th) * x.vel
    angle := Angle.signedAngleDiff rnd th x.theta
    angleRoad := th }

/-- frenet_state.cpp:60-87 `FrenetStateToDynamicState` -/
noncomputable def toState (rnd : ℝ → ℝ) (l : Line) (f : FState) : Res VState := do
  let p ← pointAtS l f.lon
  let th ← tangentAngleAtS l f.lon
  let n ← Goal.normalAtS l f.lon
  .ok {
    time := 0
    x := p.1 + n.1 * f.lat
    y := p.2 + n.2 * f.lat
    theta := Angle.normToPI rnd (Dyn.atan2 f.vlat f.vlon + th)
    vel := Real.sqrt (f.vlon * f.vlon + f.vlat * f.vlat) }

end Bark.Fren
