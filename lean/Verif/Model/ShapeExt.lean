import Verif.Model.Angle
import Verif.Model.FrontRear

/-!
Model of `ShapeExtensionAtTangentAngle` (bark/commons/transformation/frenet_state.cpp:97-121) over ℝ.
-/
namespace Bark.ShapeExt
open Real

/-- bark/geometry/polygon.hpp:147-158: distances of a shape's bounding box to its centre. The two side
distances are assumed equal by the modelled function (it only prints when they are not); it reads
`left_dist_`, which is `side` here. -/
structure Dims where
  front : ℝ
  rear : ℝ
  side : ℝ

/-- frenet_state.cpp:97-121 `ShapeExtensionAtTangentAngle`; `a` is the frenet angle (road direction minus
vehicle direction). -/
noncomputable def shapeExtension (rnd : ℝ → ℝ) (a : ℝ) (d : Dims) : Ext ℝ :=
  let n := Angle.normToPI rnd a
  let pa := if |a| < π / 2 then |n| else |(|n| - π)|
  let f := cos pa * d.front + sin pa * d.side
  let r := cos pa * d.rear + sin pa * d.side
  let l := sin pa * d.front + cos pa * d.side
  let rt := sin pa * d.rear + cos pa * d.side
  if π / 2 < a then ⟨r, f, l, rt⟩
  else if a < -(π / 2) then ⟨r, f, rt, l⟩
  else ⟨f, r, rt, l⟩

end Bark.ShapeExt
