import Verif.Model.PlanView
import Verif.Model.GoalLimits

/-!
Model of `bark/world/opendrive/commons.hpp` (`CreateLineWithOffsetFromLine`) and `lane.cpp` (`XodrLane::append`) over ℝ.
`simp` is boost's `simplify` with the maximal error 0.001.
-/
namespace Bark.LaneLine
open Real Bark.Ln Bark.PV

/-- commons.hpp:58-60 `XodrLaneOffset` -/
@[ext] structure Cubic where
  a : ℝ
  b : ℝ
  c : ℝ
  d : ℝ

/-- commons.hpp:62-64 `Polynom` -/
def polynom (x : ℝ) (o : Cubic) : ℝ := o.a + o.b * x + o.c * x * x + o.d * x * x * x

/-- commons.hpp:164-168 `XodrLaneWidth` -/
@[ext] structure Width where
  s0 : ℝ
  s1 : ℝ
  off : Cubic

/-- commons.hpp:185 `sign` -/
def sign (id : Int) : ℝ := if 0 < id then -1 else 1

/-- `point + scale * normal` -/
def moved (p n : Pt) (k : ℝ) : Pt := (p.1 + k * n.1, p.2 + k * n.2)

/-- commons.hpp:198-202, 210-213: normal of the segment between two points -/
noncomputable def segNormal (p q : Pt) : Pt := (cos (segAngle p q + arcsin 1), sin (segAngle p q + arcsin 1))

/-- commons.hpp:207-217: the points after the first, each moved along the normal of the segment before it -/
noncomputable def movedAfter (k : ℝ) : List Pt → List Pt
  | p :: q :: ps => moved q (segNormal p q) k :: movedAfter k (q :: ps)
  | _ => []

/-- commons.hpp:194-217 -/
noncomputable def constantLine (k : ℝ) : List Pt → List Pt
  | p :: q :: ps => moved p (segNormal p q) k :: movedAfter k (p :: q :: ps)
  | _ => []

/-- body of the loop commons.hpp:219-229 -/
noncomputable def samplePoint (l : Line) (id : Int) (w : Width) (s : ℝ) : Res Pt := do
  let p ← pointAtS l s
  let n ← Goal.normalAtS l s
  .ok (moved p n (-sign id * polynom (s - w.s0) w.off))

open Classical in
/-- commons.hpp:186-187: the end of the range -/
noncomputable def endOf (l : Line) (w : Width) : ℝ := if w.s1 > Ln.length l.pts then Ln.length l.pts else w.s1

open Classical in
/-- commons.hpp:189-230: the points of the new line, before the simplification; the loop has the form of the one in
plan_view.cpp:66-71 -/
noncomputable def offsetPoints (fuel : ℕ) (l : Line) (id : Int) (w : Width) (sInc : ℝ) : Res (List Pt) :=
  if w.off.b = 0 ∧ w.off.c = 0 ∧ w.off.d = 0 ∧ l.pts.length > 1 ∧ w.s0 = 0 ∧
      |endOf l w - w.s0 - Ln.length l.pts| < 1 then
    .ok (constantLine (-sign id * w.off.a) l.pts)
  else do
    let ss ← sampleLoop (endOf l w) fuel w.s0 sInc
    ss.mapM (samplePoint l id w)

/-- commons.hpp:170-236 `CreateLineWithOffsetFromLine` -/
noncomputable def offsetLine (simp : List Pt → List Pt) (fuel : ℕ) (prev : Line) (id : Int) (w : Width) (sInc : ℝ) :
    Res Line := do
  let ps ← offsetPoints fuel (simplify simp { prev with pts := unique prev.pts }) id w sInc
  .ok (simplify simp (ps.foldl addPoint Ln.empty))

/-- lane.cpp:40-63 `XodrLane::append`: appends to the line of the lane; self-intersections are only logged -/
noncomputable def append (simp : List Pt → List Pt) (fuel : ℕ) (line prev : Line) (id : Int) (w : Width) (sInc : ℝ) :
    Res Line := do
  let t ← offsetLine simp fuel prev id w sInc
  .ok (appendLinestring line t)

end Bark.LaneLine
