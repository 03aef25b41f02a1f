import Verif.Model.Basic
import Mathlib.Analysis.SpecialFunctions.Trigonometric.Basic

/-!
Model of `bark/geometry/commons.hpp` (`Shape`) and `bark/geometry/polygon.hpp` (`Polygon_t`), with
`bark/geometry/standard_shapes.cpp`, over ℝ. The outline (outer ring) is a list of points; inner rings are not modelled.
boost's algorithms on single rings (`append`, `envelope`, `correct`, `area`, transformers) are modelled after their
documentation with exact comparisons; `union_` and `buffer` are parameters.
-/
namespace Bark.Shape
open Real

abbrev Pt := ℝ × ℝ

/-- `Eigen::Vector3d`, commons.hpp:62 -/
@[ext] structure Pose where
  x : ℝ
  y : ℝ
  a : ℝ

/-- commons.hpp:157-159 `obj_` (outer ring) and `center_`, polygon.hpp:72-75 the four distances -/
@[ext] structure Poly where
  pts : List Pt
  center : Pose
  front : ℝ
  rear : ℝ
  left : ℝ
  right : ℝ

/-- `translate_transformer` -/
def shift (dx dy : ℝ) (p : Pt) : Pt := (p.1 + dx, p.2 + dy)

/-- `rotate_transformer<radian>`: boost rotates clockwise -/
noncomputable def clockwise (a : ℝ) (p : Pt) : Pt := (cos a * p.1 + sin a * p.2, -(sin a * p.1) + cos a * p.2)

/-- `scale_transformer(f)` -/
def zoom (f : ℝ) (p : Pt) : Pt := (f * p.1, f * p.2)

/-- `matrix_transformer` with a diagonal matrix, commons.hpp:294 -/
def stretch (fx fy : ℝ) (p : Pt) : Pt := (fx * p.1, fy * p.2)

/-- commons.hpp:251-281 `Transform` -/
noncomputable def transform (s : Poly) (q : Pose) : Poly :=
  { s with
    pts := s.pts.map fun p =>
      shift (s.center.x + q.x) (s.center.y + q.y) (clockwise (-q.a) (shift (-s.center.x) (-s.center.y) p))
    center := ⟨s.center.x + q.x, s.center.y + q.y, s.center.a + q.a⟩ }

/-- commons.hpp:173-198 `Rotate` -/
noncomputable def rotate (s : Poly) (a : ℝ) : Poly :=
  { s with
    pts := s.pts.map fun p =>
      shift s.center.x s.center.y (clockwise (-a) (shift (-s.center.x) (-s.center.y) p))
    center := ⟨s.center.x, s.center.y, s.center.a + a⟩ }

/-- commons.hpp:235-249 `Translate` -/
def translate (s : Poly) (t : Pt) : Poly :=
  { s with
    pts := s.pts.map (shift t.1 t.2)
    center := ⟨s.center.x + t.1, s.center.y + t.2, s.center.a⟩ }

/-- commons.hpp:200-233 `ScalingTransform` -/
noncomputable def scalingTransform (s : Poly) (f : ℝ) (q : Pose) : Poly :=
  { s with
    pts := s.pts.map fun p =>
      shift (s.center.x + q.x) (s.center.y + q.y)
        (clockwise (-q.a) (zoom f (shift (-s.center.x) (-s.center.y) p)))
    center := ⟨s.center.x + q.x, s.center.y + q.y, s.center.a + q.a⟩ }

/-- `envelope`: smallest and largest coordinate; of no points it is the box made of the largest doubles `big` -/
noncomputable def lo (big : ℝ) : List ℝ → ℝ
  | [] => -big
  | [x] => x
  | x :: xs => min x (lo big xs)

/-- see `lo` -/
noncomputable def hi (big : ℝ) : List ℝ → ℝ
  | [] => big
  | [x] => x
  | x :: xs => max x (hi big xs)

/-- polygon.hpp:145-158 `UpdateDistancesToCenter` -/
noncomputable def updateDistances (big : ℝ) (s : Poly) : Poly :=
  { s with
    rear := |lo big (s.pts.map Prod.fst) - s.center.x|
    front := |hi big (s.pts.map Prod.fst) - s.center.x|
    left := |lo big (s.pts.map Prod.snd) - s.center.y|
    right := |hi big (s.pts.map Prod.snd) - s.center.y| }

/-- commons.hpp:283-316 `Shape::Scale` with polygon.hpp:168-173, which updates the distances -/
noncomputable def scale (big : ℝ) (s : Poly) (x y : ℝ) : Poly :=
  updateDistances big
    { s with
      pts := s.pts.map fun p =>
        shift s.center.x s.center.y
          (clockwise (-s.center.a)
            (stretch (if x = 0 then 1 else x) (if y = 0 then 1 else y)
              (clockwise s.center.a (shift (-s.center.x) (-s.center.y) p)))) }

/-- commons.hpp:333-344 `get_inflated` -/
noncomputable def inflatePt (x y : ℝ) (p : Pt) : Pt :=
  if 0 ≤ p.1 ∧ 0 ≤ p.2 then (p.1 + x, p.2 + y)
  else if 0 ≤ p.1 ∧ p.2 < 0 then (p.1 + x, p.2 - y)
  else if p.1 < 0 ∧ p.2 < 0 then (p.1 - x, p.2 - y)
  else (p.1 - x, p.2 + y)

/-- commons.hpp:318-371 `Shape::Inflate` with polygon.hpp:175-180 -/
noncomputable def inflate (big : ℝ) (s : Poly) (x y : ℝ) : Poly :=
  updateDistances big
    { s with
      pts := s.pts.map fun p =>
        shift s.center.x s.center.y
          (clockwise (-s.center.a)
            (inflatePt x y (clockwise s.center.a (shift (-s.center.x) (-s.center.y) p)))) }

/-- twice the shoelace sum along a list of points, positive when counterclockwise -/
def shoelace : List Pt → ℝ
  | p :: q :: ps => (p.1 * q.2 - q.1 * p.2) + shoelace (q :: ps)
  | _ => 0

/-- `bg::area` of a ring declared closed and clockwise: 0 for fewer than four points -/
noncomputable def area (ps : List Pt) : ℝ := if ps.length < 4 then 0 else -(shoelace ps) / 2

open Classical in
/-- `bg::correct` of a ring: it is closed if it has more than two points and made clockwise -/
noncomputable def close (ps : List Pt) : List Pt :=
  if 2 < ps.length ∧ ps.head? ≠ ps.getLast? then ps ++ ps.head?.toList else ps

open Classical in
/-- see `close` -/
noncomputable def correct (ps : List Pt) : List Pt :=
  if area (close ps) < 0 then (close ps).reverse else close ps

/-- polygon.hpp:85-94 and 96-107: construction from points -/
noncomputable def ofPoints (big : ℝ) (c : Pose) (ps : List Pt) : Poly :=
  updateDistances big ⟨correct ps, c, 0, 0, 0, 0⟩

/-- polygon.hpp:124-142: construction from two lines; `*(line1.begin())` of an empty line is undefined -/
noncomputable def ofLines (big : ℝ) (l1 l2 : List Pt) : Res Poly :=
  match l1 with
  | [] => .error .ub
  | p :: ps => .ok (ofPoints big ⟨0, 0, 0⟩ ((p :: ps) ++ l2.reverse ++ [p]))

/-- polygon.hpp:197-200 -/
noncomputable def calculateArea (s : Poly) : ℝ := area s.pts

/-- commons.hpp:148-155 `BoundingBox` and polygon.hpp:294-306 `CalculateBoundingBoxPolygon` -/
noncomputable def boundingBox (big : ℝ) (s : Poly) : Poly :=
  let xmin := lo big (s.pts.map Prod.fst)
  let xmax := hi big (s.pts.map Prod.fst)
  let ymin := lo big (s.pts.map Prod.snd)
  let ymax := hi big (s.pts.map Prod.snd)
  ofPoints big s.center [(xmin, ymin), (xmin, ymax), (xmax, ymax), (xmax, ymin), (xmin, ymin)]

/-- standard_shapes.cpp:28-33 -/
noncomputable def carRectangle (big : ℝ) : Poly :=
  ofPoints big ⟨5 / 4, 0, 0⟩ [(-1, -1), (-1, 1), (3, 1), (3, -1), (-1, -1)]

/-- standard_shapes.cpp:53-62 -/
noncomputable def generateCarRectangle (big wheelbase r : ℝ) : Poly :=
  ofPoints big ⟨0, 0, 0⟩ [(-r, -r), (-r, r), (wheelbase + r, r), (wheelbase + r, -r), (-r, -r)]

/-- standard_shapes.cpp:64-70 -/
noncomputable def generateGoalRectangle (big length width : ℝ) : Poly :=
  ofPoints big ⟨width / 2, length / 2, 0⟩ [(0, 0), (0, length), (width, length), (width, 0), (0, 0)]

/-- standard_shapes.cpp:35-51 -/
noncomputable def generateCarLimousine (big wheelbase r : ℝ) : Poly :=
  let sl := (wheelbase + 2 * r) / 1.2906
  ofPoints big ⟨0, 0, 0⟩
    [(1.0000 * sl, 0 * r), (0.9797 * sl, -0.5178 * r), (0.8899 * sl, -0.9278 * r), (0.7569 * sl, -1.0000 * r),
     (0.3784 * sl, -1.0000 * r), (0 * sl, -1.0000 * r), (-0.1330 * sl, -0.9268 * r), (-0.2649 * sl, -0.6161 * r),
     (-0.2906 * sl, 0 * r), (-0.2649 * sl, 0.6161 * r), (-0.1330 * sl, 0.9268 * r), (0 * sl, 1.0000 * r),
     (0.3784 * sl, 1.0000 * r), (0.7569 * sl, 1.0000 * r), (0.8899 * sl, 0.9278 * r), (0.9797 * sl, 0.5178 * r),
     (1.0000 * sl, 0 * r)]

/-- agent.cpp:147-154 `GetPolygonFromState`: the outline of an agent at a pose -/
noncomputable def outlineAt (shape : Poly) (x y a : ℝ) : Poly := transform shape ⟨x, y, a⟩

/-- polygon.hpp:46-54 `ConcatenatePolygons`; `union` gives the parts of the union of the two corrected rings -/
noncomputable def concatenate (union : List Pt → List Pt → List (List Pt)) (s t : Poly) : Poly :=
  match union (correct s.pts) (correct t.pts) with
  | [] => { s with pts := correct s.pts }
  | m :: _ => { s with pts := m }

/-- polygon.hpp:264-292 `BufferPolygon`: `buffer` gives the parts of the buffered polygon; the outline is appended to the
polygon passed in, whose distances are not updated -/
noncomputable def bufferInto (buffer : List Pt → ℝ → List (List Pt)) (s : Poly) (d : ℝ) (out : Poly) : Bool × Poly :=
  match buffer (correct s.pts) d with
  | [m] => (true, { out with pts := out.pts ++ m })
  | _ => (false, out)

end Bark.Shape
