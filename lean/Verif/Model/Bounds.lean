import Verif.Model.Xodr
import Verif.Model.Shape
import Verif.Model.World

/-!
Model of the bounding boxes of lines, maps and agents: `bark/geometry/commons.hpp:148-155`,
`bark/geometry/line.hpp:653-661`, `bark/world/opendrive/opendrive.hpp:53-64`, the geometry of
`MapInterface::interface_from_csvtable`, and of `SmoothLine`.  The largest `double` is the parameter `big`.
-/
namespace Bark.Bnd
open Bark Bark.Ln
open Bark.Shape (lo hi)

/-- a box: lower left and upper right corner -/
abbrev Box := Pt × Pt

/-- commons.hpp:148-155 `BoundingBox`: boost `envelope` and `correct`; no points give the largest box there is, see `lo` -/
noncomputable def envelope (big : ℝ) (ps : List Pt) : Box :=
  ((lo big (ps.map Prod.fst), lo big (ps.map Prod.snd)), (hi big (ps.map Prod.fst), hi big (ps.map Prod.snd)))

/-- opendrive.hpp:53-64 `OpenDriveMap::BoundingBox`: the loops over roads, lane sections and lanes -/
noncomputable def mapLine (m : Xodr.XMap) : Line :=
  m.roads.foldl (fun acc r => r.2.sections.foldl (fun acc s => s.lanes.foldl (fun acc l => appendLinestring acc l.line) acc) acc)
    empty

/-- opendrive.hpp:53-64 `OpenDriveMap::BoundingBox` -/
noncomputable def mapBox (big : ℝ) (m : Xodr.XMap) : Box := envelope big (mapLine m).pts

/-- line.hpp:653-661 `MergeBoundingBoxes` -/
noncomputable def merge (big : ℝ) (a b : Box) : Box :=
  envelope big (addPoint (addPoint (addPoint (addPoint empty a.1) a.2) b.1) b.2).pts

/-- boost `within` of boxes: `b` does not exceed `a` and has an extent, in both coordinates -/
noncomputable def within (b a : Box) : Bool :=
  open Classical in
  decide (a.1.1 ≤ b.1.1 ∧ b.2.1 ≤ a.2.1 ∧ b.1.1 < b.2.1) && decide (a.1.2 ≤ b.1.2 ∧ b.2.2 ≤ a.2.2 ∧ b.1.2 < b.2.2)

/-- a row of the table, map_interface.cpp:60-69: points of the center, right and left line -/
structure Row where
  center : Pt
  right : Pt
  left : Pt

/-- map_interface.cpp:62-67: the offset is subtracted -/
def moved (o p : Pt) : Pt := (p.1 - o.1, p.2 - o.2)

/-- map_interface.cpp:74-80: the center line -/
noncomputable def csvCenter (o : Pt) (rows : List Row) : Line := (rows.map fun r => moved o r.center).foldl addPoint empty

/-- map_interface.cpp:82-90: the outline of the lane -/
def csvOutline (o : Pt) (rows : List Row) : List Pt :=
  rows.map (fun r => moved o r.left) ++ (rows.map fun r => moved o r.right).reverse

/-- map_interface.cpp:179-187: the bounding box -/
noncomputable def csvBox (big : ℝ) (o : Pt) (rows : List Row) : Box := envelope big (csvOutline o rows)

/-- line.hpp:599-627 `SmoothLine`; `spline` gives the interpolating spline through the points over the arc lengths
(tk::spline is not modelled; it aborts unless the arc lengths are strictly increasing); the number of points does not fit in
an `int` for `ds = 0`, and is compared as unsigned if it is negative -/
noncomputable def smoothLine (spline : List ℝ → List ℝ → ℝ → ℝ) (l : Line) (ds : ℝ) : Res Line :=
  open Classical in
  if l.pts.length < 3 then .ok l
  else if ¬ l.s.Pairwise (· < ·) then .error .thrown
  else if ds = 0 then .error .ub
  else if Ln.length l.pts / ds ≤ -1 then .error .diverges
  else
    let n := ⌊Ln.length l.pts / ds⌋₊
    let pts := (List.range (n + 1)).map fun (j : Nat) =>
      (spline l.s (l.pts.map Prod.fst) (j * ds), spline l.s (l.pts.map Prod.snd) (j * ds))
    let lss := pts.foldl addPoint empty
    if n * ds < Ln.length l.pts then do
      let p ← at' l.pts ((l.pts.length : Int) - 1)
      .ok (addPoint lss p)
    else .ok lss

end Bark.Bnd
