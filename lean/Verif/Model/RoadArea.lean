import Verif.Model.Roadgraph
import Mathlib.Algebra.Order.Field.Basic

/-!
The areas of lanes, junctions and road corridors: `roadgraph.cpp`, `road_corridor.hpp`, `map_interface.cpp`, `polygon.hpp`.

A polygon is an outer ring and its holes; the cached distances of a polygon are left out (see `Model/Shape.lean`). Boost's `correct`, `union_`
and `buffer` are parameters; contracts are stated in `Spec/RoadArea.lean`. The line of a lane and the junction it belongs to are functions of
the lane's id.
-/
namespace Bark.Areas
variable {P K : Type}

/-- boost's polygon: outer ring and holes (polygon.hpp:20-46) -/
structure Reg (P : Type) where
  outer : List P
  inners : List (List P)

/-- a new polygon (polygon.hpp:78-83) -/
def Reg.new : Reg P := ⟨[], []⟩

/-- the three boost functions used (polygon.hpp:49-51, 277-280) -/
structure Lib (P K : Type) where
  correct : Reg P → Reg P
  union : Reg P → Reg P → List (Reg P)
  buffer : Reg P → K → List (Reg P)

/-- polygon.hpp:47-55 `ConcatenatePolygons` -/
def concat (L : Lib P K) (s t : Reg P) : Reg P :=
  match L.union (L.correct s) (L.correct t) with
  | [] => L.correct s
  | m :: _ => m

/-- polygon.hpp:264-293 `BufferPolygon` into a new polygon: success and the polygon afterwards -/
def bufferNew (L : Lib P K) (s : Reg P) (d : K) : Bool × Reg P :=
  match L.buffer (L.correct s) d with
  | [m] => (true, ⟨m.outer, []⟩)
  | _ => (false, Reg.new)

/-- roadgraph.cpp:631-651 `ComputeXodrLaneBoundaries`: the inner one, if there is one, and the outer one. The lane of an unknown id is that of
the first vertex. -/
def laneBoundaries (g : RG.Graph) (id : Nat) : Res (Option RG.Lane × RG.Lane) :=
  match g.verts[RG.vertexOf g id]? with
  | none => .error .ub
  | some o =>
    match RG.innerNeighbor g id with
    | .error f => .error f
    | .ok none => .ok (none, o.lane)
    | .ok (some j) => .ok (RG.getLane g j, o.lane)

/-- roadgraph.cpp:653-665 `ComputeRouteBoundaries` -/
def routeBoundaries (g : RG.Graph) : List Nat → Res (List (Option RG.Lane) × List RG.Lane)
  | [] => .ok ([], [])
  | h :: hs =>
    match laneBoundaries g h with
    | .error f => .error f
    | .ok b =>
      match routeBoundaries g hs with
      | .error f => .error f
      | .ok r => .ok (b.1 :: r.1, b.2 :: r.2)

/-- roadgraph.cpp:667-691 `ComputeXodrLanePolygon`; `none` is the pair (…, false). The first point of an empty inner line is read. -/
def lanePolygon (g : RG.Graph) (line : Nat → List P) (id : Nat) : Res (Option (List P)) :=
  match laneBoundaries g id with
  | .error f => .error f
  | .ok (none, _) => .ok none
  | .ok (some i, o) =>
    match line i.id with
    | [] => .error .ub
    | a :: t => .ok (some ((a :: t) ++ (line o.id).reverse ++ [a]))

/-- roadgraph.cpp:594-601: the polygon stored for a vertex; map_interface.cpp:428-438 `GenerateRoadCorridorLane`: that of a lane of a corridor -/
def vertexPolygon (g : RG.Graph) (line : Nat → List P) (l : RG.Lane) : Res (Option (List P)) :=
  if l.pos ≠ 0 then lanePolygon g line l.id else .ok none

/-- roadgraph.cpp:591-604 `GeneratePolygonsForVertices` for the given vertices -/
def polygons (g : RG.Graph) (line : Nat → List P) : List RG.Vert → Res (List (Option (List P)))
  | [] => .ok []
  | v :: vs =>
    match vertexPolygon g line v.lane with
    | .error f => .error f
    | .ok p =>
      match polygons g line vs with
      | .error f => .error f
      | .ok ps => .ok (p :: ps)

/-- roadgraph.cpp:606-617 `SetPolygonForVertexFromId` -/
def setPolygon (g : RG.Graph) (polys : List (Option (List P))) (id : Nat) (p : List P) : Bool × List (Option (List P)) :=
  match RG.lookup g id with
  | none => (false, polys)
  | some v => (true, polys.set v (some p))

/-- roadgraph.cpp:826-834: one vertex with its polygon; `junc` gives the junction of a lane (opendrive/lane.hpp:76-77, 84-85) -/
def junctionStep (L : Lib P K) (junc : Nat → Option Nat) (jid : Nat) (a : Reg P) (x : RG.Vert × Option (List P)) : Reg P :=
  if junc x.1.lane.id = some jid ∧ x.1.lane.driving = true then
    match x.2 with
    | some p => concat L a ⟨p, []⟩
    | none => a
  else a

/-- roadgraph.cpp:823-838 `ComputeJunctionArea`, map_interface.cpp:626-630 -/
def junctionArea (L : Lib P K) (junc : Nat → Option Nat) (g : RG.Graph) (polys : List (Option (List P))) (jid : Nat) : Reg P :=
  ⟨((g.verts.zip polys).foldl (junctionStep L junc jid) Reg.new).outer, []⟩

/-- a lane of a lane corridor (map/lane.hpp): its id and polygon, which is a new one if none was set -/
structure CLane (P : Type) where
  id : Nat
  poly : Reg P

/-- road_corridor.hpp:114-129 `ComputeRoadPolygon` with the lanes of the unique lane corridors, as (result, road polygon) -/
def roadPolygon [Neg K] (L : Lib P K) (d : K) (corrs : List (List (CLane P))) : Bool × Reg P :=
  let merged := corrs.foldl (fun a lanes => lanes.foldl (fun a l => concat L a (bufferNew L l.poly d).2) a) Reg.new
  (true, (bufferNew L merged (-d)).2)

/-- road_corridor.hpp:134-147 `AddPolygonToRoadCorridor` -/
def addPolygon [Neg K] (L : Lib P K) (d : K) (road input : Reg P) : Reg P :=
  (bufferNew L (concat L (bufferNew L road d).2 (bufferNew L input d).2) (-d)).2

/-- road_corridor.hpp:148-159 `GetJunctionIds` -/
def junctionIds (junc : Nat → Option Nat) (corrs : List (List (CLane P))) : List Nat :=
  corrs.flatMap (fun lanes => lanes.filterMap (fun l => junc l.id))

/-- map_interface.cpp:547-553: the area of a generated road corridor; `full` is `full_junction_area_` -/
def corridorArea [Field K] (L : Lib P K) (junc : Nat → Option Nat) (g : RG.Graph) (polys : List (Option (List P))) (full : Bool)
    (corrs : List (List (CLane P))) : Reg P :=
  let r := (roadPolygon L (3 / 10) corrs).2
  if full then (junctionIds junc corrs).foldl (fun a j => addPolygon L (1 / 10) a (junctionArea L junc g polys j)) r else r

end Bark.Areas
