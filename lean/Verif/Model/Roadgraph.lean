import Verif.Model.Basic
import Mathlib.Order.Nat

/-!
Model of `bark/world/map/roadgraph.{hpp,cpp}`, `roadgraph_impl.hpp` and of the parts of `bark/world/opendrive` it reads.

Vertices are numbered by insertion; out-edges of a vertex are enumerated in insertion order (boost `vecS`). Polygons and lines
are omitted. Lane pointers stored in the graph are the immutable lane data. Boost's Dijkstra search is a parameter (its
predecessor map) with a contract stated in `Spec/Roadgraph.lean`.
-/
namespace Bark.RG

/-- opendrive/commons.hpp:90 `XodrDrivingDirection` -/
inductive Dir where
  | forward
  | backward
  | both
  deriving DecidableEq, Repr

/-- roadgraph.hpp:48-53 `XodrLaneEdgeType` -/
inductive Ty where
  | laneSucc
  | inner
  | outer
  | roadSucc
  deriving DecidableEq, Repr

/-- opendrive/lane.hpp:80-89: the fields of `XodrLane` used here; `driving` is `lane_type_ == DRIVING`, `fromPos`, `toPos` the
link -/
structure Lane where
  id : Nat
  pos : Int
  driving : Bool
  dir : Dir
  fromPos : Int
  toPos : Int
  deriving DecidableEq, Repr

/-- roadgraph.hpp:33-46 `XodrLaneVertex` -/
structure Vert where
  road : Nat
  lane : Lane
  deriving DecidableEq, Repr

/-- an edge of the boost graph, between vertex numbers -/
structure Edge where
  src : Nat
  dst : Nat
  ty : Ty
  deriving DecidableEq, Repr

/-- roadgraph.hpp:66-68 `XodrLaneGraph` -/
structure Graph where
  verts : List Vert
  edges : List Edge

/-- roadgraph.hpp:60-63: edge weights -/
def weight (t : Ty) : Nat := if t = .laneSucc then 1 else 10

/-- roadgraph.cpp:17-22 `AddLane` -/
def addLane (g : Graph) (road : Nat) (l : Lane) : Graph := { g with verts := g.verts ++ [⟨road, l⟩] }

/-- roadgraph.cpp:381-394 `GetVertexByLaneId` as (vertex, found) -/
def lookup (g : Graph) (id : Nat) : Option Nat := g.verts.findIdx? (fun v => v.lane.id == id)

/-- roadgraph.cpp:383: the vertex part of the result pair, 0 (value-initialised) when the lane is unknown -/
def vertexOf (g : Graph) (id : Nat) : Nat := (lookup g id).getD 0

/-- roadgraph.cpp:693-705 `AddEdgeOfType` -/
def addEdge (g : Graph) (s t : Nat) (ty : Ty) : Graph :=
  match lookup g s, lookup g t with
  | some a, some b => { g with edges := g.edges ++ [⟨a, b, ty⟩] }
  | _, _ => g

/-- lane id of a vertex number (`g_[v].global_lane_id`) -/
def idAt (g : Graph) (v : Nat) : Option Nat := (g.verts[v]?).map (fun x => x.lane.id)

/-- lane ids at the ends of the out-edges of type `ty` of vertex `v`; undefined for a vertex that does not exist -/
def outs (g : Graph) (v : Nat) (ty : Ty) : Res (List Nat) :=
  if v < g.verts.length then
    .ok ((g.edges.filter (fun e => decide (e.src = v ∧ e.ty = ty))).filterMap (fun e => idAt g e.dst))
  else .error .ub

/-- lane ids at the sources of the in-edges of type `ty` of vertex `v` -/
def ins (g : Graph) (v : Nat) (ty : Ty) : Res (List Nat) :=
  if v < g.verts.length then
    .ok ((g.edges.filter (fun e => decide (e.dst = v ∧ e.ty = ty))).filterMap (fun e => idAt g e.src))
  else .error .ub

/-- roadgraph.cpp:44-57 `GetSuccessorLanes` -/
def successors (g : Graph) (id : Nat) : Res (List Nat) := outs g (vertexOf g id) .laneSucc

/-- roadgraph.cpp:59-72 `GetPredecessorLanes` -/
def predecessors (g : Graph) (id : Nat) : Res (List Nat) := ins g (vertexOf g id) .laneSucc

/-- roadgraph.cpp:707-724 `GetNeighborFromEdgetype` followed by `front()`; `none` is the pair (0, false) -/
def neighbor (g : Graph) (id : Nat) (ty : Ty) : Res (Option Nat) :=
  match outs g (vertexOf g id) ty with
  | .ok l => .ok l.head?
  | .error f => .error f

/-- roadgraph.cpp:248-255 `GetInnerNeighbor` -/
def innerNeighbor (g : Graph) (id : Nat) : Res (Option Nat) := neighbor g id .inner

/-- roadgraph.cpp:257-262 `GetOuterNeighbor` -/
def outerNeighbor (g : Graph) (id : Nat) : Res (Option Nat) := neighbor g id .outer

/-- roadgraph.cpp:264-269 `GetOuterNeighborsPlanview` -/
def outerNeighbors (g : Graph) (id : Nat) : Res (List Nat) := outs g (vertexOf g id) .outer

/-- roadgraph.cpp:168-175 `GetLanePtr` -/
def getLane (g : Graph) (id : Nat) : Option Lane :=
  match lookup g id with
  | some v => (g.verts[v]?).map (fun x => x.lane)
  | none => none

/-- roadgraph.cpp:243-246 `GetRoadForLaneId` -/
def roadForLane (g : Graph) (id : Nat) : Res Nat :=
  match g.verts[vertexOf g id]? with
  | some v => .ok v.road
  | none => .error .ub

/-- roadgraph.cpp:177-186 `GetAllLaneids` -/
def allLaneIds (g : Graph) : List Nat :=
  (g.verts.filter (fun v => decide (v.lane.pos ≠ 0))).map (fun v => v.lane.id)

/-- roadgraph.cpp:188-200 `GetPlanViewForRoadId` -/
def planViewForRoad (g : Graph) (road : Nat) : Option Nat :=
  (g.verts.find? (fun v => decide (v.road = road ∧ v.lane.pos = 0))).map (fun v => v.lane.id)

/-- roadgraph.cpp:202-213 `GetDrivingDirectionsForRoadId`: (directions, road_found) -/
def directionsForRoad (g : Graph) (road : Nat) : List Dir × Bool :=
  g.verts.foldl (fun acc v => if v.road = road then (acc.1 ++ [v.lane.dir], acc.2) else acc) ([], false)

/-- roadgraph.cpp:215-236 `GetPlanViewForLaneId`; the recursion follows inner neighbours. `fuel` bounds the recursion depth. -/
def planViewLoop (g : Graph) : Nat → Nat → Res (Option Nat)
  | 0, _ => .error .diverges
  | n + 1, id =>
    match getLane g id with
    | none => .error .ub
    | some l =>
      if l.pos = 0 then .ok (some id)
      else
        match innerNeighbor g id with
        | .ok (some i) => planViewLoop g n i
        | .ok none => .ok none
        | .error f => .error f

/-- roadgraph.cpp:215-236 `GetPlanViewForLaneId`: every vertex is visited at most once or the recursion is infinite -/
def planViewForLane (g : Graph) (id : Nat) : Res (Option Nat) := planViewLoop g (g.verts.length + 1) id

/-- roadgraph.cpp:283-293: inner neighbours up to the reference lane (excluded); `fuel` bounds the loop -/
def innerLoop (g : Graph) : Nat → Nat → Res (List Nat)
  | 0, _ => .error .diverges
  | n + 1, cur =>
    match innerNeighbor g cur with
    | .error f => .error f
    | .ok none => .ok []
    | .ok (some nxt) => (innerLoop g n nxt).map (fun l => cur :: l)

/-- roadgraph.cpp:295-300: outer neighbours -/
def outerLoop (g : Graph) : Nat → Option Nat → Res (List Nat)
  | _, none => .ok []
  | 0, some _ => .error .diverges
  | n + 1, some cur =>
    match outerNeighbor g cur with
    | .error f => .error f
    | .ok nxt => (outerLoop g n nxt).map (fun l => cur :: l)

/-- roadgraph.cpp:271-303 `GetAllNeighbors` -/
def allNeighbors (g : Graph) (id : Nat) : Res (List Nat) :=
  match getLane g id with
  | none => .error .ub
  | some l =>
    if l.pos = 0 then .error .thrown
    else do
      let i ← innerNeighbor g id
      let a ← (match i with
        | some c => innerLoop g (g.verts.length + 1) c
        | none => .ok [])
      let o ← outerNeighbor g id
      let b ← outerLoop g (g.verts.length + 1) o
      .ok (a ++ b)

/-- roadgraph.cpp:726-742 `GetNextLane` -/
def nextLane (g : Graph) (roads : List Nat) (id : Nat) : Res (Option Nat) :=
  if vertexOf g id < g.verts.length then
    .ok ((g.edges.filter (fun e => decide (e.src = vertexOf g id ∧ e.ty = .laneSucc))).findSome? (fun e =>
      match g.verts[e.dst]? with
      | some v => if v.road ∈ roads then some v.lane.id else none
      | none => none))
  else .error .ub

/-- roadgraph.cpp:748-757, 782-791: towards the reference lane; if that is reached, the first other lane next to it -/
def innerOrAcross (g : Graph) (id : Nat) : Res (Option Nat) := do
  let i ← innerNeighbor g id
  match i with
  | none => .ok none
  | some c =>
    match getLane g c with
    | none => .error .ub
    | some lc =>
      if lc.pos ≠ 0 then .ok (some c)
      else do
        let os ← outerNeighbors g c
        .ok (os.find? (fun o => decide (o ≠ id)))

/-- roadgraph.cpp:744-765 `GetLeftLane` -/
def leftLane (g : Graph) (id : Nat) (d : Dir) : Res (Option Nat) :=
  match getLane g id with
  | none => .error .ub
  | some l => if d = l.dir then innerOrAcross g id else outerNeighbor g id

/-- roadgraph.cpp:767-795 `GetRightLane` -/
def rightLane (g : Graph) (id : Nat) (d : Dir) : Res (Option Nat) :=
  match getLane g id with
  | none => .error .ub
  | some l => if d = l.dir then outerNeighbor g id else innerOrAcross g id

/-- roadgraph.cpp:797-808 `GetLeftBoundary` -/
def leftBoundary (g : Graph) (id : Nat) (d : Dir) : Res (Option Nat) :=
  match getLane g id with
  | none => .error .ub
  | some l => if d = l.dir then innerNeighbor g id else .ok (some id)

/-- roadgraph.cpp:810-821 `GetRightBoundary` -/
def rightBoundary (g : Graph) (id : Nat) (d : Dir) : Res (Option Nat) :=
  match getLane g id with
  | none => .error .ub
  | some l => if d = l.dir then .ok (some id) else innerNeighbor g id

/-! ### Generation from a map -/

/-- opendrive/road.hpp:66-72, commons.hpp:27-45: lane sections and links of a road; `succIsRoad` is `type_ == "road"` -/
structure Road where
  sections : List (List Lane)
  succId : Nat
  succIsRoad : Bool
  predId : Nat
  predIsRoad : Bool

/-- opendrive/commons.hpp:81-88 `Connection` -/
structure Conn where
  incoming : Nat
  connecting : Nat
  links : List (Int × Int)

/-- opendrive.hpp:68-71: roads by id; the connections of all junctions in iteration order -/
structure XMap where
  roads : OMap Nat Road
  conns : List Conn

/-- lane_section.cpp:24-33 `GetLaneByPosition`: the last one wins -/
def laneByPos (s : List Lane) (p : Int) : Option Lane := (s.filter (fun l => decide (p = l.pos))).getLast?

/-- all lanes with their road, in iteration order -/
def XMap.lanes (m : XMap) : List Vert :=
  m.roads.flatMap (fun r => r.2.sections.flatMap (fun s => s.map (fun l => ⟨r.1, l⟩)))

/-- roadgraph.cpp:396-406 `GenerateVertices` -/
def genVertices (g : Graph) (m : XMap) : Graph := m.lanes.foldl (fun g v => addLane g v.road v.lane) g

/-- roadgraph.cpp:524-529: the position next to `p` towards the reference lane -/
def innerPos (p : Int) : Int := if p > 0 then p - 1 else p + 1

/-- roadgraph.cpp:523-539: the edges added for one lane -/
def laneNeighborEdges (s : List Lane) (l : Lane) : List (Nat × Nat × Ty) :=
  if l.pos ≠ 0 then
    match laneByPos s (innerPos l.pos) with
    | some i => [(l.id, i.id, .inner), (i.id, l.id, .outer)]
    | none => []
  else []

/-- all lane sections of the map -/
def XMap.sections (m : XMap) : List (List Lane) := m.roads.flatMap (fun r => r.2.sections)

/-- roadgraph.cpp:516-543 `GenerateNeighbours` -/
def genNeighbours (g : Graph) (m : XMap) : Graph :=
  (m.sections.flatMap (fun s => s.flatMap (laneNeighborEdges s))).foldl (fun g e => addEdge g e.1 e.2.1 e.2.2) g

/-- `vector::front()` -/
def front {α : Type} : List α → Res α
  | a :: _ => .ok a
  | [] => .error .ub

/-- `vector::back()` -/
def back {α : Type} (l : List α) : Res α :=
  match l.getLast? with
  | some a => .ok a
  | none => .error .ub

/-- roadgraph.cpp:467-476, 496-505, 569-580: connect two lanes in both directions, and their roads through the reference lanes.
A missing reference lane counts as lane id 0. -/
def connect (g : Graph) (a b : Nat) : Res Graph := do
  let g1 := addEdge (addEdge g a b .laneSucc) b a .laneSucc
  let pa ← planViewForLane g1 a
  let pb ← planViewForLane g1 b
  .ok (addEdge (addEdge g1 (pa.getD 0) (pb.getD 0) .roadSucc) (pb.getD 0) (pa.getD 0) .roadSucc)

/-- roadgraph.cpp:454-478: the successor part for one lane; the flag tells whether to go on with the predecessor part
(`continue` at line 460) -/
def succPart (g : Graph) (succ : Option (List Lane)) (l : Lane) : Res (Graph × Bool) :=
  match succ with
  | none => .ok (g, true)
  | some s =>
    if l.toPos = 0 then .ok (g, false)
    else
      match laneByPos s l.toPos with
      | some b => (connect g l.id b.id).map (fun g => (g, true))
      | none => .ok (g, true)

/-- roadgraph.cpp:480-510: the predecessor part for one lane -/
def predPart (g : Graph) (pred : Option (List Lane)) (l : Lane) : Res Graph :=
  match pred with
  | none => .ok g
  | some s =>
    if l.fromPos = 0 then .ok g
    else
      match laneByPos s l.fromPos with
      | some b => connect g b.id l.id
      | none => .ok g

/-- roadgraph.cpp:452-511: one lane -/
def linkLane (succ pred : Option (List Lane)) (g : Graph) (l : Lane) : Res Graph := do
  let r ← succPart g succ l
  if r.2 then predPart r.1 pred l else .ok r.1

/-- roadgraph.cpp:426-436 / 438-447: the lane section the road is linked to -/
def linkedSection (m : XMap) (isRoad : Bool) (id : Nat) (pick : List (List Lane) → Res (List Lane)) :
    Res (Option (List Lane)) :=
  if isRoad then
    match OMap.find id m.roads with
    | some r => (pick r.sections).map some
    | none => .ok none
  else .ok none

/-- a loop over a vector that may fail -/
def foldRes {α β : Type} (f : β → α → Res β) : β → List α → Res β
  | b, [] => .ok b
  | b, a :: l => do
    let b' ← f b a
    foldRes f b' l

/-- roadgraph.cpp:410-513: one road; roads with a large successor id are skipped altogether (line 417) -/
def linkRoad (m : XMap) (g : Graph) (r : Nat × Road) : Res Graph :=
  if r.2.succId > 1000 then .ok g
  else do
    let succ ← linkedSection m r.2.succIsRoad r.2.succId front
    let pred ← linkedSection m r.2.predIsRoad r.2.predId back
    foldRes (linkLane succ pred) g r.2.sections.flatten

/-- roadgraph.cpp:408-514 `GeneratePreAndSuccessors` -/
def genLinks (g : Graph) (m : XMap) : Res Graph := foldRes (linkRoad m) g m.roads

/-- roadgraph.cpp:558-585: one lane link of a connection -/
def linkConn (pre suc : List Lane) (g : Graph) (k : Int × Int) : Res Graph :=
  match laneByPos pre k.1, laneByPos suc k.2 with
  | some a, some b => connect g a.id b.id
  | _, _ => .ok g

/-- opendrive.hpp:44 `GetRoad` (`map::at`) -/
def getRoad (m : XMap) (id : Nat) : Res Road :=
  match OMap.find id m.roads with
  | some r => .ok r
  | none => .error .thrown

/-- roadgraph.cpp:549-586: one connection -/
def linkConnection (m : XMap) (g : Graph) (c : Conn) : Res Graph := do
  let a ← getRoad m c.incoming
  let b ← getRoad m c.connecting
  let pre ← front a.sections
  let suc ← front b.sections
  foldRes (linkConn pre suc) g c.links

/-- roadgraph.cpp:545-589 `GenerateFromJunctions` -/
def genJunctions (g : Graph) (m : XMap) : Res Graph := foldRes (linkConnection m) g m.conns

/-- roadgraph.cpp:619-629 `Generate` on an empty graph, without the polygons -/
def generate (m : XMap) : Res Graph := do
  let g ← genLinks (genNeighbours (genVertices ⟨[], []⟩ m) m) m
  genJunctions g m

/-! ### Path search -/

/-- boost `filtered_graph`: an edge is visible when the edge predicate and the vertex predicate of both ends hold -/
def visible (g : Graph) (okE : Graph → Edge → Bool) (okV : Vert → Bool) (e : Edge) : Bool :=
  okE g e && (match g.verts[e.src]?, g.verts[e.dst]? with
    | some a, some b => okV a && okV b
    | _, _ => false)

/-- roadgraph_impl.hpp:18-31 `CheckIdInFilteredGraph` -/
def inFiltered (g : Graph) (okV : Vert → Bool) (id : Nat) : Bool := g.verts.any (fun v => v.lane.id == id && okV v)

/-- roadgraph_impl.hpp:72-85: follow the predecessor map `p` from the goal; `none` is the early return of an empty path -/
def walkBack (g : Graph) (p : Nat → Nat) (start : Nat) : Nat → Nat → Option (List Nat)
  | 0, _ => some []
  | n + 1, cur =>
    if cur = start then some []
    else if p cur = cur then none
    else (walkBack g p start n (p cur)).map (fun l => (idAt g cur).getD 0 :: l)

/-- roadgraph_impl.hpp:33-90 `FindPath`; `p start` is the predecessor map computed by Dijkstra's algorithm on the filtered
graph from vertex `start` -/
def findPath (g : Graph) (okV : Vert → Bool) (p : Nat → Nat → Nat) (s t : Nat) : List Nat :=
  match lookup g s, lookup g t with
  | some a, some b =>
    if inFiltered g okV s && inFiltered g okV t then
      match walkBack g (p a) a g.verts.length b with
      | some l => (l ++ [(idAt g a).getD 0]).reverse
      | none => []
    else []
  | _, _ => []

/-- roadgraph.hpp:92-108 `TypeDriving` (vertex part; the edge part follows) -/
def drivingV (v : Vert) : Bool := v.lane.driving

/-- roadgraph.hpp:92-108 `TypeDriving` (edge part) -/
def drivingE (g : Graph) (e : Edge) : Bool :=
  match g.verts[e.src]?, g.verts[e.dst]? with
  | some a, some b => a.lane.driving && b.lane.driving
  | _, _ => false

/-- roadgraph.hpp:110-121 `EdgeTypeRoadSuccessor` (edge part; every vertex is visible) -/
def roadE (_ : Graph) (e : Edge) : Bool := decide (e.ty = .roadSucc)

/-- roadgraph.cpp:92-95 `FindDrivableLanePath` -/
def findDrivableLanePath (g : Graph) (p : Nat → Nat → Nat) (s t : Nat) : List Nat := findPath g drivingV p s t

/-- roadgraph.cpp:74-90 `FindRoadPath` -/
def findRoadPath (g : Graph) (p : Nat → Nat → Nat) (s t : Nat) : Res (List Nat) :=
  match planViewForRoad g s, planViewForRoad g t with
  | some a, some b => (findPath g (fun _ => true) p a b).mapM (roadForLane g)
  | _, _ => .ok []

/-- map_interface.cpp:590-604 `GenerateRoadCorridor(start_road_id, end_road_id)`; `build` stands for the generation and lookup
of the corridor along the roads found, `none` for the null pointer -/
def corridorByRoadIds {C : Type} (build : List Nat → Dir → C) (g : Graph) (p : Nat → Nat → Nat) (s t : Nat) :
    Res (Option C) := do
  let roads ← findRoadPath g p s t
  if (directionsForRoad g s).2 = false then .ok none
  else
    match (directionsForRoad g s).1 with
    | d :: _ => .ok (some (build roads d))
    | [] => .error .thrown

/-- roadgraph.cpp:101-106: edge predicate of `FindAllPathsInSubgraph` -/
def subE (types : List Ty) (_ : Graph) (e : Edge) : Bool := decide (e.ty ∈ types)

/-- roadgraph.cpp:107-111: vertex predicate of `FindAllPathsInSubgraph` -/
def subV (lanes : List Nat) (v : Vert) : Bool := decide (v.lane.id ∈ lanes)

/-- roadgraph.cpp:146-155: follow the predecessor map; the loop has no bound in the code, `fuel` steps without an end count as
divergence -/
def walkSub (g : Graph) (p : Nat → Nat) (start : Nat) : Nat → Nat → Res (Option (List Nat))
  | 0, cur => if cur = start then .ok (some []) else .error .diverges
  | n + 1, cur =>
    if cur = start then .ok (some [])
    else if p cur = cur then .ok none
    else (walkSub g p start n (p cur)).map (fun o => o.map (fun l => (idAt g cur).getD 0 :: l))

/-- vertices of the filtered graph, in order -/
def fVerts (g : Graph) (okV : Vert → Bool) : List Nat :=
  (List.range g.verts.length).filter (fun v => (g.verts[v]?).any okV)

/-- roadgraph.cpp:140-162: the path to one goal, if there is one -/
def pathTo (g : Graph) (p : Nat → Nat) (start goal : Nat) : Res (List (List Nat)) :=
  (walkSub g p start g.verts.length goal).map (fun o =>
    match o with
    | some l => [(l ++ [(idAt g start).getD 0]).reverse]
    | none => [])

/-- roadgraph.cpp:97-166 `FindAllPathsInSubgraph`; `p start` as in `findPath` -/
def findAllPaths (g : Graph) (types : List Ty) (lanes : List Nat) (p : Nat → Nat → Nat) : Res (List (List Nat)) :=
  let vis := g.edges.filter (visible g (subE types) (subV lanes))
  let sources := (fVerts g (subV lanes)).filter (fun v => !vis.any (fun e => e.dst == v))
  let sinks := (fVerts g (subV lanes)).filter (fun v => !vis.any (fun e => e.src == v))
  (sources.flatMap (fun a => sinks.map (fun b => (a, b)))).foldr
    (fun ab acc => do
      let x ← pathTo g (p ab.1) ab.1 ab.2
      let y ← acc
      .ok (x ++ y)) (.ok [])

end Bark.RG
