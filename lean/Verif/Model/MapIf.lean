import Verif.Model.Corridor

/-!
Model of `bark/world/map/map_interface.{hpp,cpp}` (the corridor cache, the routes from a start point to a goal region, the lane
lookups) and of `Agent::GenerateRoadCorridor`, on top of the models of the road graph and of the corridors. Not modelled here:
polygons and bounding boxes (except as a query), junction areas (only whether they were added).
-/
namespace Bark.MapIf

variable {K : Type} [LinearOrder K] {P : Type}

/-- an entry of the spatial index of lanes: the chord from the first to the last point of the lane's line, and the lane
(map_interface.hpp:33-38) -/
abbrev Entry (P : Type) := (P × P) × RG.Lane

/-- What is taken from libraries and geometry.
* `hash`: `RoadCorridor::GetHash`, road_corridor.hpp:82-89 (boost's hash)
* `len`: length of a centre line, as in the model of corridors; `fuel` bounds the number of lanes followed in a row
* `dij`: boost's Dijkstra search, as in the model of the road graph
* `line`: the line of a lane, `touch`: does the polygon of a lane touch a point, `none` if the lane has no polygon
* `knn`: the k nearest entries of the boost R-tree; a contract is stated in `Spec/MapIf.lean` -/
structure Env (K P : Type) where
  hash : RG.Dir → List Nat → Nat
  len : List Cor.Ptr → K
  fuel : Nat
  dij : RG.Graph → Nat → Nat → Nat
  line : Nat → List P
  touch : Nat → P → Option Bool
  knn : Nat → P → List (Entry P) → List (Entry P)

/-- a road corridor (road_corridor.hpp:160-170): roads, lane corridors, route, direction, and whether the areas of the junctions
were added to its polygon -/
structure Corr (K : Type) where
  roads : Cor.CRoads
  lanes : Cor.RC K
  ids : List Nat
  dir : RG.Dir
  junctions : Bool

/-- map_interface.hpp:130-142: the members; `none` is the null pointer -/
structure MI (K P : Type) where
  map : Option RG.XMap
  graph : Option RG.Graph
  rtree : List (Entry P)
  corridors : OMap Nat (Corr K)
  full : Bool
  csv : Bool

/-- map_interface.hpp:43-47: a new interface -/
def MI.new : MI K P := ⟨none, none, [], [], false, false⟩

/-- map_interface.cpp:33-34: chord of a line; an empty line is read out of bounds -/
def chord (l : List P) : Res (P × P) :=
  match l.head?, l.getLast? with
  | some a, some b => .ok (a, b)
  | _, _ => .error .ub

/-- map_interface.cpp:32-35: the entry of a lane -/
def entry (e : Env K P) (l : RG.Lane) : Res (Entry P) := do
  let c ← chord (e.line l.id)
  .ok (c, l)

/-- map_interface.cpp:28-38: the entries of all lanes except the reference lanes -/
def entries (e : Env K P) (m : RG.XMap) : Res (List (Entry P)) :=
  ((m.lanes.map (fun v => v.lane)).filter (fun l => decide (l.pos ≠ 0))).mapM (entry e)

/-- map_interface.cpp:20-42 `interface_from_opendrive` (and `SetOpenDriveMap`, map_interface.hpp:73-77): the new state and whether
it went through. A failure while the graph is generated leaves the new map with the old graph and index. -/
def setMap (e : Env K P) (s : MI K P) (m : RG.XMap) : MI K P × Res Unit :=
  match RG.generate m with
  | .error f => ({ s with map := some m }, .error f)
  | .ok g =>
    match entries e m with
    | .error f => ({ s with map := some m, graph := some g, rtree := [] }, .error f)
    | .ok t => ({ s with map := some m, graph := some g, rtree := t }, .ok ())

/-- the lane made by `interface_from_csvtable`, map_interface.cpp:91-106 -/
def csvLane : RG.Lane := ⟨0, -1, true, .forward, 0, 0⟩

/-- the road corridor made by `interface_from_csvtable`, map_interface.cpp:117-158: one road 0 with one lane 0; `zero` is the
arc length under which the lane is stored -/
def csvCorr (zero : K) : Corr K :=
  { roads := [(0, [(0, ⟨-1, true, .forward, none, none, none⟩)])]
    lanes := ⟨[[(zero, (0, 0))]], [0], [(0, 0)]⟩
    ids := [0], dir := .forward, junctions := false }

/-- map_interface.cpp:44-207 `interface_from_csvtable` with a table of center line `l`; an empty table is read out of bounds
(171-177). The map's road links are those of a default `XodrRoad`. -/
def setCsv (e : Env K P) (s : MI K P) (zero : K) (l : List P) : Res (MI K P) := do
  let c ← chord l
  .ok { s with
    map := some ⟨[(0, ⟨[[csvLane]], 1000000, false, 1000000, false⟩)], []⟩
    graph := some ⟨[⟨0, csvLane⟩], []⟩
    rtree := [(c, csvLane)]
    corridors := OMap.insert (e.hash .forward [0]) (csvCorr zero) s.corridors
    csv := true }

/-- map_interface.cpp:464-553: the corridor along `ids` (with first road `first`) -/
def build (e : Env K P) (m : RG.XMap) (g : RG.Graph) (full : Bool) (ids : List Nat) (first : Nat) (dir : RG.Dir) : Res (Corr K) := do
  let rs ← Cor.corridorRoads m g ids
  let lc ← Cor.calcAll rs e.len e.fuel first
  .ok ⟨rs, lc, ids, dir, full⟩

/-- map_interface.cpp:455-556 `GenerateRoadCorridor(road_ids, driving_direction)`; without map or graph a null pointer is
dereferenced -/
def generate (e : Env K P) (s : MI K P) (ids : List Nat) (dir : RG.Dir) : Res (MI K P) :=
  if (OMap.find (e.hash dir ids) s.corridors).isSome then .ok s
  else
    match ids with
    | [] => .ok s
    | first :: _ =>
      match s.map, s.graph with
      | some m, some g => do
        let c ← build e m g s.full ids first dir
        .ok { s with corridors := OMap.insert (e.hash dir ids) c s.corridors }
      | _, _ => .error .ub

/-- map_interface.hpp:108-114 `GetRoadCorridor` -/
def get (e : Env K P) (s : MI K P) (ids : List Nat) (dir : RG.Dir) : Option (Corr K) :=
  OMap.find (e.hash dir ids) s.corridors

/-- map_interface.cpp:209-231 `FindNearestXodrLanes`; `none` is the return value false -/
def nearest (e : Env K P) (s : MI K P) (p : P) (k : Nat) (drivingOnly : Bool) : Option (List RG.Lane) :=
  let r := if drivingOnly then e.knn k p (s.rtree.filter (fun x => x.2.driving)) else e.knn k p s.rtree
  if r = [] then none else some (r.map Prod.snd)

/-- map_interface.cpp:250-271 `IsInXodrLane` -/
def isIn (e : Env K P) (g : RG.Graph) (p : P) (id : Nat) : Bool :=
  match RG.lookup g id with
  | some _ => (e.touch id p).getD false
  | none => false

/-- map_interface.cpp:233-248 `FindXodrLane`: among the 20 (map_interface.hpp:44) nearest chords -/
def findLane (e : Env K P) (s : MI K P) (p : P) : Res (Option RG.Lane) :=
  match nearest e s p 20 false with
  | none => .ok none
  | some ls =>
    match s.graph with
    | some g => .ok (ls.find? (fun l => isIn e g p l.id))
    | none => .error .ub

/-- map_interface.hpp:115-117 `FindCurrentLane`: the result of the search is dereferenced -/
def currentLane (e : Env K P) (s : MI K P) (p : P) : Res Nat := do
  match ← findLane e s p with
  | some l => .ok l.id
  | none => .error .ub

/-- map_interface.hpp:118-121 `FindCurrentRoad` -/
def currentRoad (e : Env K P) (s : MI K P) (p : P) : Res Nat := do
  let id ← currentLane e s p
  match s.graph with
  | some g => RG.roadForLane g id
  | none => .error .ub

/-- map_interface.cpp:606-616 `XodrLaneIdAtPolygon`: `p` is the center of the polygon -/
def laneAtPolygon (e : Env K P) (s : MI K P) (p : P) : Option Nat :=
  match nearest e s p 1 true with
  | some (l :: _) => some l.id
  | _ => none

/-- map_interface.cpp:577-584: the roads of the lanes of a path -/
def roadsOf (g : RG.Graph) (ls : List Nat) : Res (List Nat) := ls.mapM (RG.roadForLane g)

/-- map_interface.cpp:558-588 `GenerateRoadCorridor(start_point, goal_region)`; `goal` is the center of the region -/
def generateTo (e : Env K P) (s : MI K P) (start goal : P) : Res (MI K P × Option (Corr K)) :=
  match nearest e s start 1 true, laneAtPolygon e s goal with
  | some (a :: _), some b =>
    match s.graph with
    | some g => do
      let ids ← roadsOf g (RG.findDrivableLanePath g (e.dij g) a.id b)
      let s' ← generate e s ids a.dir
      .ok (s', get e s' ids a.dir)
    | none => .error .ub
  | _, _ => .ok (s, none)

/-- the members of `Agent` used here (agent.hpp:199-222): position, centre of the goal's region if it has a goal, the road ids and
direction of its route, its corridor -/
structure Agent (K P : Type) where
  pos : P
  goal : Option P
  ids : List Nat
  dir : RG.Dir
  corr : Option (Corr K)

/-- agent.cpp:104-110: route from the goal; the corridor is dereferenced -/
def agentByGoal (e : Env K P) (s : MI K P) (a : Agent K P) (goal : P) : Res (MI K P × Agent K P) := do
  let r ← generateTo e s a.pos goal
  match r.2 with
  | some c => .ok (r.1, { a with corr := some c, ids := c.ids, dir := c.dir })
  | none => .error .ub

/-- agent.cpp:101-137 `Agent::GenerateRoadCorridor`: the interface and agent afterwards, and the return value -/
def agentCorridor (e : Env K P) (s : MI K P) (a : Agent K P) : Res (MI K P × Agent K P × Bool) :=
  if s.csv then
    let c := get e s [0] .forward
    .ok (s, { a with ids := [0], dir := .forward, corr := c }, c.isSome)
  else
    match a.ids, a.goal with
    | [], some goal => do
      let r ← agentByGoal e s a goal
      .ok (r.1, r.2, r.2.corr.isSome)
    | [], none => .ok (s, a, false)
    | id :: rest, _ => do
      let s' ← generate e s (id :: rest) a.dir
      let c := get e s' (id :: rest) a.dir
      .ok (s', { a with corr := c }, c.isSome)

/-- the calls that change the interface -/
inductive Op (K P : Type) where
  | map (m : RG.XMap)
  | csv (zero : K) (l : List P)
  | graph (g : RG.Graph)
  | full (b : Bool)
  | fromCsv (b : Bool)
  | generate (ids : List Nat) (dir : RG.Dir)
  | generateTo (start goal : P)

/-- one call: the state afterwards; a call that throws leaves the state as it was, except `map` (see `setMap`).
map_interface.hpp:73-87, 123-127 -/
def step (e : Env K P) (s : MI K P) : Op K P → MI K P
  | .map m => (setMap e s m).1
  | .csv z l => match setCsv e s z l with
    | .ok s' => s'
    | .error _ => s
  | .graph g => { s with graph := some g }
  | .full b => { s with full := b }
  | .fromCsv b => { s with csv := b }
  | .generate ids dir => match generate e s ids dir with
    | .ok s' => s'
    | .error _ => s
  | .generateTo a b => match generateTo e s a b with
    | .ok r => r.1
    | .error _ => s

end Bark.MapIf
