import Verif.Model.Roadgraph

/-!
Road corridors: lanes of the roads on a route, their links, and the lane corridors built from them.

Simplifications: lane pointers are pairs (road id, lane id); the geometry enters only through `cl`, the length of the centre line
of a sequence of lanes; every lane has a non-empty centre line (concatenation of an empty line is undefined in the code).
Boundaries, polygons, simplification of lines and the cache of corridors (map_interface.cpp:458-462) are not modelled.
-/
namespace Bark.Cor

/-- a lane pointer: road and lane id -/
abbrev Ptr := Nat × Nat

/-- map/lane.hpp:41-83 `Lane`, the fields used here -/
structure CLane where
  pos : Int
  driving : Bool
  dir : RG.Dir
  left : Option Nat
  right : Option Nat
  next : Option Ptr

/-- map/road.hpp:28-49 `Roads` -/
abbrev CRoads := OMap Nat (OMap Nat CLane)

/-- the lane a pointer points to -/
def laneAt (rs : CRoads) (p : Ptr) : Option CLane :=
  match OMap.find p.1 rs with
  | some ls => OMap.find p.2 ls
  | none => none

/-- map/lane.hpp:46 `GetNextLane` -/
def nextOf (rs : CRoads) (p : Ptr) : Option Ptr :=
  match laneAt rs p with
  | some l => l.next
  | none => none

/-- map_interface.cpp:440-453 `GenerateRoadCorridorRoad` (and 428-438 `GenerateRoadCorridorLane`, without polygons) -/
def genRoad (m : RG.XMap) (id : Nat) : Res (OMap Nat CLane) :=
  match RG.getRoad m id with
  | .ok r => .ok (r.sections.flatten.foldl (fun ls l =>
      OMap.insert l.id ⟨l.pos, l.driving, l.dir, none, none, none⟩ ls) [])
  | .error f => .error f

/-- map_interface.cpp:464-466 -/
def genRoads (m : RG.XMap) (ids : List Nat) : Res CRoads :=
  RG.foldRes (fun rs id => do
    let ls ← genRoad m id
    .ok (OMap.insert id ls rs)) [] ids

/-- map/road.hpp:34-37 `GetLane`: does the road have the lane -/
def hasLane (rs : CRoads) (p : Ptr) : Bool := (laneAt rs p).isSome

/-- map_interface.cpp:489-492: the new next lane of a lane; `old` when it is not set -/
def newNext (rs : CRoads) (nextRoad : Option Nat) (nl : Option Nat) (old : Option Ptr) : Option Ptr :=
  match nl, nextRoad with
  | some b, some r => if hasLane rs (r, b) then some (r, b) else none
  | _, _ => old

/-- map_interface.cpp:495-509: a side lane is only overwritten when the road graph names one -/
def newSide (rs : CRoads) (road : Nat) (n : Option Nat) (old : Option Nat) : Option Nat :=
  match n with
  | some b => if hasLane rs (road, b) then some b else none
  | none => old

/-- map_interface.cpp:475-509: links of one lane; `cur` is `road_ids[count]` -/
def linkLane (g : RG.Graph) (rs : CRoads) (road : Nat) (nextRoad : Option Nat) (cur : Nat) (x : Nat × CLane) :
    Res (Nat × CLane) := do
  let nl ← RG.nextLane g [cur] x.1
  let ll ← RG.leftLane g x.1 x.2.dir
  let rl ← RG.rightLane g x.1 x.2.dir
  .ok (x.1, { x.2 with
    next := newNext rs nextRoad nl x.2.next
    left := newSide rs road ll x.2.left
    right := newSide rs road rl x.2.right })

/-- map_interface.cpp:469-473: `count` after the increment, the next road -/
def advance (ids : List Nat) (count : Nat) : Nat × Option Nat :=
  if count + 1 < ids.length then (count + 1, ids[count + 1]?) else (count, none)

/-- map_interface.cpp:474-540: links of the lanes of one road (`road_ids[count]` exists, since `count < size`). The lanes of the
road are linked one after the other; only `has` queries look at the other lanes, and these do not change. -/
def linkRoad (g : RG.Graph) (ids : List Nat) (rs : CRoads) (count : Nat) (road : Nat) : Res CRoads :=
  match OMap.find road rs, ids[(advance ids count).1]? with
  | some ls, some cur => do
    let ls' ← ls.mapM (linkLane g rs road (advance ids count).2 cur)
    .ok (OMap.insert road ls' rs)
  | _, _ => .error .ub

/-- map_interface.cpp:468-541: the loop over the roads -/
def linkLoop (g : RG.Graph) (ids : List Nat) : List Nat → CRoads → Nat → Res CRoads
  | [], rs, _ => .ok rs
  | road :: rest, rs, count => do
    let rs' ← linkRoad g ids rs count road
    linkLoop g ids rest rs' (advance ids count).1

/-- map_interface.cpp:464-541: the linked roads of a corridor -/
def corridorRoads (m : RG.XMap) (g : RG.Graph) (ids : List Nat) : Res CRoads := do
  let rs ← genRoads m ids
  linkLoop g ids ids rs 0

/-! ### Lane corridors -/

variable {K : Type} [LinearOrder K]

/-- road_corridor.hpp:161-166: the lane corridors of a road corridor; `store` are the corridor objects (a pointer is an index
into it) with their lanes ordered by arc length (lane_corridor.hpp:86), `unique` the list and `byLane` the map of pointers -/
structure RC (K : Type) where
  store : List (OMap K Ptr)
  unique : List Nat
  byLane : OMap Nat Nat

/-- a road corridor without lane corridors -/
def RC.empty : RC K := ⟨[], [], []⟩

/-- road_corridor.hpp:93-100 `SetLaneCorridor` -/
def setLaneCorridor (s : RC K) (lid c : Nat) : RC K :=
  { s with
    byLane := OMap.insert lid c s.byLane
    unique := if c ∈ s.unique then s.unique else s.unique ++ [c] }

/-- lane_corridor.hpp:73 `SetLane` on the corridor object `c` -/
def setLane (s : RC K) (c : Nat) (x : K) (p : Ptr) : RC K := { s with store := s.store.modify c (OMap.insert x p) }

/-- map_interface.cpp:340-366: follow the next lanes; `n` bounds the number of rounds -/
def extend (rs : CRoads) (cl : List Ptr → K) (c : Nat) : Nat → List Ptr → Ptr → RC K → Res (RC K)
  | 0, _, _, _ => .error .diverges
  | n + 1, seq, p, s =>
    match nextOf rs p with
    | none => .ok s
    | some q => extend rs cl c n (seq ++ [q]) q (setLaneCorridor (setLane s c (cl (seq ++ [q])) q) q.2 c)

/-- map_interface.cpp:326-366: a new lane corridor for the lane -/
def startCorridor (rs : CRoads) (cl : List Ptr → K) (n : Nat) (p : Ptr) (s : RC K) : Res (RC K) :=
  let c := s.store.length
  extend rs cl c n [p] p (setLaneCorridor { s with store := s.store ++ [[(cl [p], p)]] } p.2 c)

/-- map_interface.cpp:318-324: one lane -/
def calcLane (rs : CRoads) (cl : List Ptr → K) (n : Nat) (road : Nat) (s : RC K) (x : Nat × CLane) : Res (RC K) :=
  if (OMap.find x.1 s.byLane).isSome ∨ x.2.pos = 0 then .ok s
  else if x.2.driving = false then .ok s
  else startCorridor rs cl n (road, x.1) s

/-- map_interface.cpp:314-417 `CalculateLaneCorridors(road_corridor, road)` -/
def calcRoad (rs : CRoads) (cl : List Ptr → K) (n : Nat) (s : RC K) (r : Nat × OMap Nat CLane) : Res (RC K) :=
  RG.foldRes (calcLane rs cl n r.1) s r.2

/-- map_interface.cpp:419-426 `CalculateLaneCorridors(road_corridor, road_id)`: the given road first, then all; `n` bounds the
number of lanes followed in a row, a result `diverges` for every `n` means the loop does not end -/
def calcAll (rs : CRoads) (cl : List Ptr → K) (n : Nat) (first : Nat) : Res (RC K) :=
  match OMap.find first rs with
  | some ls => do
    let s ← calcRoad rs cl n RC.empty (first, ls)
    RG.foldRes (calcRoad rs cl n) s rs
  | none => .error .ub

/-! ### Queries -/

/-- road_corridor.hpp:46-49 `GetLaneCorridor` -/
def laneCorridor (s : RC K) (lid : Nat) : Option Nat := OMap.find lid s.byLane

/-- road_corridor.hpp:62-67 `GetCurrentLaneCorridor`; `hit c` tells whether the point collides with the merged polygon -/
def currentLC (s : RC K) (hit : Nat → Bool) : Option Nat := s.unique.find? hit

/-- lane_corridor.hpp:43-49 `GetCurrentLane`; `inLane p` tells whether the point is within the lane's polygon -/
def currentLane (lanes : OMap K Ptr) (inLane : Ptr → Bool) : Option Ptr := (lanes.map Prod.snd).find? inLane

/-- road_corridor.cpp:42-49: the loop over the corridors; `d c` is the absolute lateral offset of the point, `none` is infinity -/
def nearestLoop (d : Nat → K) : List Nat → Option (K × Nat) → Option (K × Nat)
  | [], best => best
  | c :: l, none => nearestLoop d l (some (d c, c))
  | c :: l, some b => if d c < b.1 then nearestLoop d l (some (d c, c)) else nearestLoop d l (some b)

/-- road_corridor.cpp:38-52 `GetNearestLaneCorridor` -/
def nearestLC (s : RC K) (hit : Nat → Bool) (d : Nat → K) : Option Nat :=
  match currentLC s hit with
  | some c => some c
  | none => (nearestLoop d s.unique none).map Prod.snd

/-- road_corridor.hpp:69-75 `GetCurrentLaneCorridorAndIndex`; `none` is the pair (null, 4294967295) -/
def currentLCIdx (s : RC K) (hit : Nat → Bool) : Option (Nat × Nat) :=
  (s.unique.findIdx? hit).bind (fun i => (s.unique[i]?).map (fun c => (c, i)))

/-- road_corridor.cpp:59-66: the loop with index -/
def nearestIdxLoop (d : Nat → K) : List Nat → Nat → Option (K × Nat × Nat) → Option (K × Nat × Nat)
  | [], _, best => best
  | c :: l, i, none => nearestIdxLoop d l (i + 1) (some (d c, c, i))
  | c :: l, i, some b =>
    if d c < b.1 then nearestIdxLoop d l (i + 1) (some (d c, c, i)) else nearestIdxLoop d l (i + 1) (some b)

/-- road_corridor.cpp:54-69 `GetNearestLaneCorridorAndIndex` -/
def nearestLCIdx (s : RC K) (hit : Nat → Bool) (d : Nat → K) : Option (Nat × Nat) :=
  match currentLCIdx s hit with
  | some c => some c
  | none => (nearestIdxLoop d s.unique 0 none).map Prod.snd

/-- the left or right lane of a lane, by id; the sentinel of road_corridor.cpp:30-33 when there is none -/
def sideId (o : Option Nat) : Nat := o.getD 10000000

/-- road_corridor.cpp:18-36 `GetLeftRightLaneCorridor` -/
def leftRightLC (rs : CRoads) (s : RC K) (hit : Nat → Bool) (inLane : Ptr → Bool) : Option Nat × Option Nat :=
  match currentLC s hit with
  | none => (none, none)
  | some c =>
    match (currentLane ((s.store[c]?).getD []) inLane).bind (laneAt rs) with
    | some l => (laneCorridor s (sideId l.left), laneCorridor s (sideId l.right))
    | none => (laneCorridor s (sideId none), laneCorridor s (sideId none))

end Bark.Cor
