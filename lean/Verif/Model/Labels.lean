import Verif.Model.Corridor
import Verif.Model.World
import Mathlib.Algebra.Order.Group.Abs

/-!
Model of the label functions in `bark/world/evaluation/ltl/label_functions` other than the safe distance
label (`Model/SafeDistance.lean`): position, lane, speed and traffic labels.

A road corridor is given by the lanes and lane corridors of `Model/Corridor.lean` together with the
geometry the queries need; an agent by its road corridor, its extents and the states in its history.
Histories are not empty (C04).  Numbers are those of an ordered field.
-/
namespace Bark.Labels
open Bark

set_option linter.unusedSectionVars false

/-- A road corridor with geometry, functions of lane corridor (or lane) and position:
* `hit` – the position collides with the merged polygon of the lane corridor
* `inLane` – the position is within the polygon of the lane
* `lat`, `s` – absolute lateral offset and arc length of the projection to the centre line
  (`FrenetPosition`)
* `len` – length of the centre line
* `line` – the centre line of a lane (lanes are compared by it, map/lane.hpp:69-71) -/
structure Road (K Pos Ln : Type) where
  roads : Cor.CRoads
  rc : Cor.RC K
  hit : Nat → Pos → Bool
  inLane : Cor.Ptr → Pos → Bool
  lat : Nat → Pos → K
  s : Nat → Pos → K
  len : Nat → K
  line : Cor.Ptr → Ln

/-- what the labels use of a state -/
structure Snap (K Pos : Type) where
  time : K
  vel : K
  pos : Pos

/-- what the labels use of an agent; `past` is the history without the current state `cur`,
`front`/`rear` the extents of the shape (polygon.hpp:42-46 `front_dist_`, `rear_dist_`) -/
structure Veh (K Pos Ln : Type) where
  road : Option (Road K Pos Ln)
  front : K
  rear : K
  past : List (Snap K Pos)
  cur : Snap K Pos

section
variable {K Pos Ln : Type} [Field K] [LinearOrder K] [IsStrictOrderedRing K] [DecidableEq Ln]

/-- agent.hpp `GetRoadCorridor()->…`: a missing road corridor is dereferenced -/
def Veh.corr (v : Veh K Pos Ln) : Res (Road K Pos Ln) :=
  match v.road with
  | some R => .ok R
  | none => .error .ub

/-- road_corridor.hpp:62-67 -/
def Road.current (R : Road K Pos Ln) (p : Pos) : Option Nat := Cor.currentLC R.rc (fun c => R.hit c p)

/-- road_corridor.cpp:38-52 -/
def Road.nearest (R : Road K Pos Ln) (p : Pos) : Option Nat :=
  Cor.nearestLC R.rc (fun c => R.hit c p) (fun c => R.lat c p)

/-- road_corridor.cpp:18-36 -/
def Road.sides (R : Road K Pos Ln) (p : Pos) : Option Nat × Option Nat :=
  Cor.leftRightLC R.roads R.rc (fun c => R.hit c p) (fun l => R.inLane l p)

/-- lane_corridor.hpp:54-56 `LengthUntilEnd` -/
def Road.untilEnd (R : Road K Pos Ln) (c : Nat) (p : Pos) : K := R.len c - R.s c p

/-- the lanes of a lane corridor as compared by lane_corridor.hpp:75-82 `operator==` -/
def Road.compared (R : Road K Pos Ln) (c : Nat) : List (K × Ln) :=
  ((R.rc.store[c]?).getD []).map (fun x => (x.1, R.line x.2))

/-- lane_corridor.hpp:75-82 `operator==` -/
def sameCorr (R : Road K Pos Ln) (c : Nat) (R' : Road K Pos Ln) (c' : Nat) : Bool :=
  decide (R.compared c = R'.compared c')

/-- observed_world.cpp:76-89 `GetLaneCorridor` -/
def egoLane (e : Veh K Pos Ln) : Option (Road K Pos Ln × Nat) :=
  e.road.bind (fun R => (R.nearest e.cur.pos).map (fun c => (R, c)))

/-- left_of_label_function.cpp:21 / right_of_label_function.cpp:21 -/
def bothSame (R : Road K Pos Ln) (side : Option Nat) (lane : Option (Road K Pos Ln × Nat)) : Bool :=
  match side, lane with
  | some c, some x => sameCorr R c x.1 x.2
  | _, _ => false

/-- left_of_label_function.cpp:12-24 -/
def leftOf (e o : Veh K Pos Ln) : Res Bool :=
  o.corr >>= fun R => .ok (bothSame R (R.sides o.cur.pos).1 (egoLane e))

/-- right_of_label_function.cpp:12-24 -/
def rightOf (e o : Veh K Pos Ln) : Res Bool :=
  o.corr >>= fun R => .ok (bothSame R (R.sides o.cur.pos).2 (egoLane e))

/-- front_of_label_function.cpp:12-32 -/
def frontOf (e o : Veh K Pos Ln) : Res Bool :=
  o.corr >>= fun R =>
    match R.current o.cur.pos with
    | none => .ok false
    | some c => .ok (decide (R.s c o.cur.pos + o.front ≤ R.s c e.cur.pos - e.rear))

/-- behind_of_label_function.cpp:12-33 -/
def behindOf (e o : Veh K Pos Ln) : Res Bool :=
  o.corr >>= fun R =>
    match egoLane e, R.current o.cur.pos with
    | some _, some c => .ok (decide (R.s c e.cur.pos + e.front ≤ R.s c o.cur.pos - o.rear))
    | _, _ => .ok false

/-- agent_beyond_point_label_function.cpp:16-28 -/
def agentBeyond (pt : Pos) (o : Veh K Pos Ln) : Res Bool :=
  o.corr >>= fun R =>
    match R.current o.cur.pos with
    | none => .ok false
    | some c => .ok (decide (0 < R.s c o.cur.pos - R.s c pt))

/-- ego_beyond_point_label_function.cpp:19-29 -/
def egoBeyond (pt : Pos) (e : Veh K Pos Ln) : Bool :=
  match egoLane e with
  | none => false
  | some x => decide (0 < x.1.s x.2 e.cur.pos - x.1.s x.2 pt)

/-- on_road_label_function.cpp:22-36 -/
def onRoad (o : Veh K Pos Ln) : Res Bool :=
  o.corr >>= fun R =>
    match R.nearest o.cur.pos with
    | none => .ok false
    | some c => .ok (R.hit c o.cur.pos)

/-- agent_at_lane_end_label_function.cpp:26-38; a road corridor without lane corridors is dereferenced -/
def atLaneEnd (thr : K) (o : Veh K Pos Ln) : Res Bool :=
  o.corr >>= fun R =>
    match R.nearest o.cur.pos with
    | none => .error .ub
    | some c => .ok (decide (|R.untilEnd c o.cur.pos - o.front| < thr))

/-- the common part of the outermost-lane labels: rightmost_lane_label_function.cpp:28-41,
ego_rightmost_lane_label_function.cpp:29-42, ego_leftmost_lane_label_function.cpp:29-42 -/
def outermost (R : Road K Pos Ln) (side : Option Nat) (thr : K) (v : Veh K Pos Ln) : Bool :=
  match side with
  | some c => if R.untilEnd c v.cur.pos - v.front > thr then false else true
  | none => true

/-- rightmost_lane_label_function.cpp:21-42, ego_rightmost_lane_label_function.cpp:21-43 -/
def rightmost (thr : K) (v : Veh K Pos Ln) : Res Bool :=
  v.corr >>= fun R => .ok (outermost R (R.sides v.cur.pos).2 thr v)

/-- ego_leftmost_lane_label_function.cpp:21-43 -/
def leftmost (thr : K) (v : Veh K Pos Ln) : Res Bool :=
  v.corr >>= fun R => .ok (outermost R (R.sides v.cur.pos).1 thr v)

/-- below_speed_limit_label_function.cpp:25-31, ego_below_speed_limit_label_function.cpp:25-30 -/
def belowSpeed (thr : K) (v : Veh K Pos Ln) : Bool := decide (v.cur.vel < thr)

/-- rel_speed_label_function.cpp:18-29 -/
def relSpeed (thr : K) (e o : Veh K Pos Ln) : Bool := decide (thr ≤ e.cur.vel - o.cur.vel)

/-- ego_accelerate_label_function.cpp:24-37; division by a zero time difference gives NaN or an infinity
(`.nan` stands for either) -/
def accelerate (thr : K) (e : Veh K Pos Ln) : Res Bool :=
  if (e.past ++ [e.cur]).length > 2 then
    match e.past.getLast? with
    | some q =>
      if e.cur.time - q.time = 0 then .error .nan
      else .ok (decide (thr ≤ (e.cur.vel - q.vel) / (e.cur.time - q.time)))
    | none => .error .ub
  else .ok false

/-- lane_change_label_function.cpp:21-38; `touches R c left p q`: the segment from `p` to `q` collides with
the left (right) boundary of the lane corridor -/
def laneChange (touches : Road K Pos Ln → Nat → Bool → Pos → Pos → Bool) (e : Veh K Pos Ln) : Bool :=
  match egoLane e, e.past.getLast? with
  | some x, some q =>
    touches x.1 x.2 true q.pos e.cur.pos || touches x.1 x.2 false q.pos e.cur.pos
  | _, _ => false

/-- dense_traffic_label_function.cpp:25-37; `others` are all other agents of the world, `dist` the
distance of two positions -/
def dense (dist : Pos → Pos → K) (radius : K) (num : Int) (e : Veh K Pos Ln) (others : List (Veh K Pos Ln)) :
    Bool :=
  decide (num ≤ ((others.filter (fun o => |dist e.cur.pos o.cur.pos| < radius)).length : Int))

end

section world
variable {K St Act B E Sh Box O Pos Ln : Type} [Field K] [LinearOrder K] [IsStrictOrderedRing K]

/-- observed_world.cpp:187-191 `GetValidOtherAgents` -/
def validOther (P : Plug K St Act B E Sh Box O) (w : World K St Act B E Sh Box O) (ego : Nat) :
    OMap Nat (Agent K St Act B E Sh) := OMap.erase ego (w.getValidAgents P)

/-- observed_world.hpp:80-84 `GetOtherAgents` -/
def otherAgents (w : World K St Act B E Sh Box O) (ego : Nat) : OMap Nat (Agent K St Act B E Sh) :=
  OMap.erase ego w.agents

/-- multi_agent_label_function.cpp:12-21: one label per agent, identified by the agent's id;
`f a` is `EvaluateAgent(observed_world, a)` -/
def multiAgent (P : Plug K St Act B E Sh Box O) (w : World K St Act B E Sh Box O) (ego : Nat)
    (f : Agent K St Act B E Sh → Res Bool) : Res (OMap Nat Bool) :=
  (validOther P w ego).mapM (fun x => f x.2 >>= fun b => .ok (x.1, b))

/-- dense_traffic_label_function.cpp:25-37 on a world; `view` is what labels see of an agent, the ego is
dereferenced -/
def denseTraffic (view : Agent K St Act B E Sh → Veh K Pos Ln) (dist : Pos → Pos → K) (radius : K) (num : Int)
    (w : World K St Act B E Sh Box O) (ego : Nat) : Res Bool :=
  match w.getAgent ego with
  | none => .error .ub
  | some a => .ok (dense dist radius num (view a) ((otherAgents w ego).map (fun x => view x.2)))

end world
end Bark.Labels
