import Verif.Model.Dynamics
import Verif.Model.Primitives

/-!
Model of `bark/models/behavior/motion_primitives/primitives/primitive_const_acc_stay_lane.cpp` (what the constant acceleration primitives plan,
with lane tracking of `idm_lane_tracking.cpp`) and of `motion_primitives/param_config/behav_macro_actions_from_param_server.hpp`.

Numbers are reals (`Num` inside the IDM). `steer` maps a row of the trajectory to the steering angle towards the centre line of the corridor
driven along (`CalculateSteeringAngle`, modelled in `Model/Dynamics`). Centre lines are not empty.
-/
namespace Bark.CAcc
open Bark

/-- base_idm.cpp:53-63: `brake_lane_end_`, `brake_lane_end_enabled_distance_`, `brake_lane_end_distance_offset_` -/
structure LaneEnd where
  brake : Bool
  enabled : ℝ
  offset : ℝ

/-- the parameters of the primitive: primitive_const_acc_stay_lane.cpp:9-26 -/
structure Cfg where
  idm : Idm.Params
  laneEnd : LaneEnd
  acc : ℝ
  restrict : Bool

/-- behavior_model.hpp `Action` -/
inductive Act
  | discrete (n : Nat)
  | continuous (a : ℝ)
  | lonLat (lon lat : ℝ)
  | input (u : List ℝ)

/-- the longitudinal limits kept by a vehicle's dynamic model (single_track.hpp:127-141) -/
structure Limits where
  lonMin : ℝ
  lonMax : ℝ

/-- a primitive object -/
structure Obj where
  cfg : Cfg
  lastAction : Act
  lastTraj : List Dyn.State

/-- base_idm.cpp:144-154 `GetDistanceToLaneEnding`; `len` is `LengthUntilEnd` of the corridor at the ego's position -/
noncomputable def laneEnding (e : LaneEnd) (len : ℝ) : Bool × ℝ :=
  if len - e.offset ≤ e.enabled then (true, len - e.offset) else (false, 10 ^ 6)

/-- primitive_const_acc_stay_lane.cpp:98-108: the last acceleration; other kinds of actions abort the process -/
def egoAcc : Act → Res ℝ
  | .continuous a => .ok a
  | .lonLat lon _ => .ok lon
  | .input [] => .error .ub
  | .input (u :: _) => .ok u
  | .discrete _ => .error .thrown

/-- primitive_const_acc_stay_lane.cpp:78-116 `CalcRelativeValues` (the own acceleration is not used by the IDM) -/
noncomputable def relValues (e : LaneEnd) (len : ℝ) (last : Act) : Res Idm.Rel :=
  match egoAcc last with
  | .error f => .error f
  | .ok _ =>
    if e.brake = true ∧ (laneEnding e len).1 = true then .ok ⟨(laneEnding e len).2, 0, 0, true⟩
    else .ok ⟨0, 10 ^ 6, 0, false⟩

/-- primitive_const_acc_stay_lane.cpp:127-140 `GetTotalAcc`: acceleration and the distance left after the step, which the IDM computes with
its own acceleration -/
noncomputable def totalAcc (c : Cfg) (r : Idm.Rel) (v rel dt : ℝ) : Res (ℝ × ℝ) :=
  if c.restrict = true then
    match Idm.totalAcc c.idm r v rel with
    | .error f => .error f
    | .ok (.fin a) => .ok (min a c.acc, Idm.nextDist r v rel a dt)
    | .ok _ => .error .nan
  else .ok (c.acc, rel)

/-- idm_lane_tracking.cpp:76-106 with `GetTotalAcc` of the primitive: rows `i, …` (`n` rows to go), each with its acceleration -/
noncomputable def loop (rnd : ℝ → ℝ) (c : Cfg) (r : Idm.Rel) (l : ℝ) (steer : Dyn.State → ℝ) (start dt v0 : ℝ) :
    (n i : Nat) → (prev : Dyn.State) → (rel : ℝ) → Res (List (ℝ × Dyn.State))
  | 0, _, _, _ => .ok []
  | n + 1, i, prev, rel =>
    match totalAcc c r v0 rel dt with
    | .error f => .error f
    | .ok (a, rel') =>
      let x := Dyn.euler rnd (Dyn.singleTrack l a (steer prev)) dt prev
      let x' : Dyn.State := fun j => if j = 4 then max (x 4) c.idm.minVel else if j = 0 then i * dt + start else x j
      match loop rnd c r l steer start dt v0 n (i + 1) x' rel' with
      | .ok t => .ok ((a, x') :: t)
      | .error f => .error f

/-- idm_lane_tracking.cpp:66, 103-105: the input of the first step (none for a trajectory of one row) -/
noncomputable def firstInput (steer : Dyn.State → ℝ) (row0 : Dyn.State) : List (ℝ × Dyn.State) → Act
  | [] => .input []
  | (a, _) :: _ => .input [a, steer row0]

/-- what a primitive looks at: the corridor it shall drive along and the one the vehicle is in, as their remaining lengths at the ego's
position and steering functions; wheel base, world time and state of the ego -/
structure View where
  target : Option (ℝ × (Dyn.State → ℝ))
  here : Option (ℝ × (Dyn.State → ℝ))
  wheelBase : ℝ
  time : ℝ
  ego : Dyn.State

/-- primitive_const_acc_stay_lane.cpp:52-61: the relative values (`current_corridor` is computed and not used) -/
noncomputable def planRel (c : Cfg) (len : ℝ) (last : Act) : Res Idm.Rel :=
  if c.restrict = true then relValues c.laneEnd len last else .ok ⟨0, 0, 0, false⟩

/-- primitive_const_acc_stay_lane.cpp:43-76 `Plan` with idm_lane_tracking.cpp:37-110 `GenerateTrajectory` for an ego with a single track
model whose limits are `lim`: the trajectory, the primitive afterwards and the limits afterwards (idm_lane_tracking.cpp:49). Without a target
corridor the last trajectory is returned. -/
noncomputable def plan (rnd : ℝ → ℝ) (v : View) (horizon : ℝ) (o : Obj) (lim : Limits) : Res (List Dyn.State × Obj × Limits) :=
  match v.target with
  | none => .ok (o.lastTraj, o, lim)
  | some (len, steer) =>
    match planRel o.cfg len o.lastAction with
    | .error f => .error f
    | .ok r =>
      let row0 : Dyn.State := fun j => if j = 0 then v.time else v.ego j
      match loop rnd o.cfg r v.wheelBase steer v.time (horizon / ((o.cfg.idm.numPoints : ℝ) - 1)) (v.ego 4)
          (o.cfg.idm.numPoints - 1) 1 row0 r.distance with
      | .error f => .error f
      | .ok t => .ok (row0 :: t.map Prod.snd, ⟨o.cfg, firstInput steer row0 t, row0 :: t.map Prod.snd⟩,
          ⟨o.cfg.idm.accLower, o.cfg.idm.accUpper⟩)

/-- primitive_const_acc_stay_lane.cpp:28-41 `IsPreConditionSatisfied` -/
noncomputable def available (o : Obj) (lim : Limits) (ego : Dyn.State) : Bool :=
  decide (Dyn.lonAccMin lim.lonMin (ego 4) ≤ o.cfg.acc) && decide (o.cfg.acc ≤ lim.lonMax)

/-- base_idm.cpp:90: a primitive as constructed -/
noncomputable def fresh (c : Cfg) : Obj := ⟨c, .continuous 0, []⟩

/-- any number of plans, each for its own situation -/
noncomputable def planAll (rnd : ℝ → ℝ) : List (View × ℝ) → Obj → Limits → Res (Obj × Limits)
  | [], o, lim => .ok (o, lim)
  | (v, h) :: vs, o, lim =>
    match plan rnd v h o lim with
    | .error f => .error f
    | .ok (_, o', lim') => planAll rnd vs o' lim'

section
variable {K : Type}

/-- the parameters read in behav_macro_actions_from_param_server.hpp:43-51, in primitive_const_acc_stay_lane.cpp:13-16 and in
change_to_left.cpp:14-15 -/
structure Settings (K : Type) where
  accs : List K
  laneChanges : Bool
  gapKeeping : Bool
  acc : K
  minLen : K
  restrict : Bool

/-- behav_macro_actions_from_param_server.hpp:53-73 -/
def primitives (s : Settings K) : List (Mac.Prim K) :=
  s.accs.map (fun a => ⟨.stay, a, s.minLen, s.restrict⟩) ++
  (if s.laneChanges = true then [⟨.left, s.acc, s.minLen, s.restrict⟩, ⟨.right, s.acc, s.minLen, s.restrict⟩] else []) ++
  (if s.gapKeeping = true then [⟨.gap, s.acc, s.minLen, s.restrict⟩] else [])

/-- macro_actions.cpp:28-32 `AddMotionPrimitive`: the primitive's number is returned -/
def addPrimitive {C A T : Type} (r : Nat) (b : Mac.Beh C A T) : Mac.Beh C A T × Nat :=
  ({ b with prims := b.prims ++ [r] }, b.prims.length)

/-- behav_macro_actions_from_param_server.hpp:40-82: every primitive is a new object (allocated from `next` on) and added in turn -/
def build {C A T : Type} (a0 : A) (t0 : T) : List (Mac.Prim K) → Nat → Mac.Heap K A T × Mac.Beh C A T → Mac.Heap K A T × Mac.Beh C A T
  | [], _, s => s
  | p :: ps, next, s =>
    build a0 t0 ps (next + 1) (fun q => if q = next then some ⟨p, a0, t0⟩ else s.1 q, (addPrimitive next s.2).1)

/-- the behaviour of the parameters on a heap whose objects lie below `next`; macro_actions.cpp:19-26 -/
def fromParams {C A T : Type} (a0 : A) (t0 : T) (check : Bool) (s : Settings K) (next : Nat) (h : Mac.Heap K A T) :
    Mac.Heap K A T × Mac.Beh C A T :=
  build a0 t0 (primitives s) next (h, ⟨[], [], check, none, 0, a0, t0⟩)

end
end Bark.CAcc
