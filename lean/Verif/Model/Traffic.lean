import Verif.Model.IdmLeader
import Verif.Model.Pick
import Verif.Model.ShapeExt

/-!
A world (`Model/World`) whose agents all drive with the classic IDM: what the IDM reacts to (`Model/IdmLeader`, `Model/FrontRear`), the trajectory it
plans in the plane (`Model/Pick`, `Model/Idm`), execution by interpolation (`Model/Interpolate`), observation by `ObserverModelNone`. Numbers are reals.

Parameters are what the map answers for a position (the nearest lane corridor of the agent's road corridor) and boost's box and nearest queries.
-/
namespace Bark.Flow
open Bark Bark.Ln Bark.Fren

/-- dynamic_model.hpp:24-36: a minimal state vector (time, x, y, angle, velocity) -/
abbrev V5 := ℝ × ℝ × ℝ × ℝ × ℝ

/-- the entries of a state vector -/
def entries (x : V5) : VState := ⟨x.1, x.2.1, x.2.2.1, x.2.2.2.1, x.2.2.2.2⟩

/-- the state vector with these entries -/
def vector (x : VState) : V5 := (x.time, x.x, x.y, x.theta, x.vel)

/-- behavior_model.hpp:152-157: last trajectory (an error once something went wrong), last action, status -/
structure Beh where
  status : BStatus
  traj : Res (List V5)
  action : CAcc.Act

/-- a world of such agents; the observer has no state -/
abbrev W (Box : Type) := World ℝ V5 CAcc.Act Beh (Res (Interp.Exec V5)) Shape.Poly Box Unit

/-- what the simulation is set up with -/
structure Setup (Box Lane : Type) where
  /-- the parameters of the IDM -/
  idm : Idm.Params
  /-- base_idm.hpp: the thresholds for a vehicle to be in front -/
  thr : FRParams ℝ
  /-- world.cpp: `World::MaxAgentsFrontRear` -/
  maxAgents : Nat
  laneEnd : CAcc.LaneEnd
  roads : Pick.Roads Lane
  /-- observed_world.cpp:76-89 `GetLaneCorridor` at a position -/
  corridor : Pt → Option Lane
  /-- `LengthUntilEnd` of a corridor at a position -/
  lengthLeft : Lane → Pt → ℝ
  envelope : Shape.Poly → V5 → Box
  within : Box → Box → Bool
  nearest : V5 → Nat → List (Box × Nat) → List (Box × Nat)
  boxHit : Lane → Box → Bool
  collide : Lane → Agent ℝ V5 CAcc.Act Beh (Res (Interp.Exec V5)) Shape.Poly → Bool
  big : ℝ

variable {Box Lane : Type}

/-- frenet_state.cpp:27-58 `FrenetState`; on an empty line (undefined) all entries are 0 here -/
noncomputable def frenetOf (l : Line) (x : V5) : Frenet ℝ :=
  match ofState id l (entries x) with
  | .ok f => ⟨f.lon, f.lat, f.vlon, f.vlat, f.angle⟩
  | .error _ => ⟨0, 0, 0, 0, 0⟩

/-- polygon.hpp:72-75 the distances used by `ShapeExtensionAtTangentAngle` -/
def dims (s : Shape.Poly) : ShapeExt.Dims := ⟨s.front, s.rear, s.left⟩

/-- the geometry of the front/rear search -/
noncomputable def geo (u : Setup Box Lane) : FRPlug ℝ V5 CAcc.Act Beh (Res (Interp.Exec V5)) Shape.Poly Box Lane where
  frenet l x := frenetOf (u.roads.line l) x
  ext s a := ShapeExt.shapeExtension id a (dims s)
  nearest := u.nearest
  boxHit := u.boxHit
  collide := u.collide
  big := u.big

/-- execution_model.hpp:26-60: status of the execution model -/
def execStatus (e : Res (Interp.Exec V5)) : EStatus :=
  match e with
  | .ok e => e.status
  | .error _ => .invalid

/-- execution_model.hpp `GetExecutedState`; without one the zero vector -/
def executed (e : Res (Interp.Exec V5)) : V5 :=
  match e with
  | .ok e => e.state.getD 0
  | .error _ => 0

/-- the queries of an observed world use the status of behaviours only: this plug plans nothing -/
def queries (u : Setup Box Lane) : Plug ℝ V5 CAcc.Act Beh (Res (Interp.Exec V5)) Shape.Poly Box Unit where
  status b := b.status
  lastAction b := b.action
  plan b _ _ _ := b
  execute e _ _ := e
  execStatus := execStatus
  executedState := executed
  observe o w _ := (o, w)
  envelope := u.envelope
  within := u.within

/-- idm_classic.cpp:34-91 `GenerateTrajectory`: trajectory and action, the first acceleration. Observed_world.hpp `GetWorldTime` is `start`. -/
noncomputable def generate (u : Setup Box Lane) (l : Line) (r : Idm.Rel) (start dt : ℝ) (x : VState) : Res (Res (List V5) × CAcc.Act) :=
  match Pick.classic u.idm l r start (Idm.stepSize u.idm dt) x with
  | .error f => .error f
  | .ok tr =>
    match nearestS l (x.x, x.y) with
    | .error f => .error f
    | .ok s =>
      match Idm.generate u.idm r start (Idm.stepSize u.idm dt) s x.vel with
      | .error f => .error f
      | .ok rows => .ok (.ok (tr.map vector), .continuous ((rows.map Prod.fst).head?.getD 0))

/-- base_idm.cpp:366-400 `Plan` for the agent in state `x` with shape `shape`; there is no constant lane corridor -/
noncomputable def planFrom (u : Setup Box Lane) (obs : W Box) (ego : Nat) (dt : ℝ) (shape : Shape.Poly) (x : V5) (b : Beh) : Beh :=
  match Pick.plan id u.roads shape (entries x) none (u.corridor ((entries x).x, (entries x).y))
    (fun l => Lead.observedRel (queries u) (geo u) u.thr u.maxAgents u.idm.coolness u.laneEnd (u.lengthLeft l ((entries x).x, (entries x).y)) l ego b.action obs)
    (fun l r => generate u (u.roads.line l) r obs.time dt (entries x)) ⟨b.status, (b.traj, b.action)⟩ with
  | .error f => ⟨.valid, .error f, b.action⟩
  | .ok b' => ⟨b'.status, b'.traj.1, b'.traj.2⟩

/-- base_idm.cpp:366-400 `Plan` from the observed world; without an ego agent or ego state it is undefined -/
noncomputable def plan (u : Setup Box Lane) (b : Beh) (dt : ℝ) (obs : W Box) (ego : Nat) : Beh :=
  match obs.getAgent ego with
  | none => ⟨.valid, .error .ub, b.action⟩
  | some a =>
    match a.currentState with
    | .error f => ⟨.valid, .error f, b.action⟩
    | .ok x => planFrom u obs ego dt a.shape x b

/-- the models of the simulation: classic IDM, interpolation (agent.cpp:84-87, interpolate.cpp:81-126), observer_model_none.hpp:44-52 -/
noncomputable def plug (u : Setup Box Lane) : Plug ℝ V5 CAcc.Act Beh (Res (Interp.Exec V5)) Shape.Poly Box Unit where
  status b := b.status
  lastAction b := b.action
  plan := plan u
  execute e t b := Loop.carryOut (LinearMap.fst ℝ ℝ (ℝ × ℝ × ℝ × ℝ)) t b.traj e
  execStatus := execStatus
  executedState := executed
  observe o w _ := (o, w)
  envelope := u.envelope
  within := u.within

/-- agent.cpp:147-154 `GetPolygonFromState` -/
noncomputable def outline (s : Shape.Poly) (x : V5) : Shape.Poly := Shape.outlineAt s (entries x).x (entries x).y (entries x).theta

end Bark.Flow
