import Verif.Model.Basic
import Verif.Model.Angle
import Mathlib.Analysis.SpecialFunctions.Trigonometric.Basic

/-!
Model of `BehaviorRSSConformant` (bark/models/behavior/behavior_rss) and `BehaviorSafety`
(bark/models/behavior/behavior_safety).

`W` observed worlds, `C` lane corridors (identity of the pointer), `M` the state of an inner
behaviour model, `T` trajectories, `A` actions, `L` acceleration limits, `K` lengths.
Behaviour models are objects on a heap (address = index), because `Clone` copies pointers.
Simplified: logging is left out; `SafetyPolygons` and the response enums only travel through the
object and are left out; whether the inner models are `BehaviorIDMLaneTracking` is a predicate of
their state.
-/
namespace Bark.Rss

/-- Everything the two behaviours ask of their surroundings. -/
structure Plug (W C M T A L K : Type) where
  /-- `observed_world.GetLaneCorridor()`; `none` = null -/
  laneCorr : W → Option C
  /-- `observed_world.GetRoadCorridor()->GetUniqueLaneCorridors()`; `none` = no road corridor -/
  roadCorrs : W → Option (List C)
  /-- `LengthUntilEnd(observed_world.CurrentEgoPosition())` -/
  lengthUntilEnd : W → C → K
  /-- whether the map delivers the road corridor of the road-x id -/
  roadX : W → Bool
  /-- `rss_evaluator_->Evaluate(observed_world)`; `none` = empty optional (or no evaluator) -/
  verdict : W → Option Bool
  /-- compiled with `RSS` -/
  rssBuild : Bool
  /-- the evaluator is an `EvaluatorRSS` -/
  isRss : Bool
  /-- `ConvertRestrictions` (below: `convertRestrictions`) from the world and the last action -/
  convert : W → A → L
  /-- `dynamic_pointer_cast<BehaviorIDMLaneTracking>` succeeds -/
  laneTracking : M → Bool
  /-- `SetConstantLaneCorridor` -/
  setConst : Option C → M → M
  /-- `SetAccelerationLimits` -/
  setLimits : L → M → M
  /-- `Plan` of the inner model: the state it is left in -/
  plan : M → W → Res M
  /-- `GetLastTrajectory` -/
  traj : M → T
  /-- `GetLastAction` -/
  act : M → A

/-- behavior_safety.hpp:83-85 -/
structure Safe (C T A : Type) where
  model : Nat
  initial : Option C
  lastT : T
  lastA : A
  deriving DecidableEq, Repr

/-- Parameters read in the constructor – behavior_rss.hpp:57-105 -/
structure Cfg (K : Type) where
  minLength : K
  accNominal : Bool
  accSafety : Bool
  noSafety : Bool
  switchOffX : Bool
  deriving DecidableEq, Repr

/-- behavior_rss.hpp:189-213; `expired` = behaviour status EXPIRED, `nominalStatus` =
NOMINAL_BEHAVIOR -/
structure Obj (C T A L K : Type) where
  cfg : Cfg K
  nominal : Nat
  safety : Nat
  initial : Option C
  expired : Bool
  nominalStatus : Bool
  limits : L
  lastT : T
  lastA : A
  deriving DecidableEq, Repr

/-- All behaviour objects of the process. -/
structure Sys (C M T A L K : Type) where
  models : List M
  safes : List (Safe C T A)
  objs : List (Obj C T A L K)
  deriving DecidableEq, Repr

variable {W C M T A L K : Type} [DecidableEq C] [LinearOrder K]

/-- pointer dereference -/
def at' {α : Type} (l : List α) (i : Nat) : Res α :=
  match l[i]? with
  | some a => .ok a
  | none => .error .ub

/-- behavior_rss.cpp:35-45: every lane corridor other than the current one is set as constant lane
corridor of the nominal model, one after the other; the cast result is used unchecked -/
def setTargets (P : Plug W C M T A L K) (cur : Option C) (m : M) : List C → Res M
  | [] => .ok m
  | c :: cs =>
    if cur = some c then setTargets P cur m cs
    else if P.laneTracking m then setTargets P cur (P.setConst (some c) m) cs
    else .error .ub

/-- behavior_rss.cpp:26-46: the first call stores the lane corridor -/
def firstCall (P : Plug W C M T A L K) (w : W) (o : Obj C T A L K) (f : Safe C T A) (m : M) :
    Res (Obj C T A L K × Safe C T A × M) :=
  match o.initial with
  | some _ => .ok (o, f, m)
  | none =>
    match P.roadCorrs w with
    | none => .error .ub
    | some cs => setTargets P (P.laneCorr w) m cs >>= fun m' =>
        .ok ({ o with initial := P.laneCorr w }, { f with initial := P.laneCorr w }, m')

/-- behavior_rss.cpp:48-56 and 58-65: the road-x corridor is fetched (null is dereferenced), then the
lane corridor of the safety model is replaced when it is nearly used up (null is dereferenced) -/
def shortCorridor (P : Plug W C M T A L K) (w : W) (c : Cfg K) (f : Safe C T A) : Res (Safe C T A) :=
  if c.switchOffX = true ∧ P.roadX w = false then .error .ub
  else
    match f.initial with
    | none => .error .ub
    | some i =>
      if P.lengthUntilEnd w i ≤ c.minLength then .ok { f with initial := P.laneCorr w }
      else .ok f

/-- behavior_rss.cpp:231-237 `ApplyRestrictionsToModel`, guarded as in lines 105, 116; the cast
result is used unchecked -/
def restrict (P : Plug W C M T A L K) (on : Bool) (l : L) (m : M) : Res M :=
  if P.rssBuild = true ∧ on = true then
    if P.laneTracking m then .ok (P.setLimits l m) else .error .ub
  else .ok m

/-- behavior_safety.cpp:21-44 `BehaviorSafety::Plan`: returns the inner model and the safety model -/
def safetyPlan (P : Plug W C M T A L K) (w : W) (f : Safe C T A) (m : M) : Res (Safe C T A × M) :=
  if P.laneTracking m then
    P.plan (P.setConst f.initial m) w >>= fun m' =>
      .ok ({ f with lastT := P.traj m', lastA := P.act m' }, m')
  else .error .ub

/-- behavior_rss.cpp:91-127: the switch.  `s` already holds the updated nominal model. -/
def act (P : Plug W C M T A L K) (w : W) (s : Sys C M T A L K) (r : Nat) (o : Obj C T A L K)
    (f : Safe C T A) (safe : Bool) : Res (Sys C M T A L K × T) :=
  let l := if P.isRss then P.convert w o.lastA else o.limits
  if safe = true ∨ o.cfg.noSafety = true then
    at' s.models o.nominal >>= fun m =>
    restrict P o.cfg.accNominal l m >>= fun m1 =>
    P.plan m1 w >>= fun m2 =>
      .ok ({ s with
          models := s.models.set o.nominal m2
          objs := s.objs.set r { o with
            expired := false, nominalStatus := safe, limits := l, lastT := P.traj m2,
            lastA := P.act m2 } }, P.traj m2)
  else
    at' s.models f.model >>= fun m =>
    restrict P o.cfg.accSafety l m >>= fun m1 =>
    safetyPlan P w f m1 >>= fun q =>
      .ok ({ models := s.models.set f.model q.2
             safes := s.safes.set o.safety q.1
             objs := s.objs.set r { o with
              expired := false, nominalStatus := safe, limits := l, lastT := q.1.lastT,
              lastA := q.1.lastA } }, q.1.lastT)

/-- behavior_rss.cpp:67-89: without a lane corridor the behaviour expires and returns its last
trajectory; `*eval_res` of an empty optional -/
def decide' (P : Plug W C M T A L K) (w : W) (s : Sys C M T A L K) (r : Nat) (o : Obj C T A L K)
    (f : Safe C T A) : Res (Sys C M T A L K × T) :=
  match P.laneCorr w with
  | none => .ok ({ s with objs := s.objs.set r { o with expired := true } }, o.lastT)
  | some _ =>
    match P.verdict w with
    | none => .error .ub
    | some v => act P w s r o f v

/-- behavior_rss.cpp:21-128 `BehaviorRSSConformant::Plan` on object `r` -/
def plan (P : Plug W C M T A L K) (w : W) (s : Sys C M T A L K) (r : Nat) :
    Res (Sys C M T A L K × T) :=
  at' s.objs r >>= fun o =>
  at' s.safes o.safety >>= fun f =>
  at' s.models o.nominal >>= fun m =>
  firstCall P w o f m >>= fun q =>
  shortCorridor P w q.1.cfg q.2.1 >>= fun f' =>
    decide' P w { s with models := s.models.set o.nominal q.2.2, safes := s.safes.set o.safety f' }
      r q.1 f'

/-- behavior_rss.hpp:216-220 `Clone`: copy construction, the inner models are shared -/
def clone (s : Sys C M T A L K) (r : Nat) : Res (Sys C M T A L K × Nat) :=
  at' s.objs r >>= fun o => .ok ({ s with objs := s.objs ++ [o] }, s.objs.length)

/-- a sequence of planning calls on object `r` -/
def run (P : Plug W C M T A L K) (r : Nat) : List W → Sys C M T A L K →
    Res (Sys C M T A L K × List T)
  | [], s => .ok (s, [])
  | w :: ws, s => plan P w s r >>= fun q => run P r ws q.1 >>= fun q' => .ok (q'.1, q.2 :: q'.2)

/-! ### Conversion of the restrictions -/

/-- `ad::rss` range -/
structure Range where
  lo : ℝ
  hi : ℝ

/-- `ad::rss::state::AccelerationRestriction` -/
structure Restriction where
  lon : Range
  left : Range
  right : Range

/-- single_track.hpp:21-26 `AccelerationLimits` -/
structure Limits where
  latMax : ℝ
  latMin : ℝ
  lonMax : ℝ
  lonMin : ℝ

/-- commons/transformation/frenet_state.cpp:186-211 `LatAccStreetToVehicleCs`; `theta`, `vel`
orientation and speed of the vehicle (angles exact: the float rounding of `NormToPI` is left out), `road` and `lastRoad` the road angle now and one step ago -/
noncomputable def latAccStreetToVehicle (accLatStreet accLon dt theta vel road lastRoad : ℝ) : ℝ :=
  let d := Angle.signedAngleDiff id theta road
  (accLatStreet - accLon * Real.sin d) / Real.cos d
    + vel * (Angle.signedAngleDiff id road lastRoad / dt)

/-- What `ConvertRestrictions` reads of the world: orientation, speed, road angle at the ego's
position, lateral velocity in the street system, and whether the ego collides with the road-x
polygon while the corresponding switch is on. -/
structure Ego where
  theta : ℝ
  vel : ℝ
  road : ℝ
  vlat : ℝ
  onX : Bool

/-- behavior_rss.cpp:137-147: the "last" state is the last entry of the history, i.e. the current
state, so that the road angle one step ago is the present one -/
def Ego.lastRoad (e : Ego) : ℝ := e.road

/-- behavior_rss.cpp:165-185: the converted bound, ±1000 on road x -/
noncomputable def conv (e : Ego) (accLon dt : ℝ) (x : ℝ) (noLimit : ℝ) : ℝ :=
  if e.onX then noLimit
  else latAccStreetToVehicle x accLon dt e.theta e.vel e.road e.lastRoad

/-- behavior_rss.cpp:131-229 `ConvertRestrictions`: limits in the vehicle system and in the street
system; `accLon` is the longitudinal acceleration of the last action, `thr` = RSSVlatThreshold -/
noncomputable def convertRestrictions (r : Restriction) (e : Ego) (accLon dt thr : ℝ) :
    Limits × Limits :=
  let lmax := conv e accLon dt r.left.hi 1000
  let lmin := conv e accLon dt r.left.lo (-1000)
  let rmax := conv e accLon dt r.right.hi 1000
  let rmin := conv e accLon dt r.right.lo (-1000)
  if e.vlat > thr then
    (⟨lmax, lmin, r.lon.hi, r.lon.lo⟩, ⟨r.left.hi, r.left.lo, r.lon.hi, r.lon.lo⟩)
  else if e.vlat < -thr then
    (⟨rmax, rmin, r.lon.hi, r.lon.lo⟩, ⟨r.right.hi, r.right.lo, r.lon.hi, r.lon.lo⟩)
  else
    (⟨min lmax rmax, max lmin rmin, r.lon.hi, r.lon.lo⟩,
     ⟨min r.left.hi r.right.hi, max r.left.lo r.right.lo, r.lon.hi, r.lon.lo⟩)

end Bark.Rss
