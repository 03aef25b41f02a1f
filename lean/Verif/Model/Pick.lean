import Verif.Model.Frenet
import Verif.Model.Shape
import Verif.Model.Idm
import Verif.Model.LineOps
import Verif.Model.Steering
import Verif.Model.Dynamics
import Verif.Model.World

/-!
Model of the corridor an IDM based behaviour reacts to and the one it drives along (`bark/world/map/commons.hpp`,
`BaseIDM::Plan` of `bark/models/behavior/idm/base_idm.cpp`, `BehaviorLaneChangeRuleBased::Plan` of
`bark/models/behavior/rule_based/lane_change_behavior.cpp`) and of the trajectory in the plane generated by
`bark/models/behavior/idm/idm_classic.cpp`, over ℝ.

Corridors are compared by identity (type `Lane`); `Roads` gives the centre line of a corridor and the interior of its merged
polygon (boost's `within`, a parameter).
-/
namespace Bark.Pick
open Bark Bark.Ln Bark.Fren

/-- lane_corridor.hpp:40-60: what is used of a `LaneCorridor` -/
structure Roads (Lane : Type) where
  line : Lane → Line
  inside : Lane → Pt → Prop

variable {Lane : Type}

open Classical in
/-- world/map/commons.hpp:45-70 `ChooseLaneCorridorBasedOnVehicleState`; `cur` is `observed_world.GetLaneCorridor()` -/
noncomputable def choose (rnd : ℝ → ℝ) (R : Roads Lane) (shape : Shape.Poly) (x : VState) (cur target : Lane) (dev : ℝ) : Res Lane :=
  match ofState rnd (R.line target) x with
  | .error f => .error f
  | .ok f =>
    if ∃ p ∈ (Shape.outlineAt shape x.x x.y x.theta).pts, R.inside target p then .ok target
    else if |f.angle| < dev then .ok cur else .ok target

/-- base_idm.cpp:379-385: the corridor `CalcRelativeValues` is asked for; `const` is `constant_lane_corr_` -/
noncomputable def reaction (rnd : ℝ → ℝ) (R : Roads Lane) (shape : Shape.Poly) (x : VState) (const : Option Lane) (cur : Lane) : Res Lane :=
  match const with
  | none => .ok cur
  | some c => choose rnd R shape x cur c (1 / 5)

/-- idm_classic.cpp:74-86: a row in the plane -/
noncomputable def planar (l : Line) (r : Idm.Row) : Res VState :=
  match pointAtS l r.s with
  | .error f => .error f
  | .ok p =>
    match tangentAngleAtS l r.s with
    | .error f => .error f
    | .ok th => .ok ⟨r.t, p.1, p.2, th, r.v⟩

/-- idm_classic.cpp:59-86: the rows in the plane -/
noncomputable def planars (l : Line) : List (ℝ × Idm.Row) → Res (List VState)
  | [] => .ok []
  | r :: rs =>
    match planar l r.2 with
    | .error f => .error f
    | .ok x =>
      match planars l rs with
      | .error f => .error f
      | .ok xs => .ok (x :: xs)

/-- idm_classic.cpp:34-91 `GenerateTrajectory`: the ego state, then the generated rows. On an empty line the (uninitialised) matrix is
returned as it is. -/
noncomputable def classic (p : Idm.Params) (l : Line) (r : Idm.Rel) (start dt : ℝ) (ego : VState) : Res (List VState) :=
  if l.pts = [] then .error .ub
  else
    match nearestS l (ego.x, ego.y) with
    | .error f => .error f
    | .ok s0 =>
      match Idm.generate p r start dt s0 ego.vel with
      | .error f => .error f
      | .ok rows =>
        match planars l rows with
        | .error f => .error f
        | .ok xs => .ok (ego :: xs)

/-- idm_lane_tracking.cpp:56-63: the line the lane tracking steers to -/
def trackLine (R : Roads Lane) (const : Option Lane) (lane : Lane) : Line :=
  match const with
  | none => R.line lane
  | some c => R.line c

/-- what `Plan` does to the behaviour: status and last trajectory -/
structure Beh (T : Type) where
  status : BStatus
  traj : T

/-- base_idm.cpp:366-400 `Plan`; `rel` is `CalcRelativeValues` for a corridor, `gen` is `GenerateTrajectory` of the class along a corridor -/
noncomputable def plan {T : Type} (rnd : ℝ → ℝ) (R : Roads Lane) (shape : Shape.Poly) (x : VState) (const cur : Option Lane)
    (rel : Lane → Res Idm.Rel) (gen : Lane → Idm.Rel → Res T) (b : Beh T) : Res (Beh T) :=
  match cur with
  | none => .ok ⟨.expired, b.traj⟩
  | some c =>
    match reaction rnd R shape x const c with
    | .error f => .error f
    | .ok lane =>
      match rel lane with
      | .error f => .error f
      | .ok r =>
        match gen c r with
        | .error f => .error f
        | .ok t => .ok ⟨.valid, t⟩

/-- lane_change_behavior.cpp:188-230 `Plan`; `decided` is the corridor of `CheckIfLaneChangeBeneficial`, `followed` is `GetLaneCorridor()`
before -/
def planChange {T : Type} (cur followed decided : Option Lane) (rel : Lane → Res Idm.Rel) (gen : Lane → Idm.Rel → Res T) (b : Beh T) :
    Res (Beh T × Option Lane) :=
  match cur with
  | none => .ok (⟨.expired, b.traj⟩, followed)
  | some _ =>
    match (match decided with | some d => some d | none => followed) with
    | none => .ok (⟨.expired, b.traj⟩, none)
    | some lane =>
      match rel lane with
      | .error f => .error f
      | .ok r =>
        match gen lane r with
        | .error f => .error f
        | .ok t => .ok (⟨.valid, t⟩, some lane)

/-- idm_lane_tracking.cpp:37-108 `GenerateTrajectory` along a corridor; `steer` is `CalculateSteeringAngle` towards a line. An empty line
leaves the matrix uninitialised. -/
noncomputable def track (p : Idm.Params) (R : Roads Lane) (const : Option Lane) (wheelBase : ℝ) (steer : Line → Dyn.State → ℝ) (start dt : ℝ)
    (ego : Dyn.State) (lane : Lane) (r : Idm.Rel) : Res (List Dyn.State) :=
  if (trackLine R const lane).pts = [] then .error .ub
  else Dyn.laneTracking id p r wheelBase (steer (trackLine R const lane)) start dt ego

end Bark.Pick
