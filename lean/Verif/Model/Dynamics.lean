import Verif.Model.Angle
import Verif.Model.Idm
import Mathlib.Analysis.SpecialFunctions.Complex.Arg

/-!
Model of `bark/models/dynamic/{integration,single_track,single_track_steering_rate,triple_integrator}.hpp` and of
the trajectory generation of `bark/models/behavior/idm/idm_lane_tracking.cpp`, over ℝ.

A state vector is a function from indices to reals; entries beyond the vector's size are meaningless. Mixing vectors
of different sizes (an Eigen assertion) is not modelled.
-/
namespace Bark.Dyn
open Real

/-- dynamic_model.hpp:36 `State`; indices as in dynamic_model.hpp:24-34: 0 time, 1 x, 2 y, 3 heading, 4 velocity -/
abbrev State := ℕ → ℝ

/-- single_track.hpp:66-76 `StateSpaceModel`; `a` acceleration input, `δ` steering angle input, `l` wheel base -/
noncomputable def singleTrack (l a δ : ℝ) (x : State) : State
  | 0 => 1
  | 1 => x 4 * cos (x 3)
  | 2 => x 4 * sin (x 3)
  | 3 => x 4 * tan δ / l
  | 4 => a
  | _ => 0

/-- single_track_steering_rate.hpp:42-54; `δ'` steering rate input, entry 5 is the steering angle -/
noncomputable def steeringRate (l a δ' : ℝ) (x : State) : State
  | 0 => 1
  | 1 => x 4 * cos (x 3)
  | 2 => x 4 * sin (x 3)
  | 3 => x 4 * tan (x 5) / l
  | 4 => a
  | 5 => δ'
  | _ => 0

/-- triple_integrator.hpp:38-58: `A x + B u`; the non-zero entries of `A` are (0,0), (6,7), (7,8), (9,10), (10,11),
(12,13), (13,14), those of `B` are (8,0), (11,1), (14,2). -/
noncomputable def tripleIntegrator (ux uy uz : ℝ) (x : State) : State
  | 0 => x 0
  | 6 => x 7
  | 7 => x 8
  | 8 => ux
  | 9 => x 10
  | 10 => x 11
  | 11 => uy
  | 12 => x 13
  | 13 => x 14
  | 14 => uz
  | _ => 0

/-- integration.hpp:20-28 `euler_int`; `rnd` is the conversion to `float` inside `NormToPI` -/
noncomputable def euler (rnd : ℝ → ℝ) (f : State → State) (dt : ℝ) (x : State) : State :=
  fun i => if i = 3 then Angle.normToPI rnd (x 3 + dt * f x 3) else x i + dt * f x i

/-- integration.hpp:30-37 `rk4` -/
noncomputable def rk4 (f : State → State) (dt : ℝ) (x : State) : State :=
  let k0 : State := fun i => dt * f x i
  let k1 : State := fun i => dt * f (fun j => x j + k0 j / 2) i
  let k2 : State := fun i => dt * f (fun j => x j + k1 j / 2) i
  let k3 : State := fun i => dt * f (fun j => x j + k2 j) i
  fun i => x i + 1 / 6 * (k0 i + 2 * k1 i + 2 * k2 i + k3 i)

/-- C `atan2(y, x)` -/
noncomputable def atan2 (y x : ℝ) : ℝ := Complex.arg ⟨x, y⟩

/-- single_track.hpp:57-64, 139-142: parameters of the single track model used for steering -/
structure Steer where
  wheelBase : ℝ
  deltaMax : ℝ
  latAccMax : ℝ
  latAccMin : ℝ

/-- single_track.hpp:167-170 `boundValue` -/
noncomputable def boundValue (v lo hi : ℝ) : ℝ := max (min v hi) lo

/-- single_track.hpp:172-175 `SteeringAngle` -/
noncomputable def steeringFor (accLat vel wb : ℝ) : ℝ := atan2 (accLat * wb) (vel * vel)

/-- single_track.hpp:157-218 `CalculateSteeringAngle`; `fAngle`, `fLat` are angle and lateral offset of the front axle's
frenet state. -/
noncomputable def calcSteering (rnd : ℝ → ℝ) (m : Steer) (fAngle fLat vel gain : ℝ) (limit : Bool) : ℝ :=
  let delta := Angle.normToPI rnd fAngle + atan2 (-gain * fLat) vel
  if limit then
    boundValue (boundValue delta (-m.deltaMax) m.deltaMax)
      (steeringFor m.latAccMin vel m.wheelBase) (steeringFor m.latAccMax vel m.wheelBase)
  else delta

/-- single_track.hpp:148-155 `CalculateLateralAcceleration` -/
noncomputable def lateralAcc (m : Steer) (delta vel : ℝ) : ℝ := vel * (vel * tan delta / m.wheelBase)

/-- single_track.hpp:127-137 `GetLonAccelerationMin` -/
noncomputable def lonAccMin (accMin v : ℝ) : ℝ := if |v| < 1 / 100000 then 0 else accMin

/-- idm_lane_tracking.cpp:76-96: rows `i, …` of the lane tracking trajectory (`n` rows to go) with the acceleration and
steering angle applied. `steer` maps a row to the steering angle towards the lane's centre line. -/
noncomputable def trackLoop (rnd : ℝ → ℝ) (p : Idm.Params) (r : Idm.Rel) (l : ℝ) (steer : State → ℝ)
    (start dt v0 : ℝ) : (n i : Nat) → (prev : State) → (rel : ℝ) → Res (List State)
  | 0, _, _, _ => .ok []
  | n + 1, i, prev, rel =>
    match Idm.totalAcc p r v0 rel with
    | .error f => .error f
    | .ok (.fin acc) =>
      let x := euler rnd (singleTrack l acc (steer prev)) dt prev
      let x' : State := fun j => if j = 4 then max (x 4) p.minVel else if j = 0 then i * dt + start else x j
      match trackLoop rnd p r l steer start dt v0 n (i + 1) x' (Idm.nextDist r v0 rel acc dt) with
      | .ok t => .ok (x' :: t)
      | .error f => .error f
    | .ok _ => .error .nan

/-- idm_lane_tracking.cpp:37-108 `GenerateTrajectory` on a non-empty centre line: row 0 is the ego state stamped with
the world time. -/
noncomputable def laneTracking (rnd : ℝ → ℝ) (p : Idm.Params) (r : Idm.Rel) (l : ℝ) (steer : State → ℝ)
    (start dt : ℝ) (ego : State) : Res (List State) :=
  let row0 : State := fun j => if j = 0 then start else ego j
  match trackLoop rnd p r l steer start dt (ego 4) (p.numPoints - 1) 1 row0 r.distance with
  | .ok t => .ok (row0 :: t)
  | .error f => .error f

end Bark.Dyn
