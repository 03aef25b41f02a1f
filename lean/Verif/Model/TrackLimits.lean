import Verif.Model.Steering

/-!
Model of the parts of `bark/models/behavior/idm/idm_lane_tracking.cpp` that look at the inputs of a planned trajectory: the
check of the acceleration limits and the input returned as action. The trajectory itself is `Dyn.laneTracking`.
-/
namespace Bark.Trk
open Bark.Dyn

/-- idm_lane_tracking.cpp:114-117 `almost_smaller` -/
def almostSmaller (a b : ℝ) : Prop := a ≤ b ∨ |a - b| < 1 / 10

/-- idm_lane_tracking.cpp:118-121 `almost_larger` -/
def almostLarger (a b : ℝ) : Prop := b ≤ a ∨ |a - b| < 1 / 10

/-- the complaints of `CheckAccelerationLimits` -/
inductive Complaint where
  | lonAccMax | lonAccMin | latAccRightMax | latAccLeftMax
  deriving DecidableEq

open Classical in
/-- idm_lane_tracking.cpp:112-142 `CheckAccelerationLimits`: what is logged; the longitudinal limits are those of the IDM, the lateral
ones are handed to the vehicle's dynamic model (idm_lane_tracking.cpp:49) -/
noncomputable def check (p : Idm.Params) (m : Steer) (accLon accLat : ℝ) : List Complaint :=
  (if 0 ≤ accLon ∧ ¬ almostSmaller accLon p.accUpper then [.lonAccMax] else []) ++
  (if accLon < 0 ∧ ¬ almostLarger accLon p.accLower then [.lonAccMin] else []) ++
  (if accLat ≤ 0 ∧ ¬ almostLarger accLat m.latAccMin then [.latAccRightMax] else []) ++
  (if 0 < accLat ∧ ¬ almostSmaller accLat m.latAccMax then [.latAccLeftMax] else [])

/-- idm_lane_tracking.cpp:76-106: the complaints about row `y` that is reached with acceleration `acc` and steering angle `delta` -/
noncomputable def checkRow (p : Idm.Params) (m : Steer) (acc delta : ℝ) (y : State) : List Complaint :=
  check p m acc (lateralAcc m delta (y 4))

/-- idm_lane_tracking.cpp:66, 85-86, 103-109 `initial_input`: acceleration and steering angle of the first step; `none` is the empty
input of a trajectory of one point -/
noncomputable def initialInput (p : Idm.Params) (r : Idm.Rel) (steer : State → ℝ) (start : ℝ) (ego : State) : Res (Option (ℝ × ℝ)) :=
  if p.numPoints ≤ 1 then .ok none
  else
    match Idm.totalAcc p r (ego 4) r.distance with
    | .error f => .error f
    | .ok (.fin acc) => .ok (some (acc, steer (fun j => if j = 0 then start else ego j)))
    | .ok _ => .error .nan

end Bark.Trk
