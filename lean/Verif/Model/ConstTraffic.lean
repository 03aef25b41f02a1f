import Verif.Model.Mixed
import Verif.Model.ActionDriven

/-!
A vehicle with a given acceleration among the vehicles of `Model/Mixed`: `bark/models/behavior/constant_acceleration/constant_acceleration.cpp`
in the plane, on the lane corridor it finds itself on.
-/
namespace Bark.Mix
open Bark Bark.Ln Bark.Fren Bark.Flow

variable {Box Lane : Type}

/-- constant_acceleration.cpp:30-41 with idm_classic.cpp:34-91 `GenerateTrajectory` (the total acceleration is `c`, constant_acceleration.cpp:50-54): trajectory
and action. The parameters are those of the IDM it is derived from. -/
noncomputable def constGenerate (u : Setup Box Lane) (c : ℝ) (l : Line) (start dt : ℝ) (x : VState) : Res (List V5 × CAcc.Act) :=
  if l.pts = [] then .error .ub
  else
    match nearestS l (x.x, x.y) with
    | .error f => .error f
    | .ok s =>
      match Pick.planars l ((Act.caLoop u.idm.minVel u.idm.maxVel c start (Idm.stepSize u.idm dt) (u.idm.numPoints - 1) 1 s x.vel).map fun r => (c, r)) with
      | .error f => .error f
      | .ok xs => .ok ((x :: xs).map vector, .continuous (if 2 ≤ u.idm.numPoints then c else 0))

/-- constant_acceleration.cpp:18-42 `Plan` of a vehicle with acceleration `c`: without a lane corridor it expires and keeps its trajectory -/
noncomputable def constPlan (u : Setup Box Lane) (c : ℝ) : Planner Box := fun b dt obs i =>
  match obs.getAgent i with
  | none => ⟨.valid, .error .ub, b.action⟩
  | some a =>
    match a.currentState with
    | .error f => ⟨.valid, .error f, b.action⟩
    | .ok x =>
      match u.corridor ((entries x).x, (entries x).y) with
      | none => ⟨.expired, b.traj, b.action⟩
      | some lane =>
        match constGenerate u c (u.roads.line lane) obs.time dt (entries x) with
        | .error f => ⟨.valid, .error f, b.action⟩
        | .ok (t, act) => ⟨.valid, .ok t, act⟩

end Bark.Mix
