import Verif.Model.Mixed
import Verif.Model.StaticTraj

/-!
Replayed vehicles in IDM traffic: the planner of `Model/Mixed` that `BehaviorStaticTrajectory` provides.
-/
namespace Bark.Mix
open Bark Bark.Flow

variable {Box Lane : Type}

/-- the time column of a trajectory (dynamic_model.hpp:25 `TIME_POSITION`) -/
abbrev clock : V5 →ₗ[ℝ] ℝ := LinearMap.fst ℝ ℝ (ℝ × ℝ × ℝ × ℝ)

/-- behavior_static_trajectory.cpp:68-83 `CalculateAction`: the mean longitudinal and lateral acceleration over the trajectory along the centre line of the agent's lane
corridor (observed_world.cpp:76-89). Without a lane corridor the program dereferences a null pointer. -/
noncomputable def replayAction (u : Setup Box Lane) (dt : ℝ) (obs : W Box) (ego : Nat) (first last : V5) : Res CAcc.Act :=
  match obs.getAgent ego with
  | none => .error .ub
  | some a =>
    match a.currentState with
    | .error f => .error f
    | .ok x =>
      match u.corridor ((entries x).x, (entries x).y) with
      | none => .error .ub
      | some lane =>
        let s := frenetOf (u.roads.line lane) first
        let e := frenetOf (u.roads.line lane) last
        .ok (.lonLat ((e.vlon - s.vlon) / dt) ((e.vlat - s.vlat) / dt))

/-- behavior_static_trajectory.cpp:37-66 `Plan` for the agents whose recordings are given -/
noncomputable def replayer (u : Setup Box Lane) (recording : Nat → List V5) : Planner Box := fun b dt obs ego =>
  match StaticTraj.status clock (recording ego) obs.time dt with
  | .error f => ⟨.valid, .error f, b.action⟩
  | .ok s =>
    match StaticTraj.plan clock (recording ego) obs.time dt with
    | .error f => ⟨s, .error f, b.action⟩
    | .ok tr =>
      match tr.head?, tr.getLast? with
      | some first, some last =>
        match replayAction u dt obs ego first last with
        | .error f => ⟨s, .error f, b.action⟩
        | .ok act => ⟨s, .ok tr, act⟩
      | _, _ => ⟨s, .ok [], .lonLat 0 0⟩

end Bark.Mix
