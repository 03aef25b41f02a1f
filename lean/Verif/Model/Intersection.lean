import Verif.Model.Idm
import Verif.Model.Angle

/-!
Model of `bark/models/behavior/rule_based/intersection_behavior.cpp`.

Simplifications: the predicted world at time `t` is summarised by the agents that intersect the merged polygon of the followed
corridor (parameter); the loop over the prediction times gets a step bound (`fuel`), running out of it is `diverges`.
-/
namespace Bark.Inter
open Bark Angle

/-- one agent of `GetAgentsIntersectingPolygon` in a predicted world, in the order of the map. `alive`: neither the ego nor the
agent pointer is null; `other`: it is not the ego; `otherLane`: both corridors exist and differ -/
structure Cand where
  id : Nat
  alive : Bool
  other : Bool
  otherLane : Bool
  sEgo : ℝ
  sOther : ℝ
  egoAngle : ℝ
  angle : ℝ

/-- intersection_behavior.hpp:46-57, the parameters -/
structure Prm where
  horizon : ℝ
  inc : ℝ
  braking : ℝ
  angleDiff : ℝ

open Classical in
/-- intersection_behavior.cpp:56-90 `GetIntersectingAgent` -/
noncomputable def intersecting (p : Prm) : List Cand → Option Nat
  | [] => none
  | c :: cs =>
    if c.alive = false then none
    else if c.otherLane = true ∧ c.other = true ∧ p.angleDiff < signedAngleDiff id c.egoAngle c.angle ∧
        c.sEgo < c.sOther ∧ c.sOther - c.sEgo < p.braking then some c.id
    else intersecting p cs

/-- the current state of an agent, `observed_world.GetAgent(id)`: heading and velocity -/
structure Cur where
  angle : ℝ
  vel : ℝ

open Classical in
/-- intersection_behavior.cpp:115-133: the loop over the prediction times -/
noncomputable def checkLoop (p : Prm) (pred : ℝ → List Cand) (agents : Nat → Option Cur) : Nat → ℝ → Res (Option (ℝ × Cur))
  | 0, _ => .error .diverges
  | fuel + 1, t =>
    if t < p.horizon then
      match (intersecting p (pred t)).bind agents with
      | some a => .ok (some (t, a))
      | none => checkLoop p pred agents fuel (t + p.inc)
    else .ok none

open Classical in
/-- intersection_behavior.cpp:157-188: the relative values used for the trajectory -/
noncomputable def planRel (egoAngle : ℝ) (found : Option (ℝ × Cur)) (r : Idm.Rel) : Idm.Rel :=
  match found with
  | none => r
  | some (t, a) =>
    if signedAngleDiff id egoAngle a.angle < 0 then
      { distance := min (a.vel * t) r.distance, velocity := 0, leadAcc := r.leadAcc, hasLeader := true }
    else r

end Bark.Inter
