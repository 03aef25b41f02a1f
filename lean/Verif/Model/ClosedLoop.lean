import Verif.Model.World
import Verif.Model.Interpolate
import Verif.Model.StaticTraj
import Verif.Model.ActionDriven
import Verif.Model.Idm

/-!
Worlds (`Model/World`) whose agents carry concrete models: behaviours that replay a recording (`Model/StaticTraj`), drive with a constant
acceleration (`Model/ActionDriven`) or follow the IDM (`Model/Idm`), all executed by interpolation (`Model/Interpolate`).
A model in an undefined state is an error. The other agents of the world, the observer's effect on them and the actions recorded stay arbitrary.
-/
namespace Bark.Loop
open Bark
set_option linter.unusedSectionVars false

section
variable {K V : Type} [Field K] [LinearOrder K] [IsStrictOrderedRing K] [AddCommGroup V] [Module K V]

/-- behavior_static_trajectory.hpp:47-49 and behavior_model.hpp: recording, status, last trajectory -/
structure Replay (V : Type) where
  recording : List V
  status : BStatus
  traj : List V

/-- behavior_static_trajectory.cpp:37-66 `Plan`: status, then trajectory -/
def replan (tm : V →ₗ[K] K) (t dt : K) (b : Res (Replay V)) : Res (Replay V) :=
  match b with
  | .error f => .error f
  | .ok b =>
    match StaticTraj.status tm b.recording t dt with
    | .error f => .error f
    | .ok s =>
      match StaticTraj.plan tm b.recording t dt with
      | .error f => .error f
      | .ok tr => .ok ⟨b.recording, s, tr⟩

/-- agent.cpp:84-87 `PlanExecution` with interpolate.cpp:81-126 -/
def carryOut (tm : V →ₗ[K] K) (t : K) (traj : Res (List V)) (e : Res (Interp.Exec V)) : Res (Interp.Exec V) :=
  match e, traj with
  | .ok e, .ok tr => Interp.execute tm e t tr
  | .error f, _ => .error f
  | _, .error f => .error f

/-- last trajectory of a replaying behaviour -/
def Replay.last (b : Res (Replay V)) : Res (List V) :=
  match b with
  | .error f => .error f
  | .ok b => .ok b.traj

end

/-! ### vehicles along a centre line

The row of a trajectory is (time, arc length, velocity); position and heading are those of the centre line at the arc length, and projecting that
position on the centre line is taken to return the arc length. -/

/-- a row of `Model/Idm` as a vector -/
def vec (r : Idm.Row) : ℝ × ℝ × ℝ := (r.t, r.s, r.v)

/-- the row of a vector -/
def row (x : ℝ × ℝ × ℝ) : Idm.Row := ⟨x.1, x.2.1, x.2.2⟩

/-- constant_acceleration.cpp:18-42 `Plan` -/
noncomputable def planConst (minVel maxVel a : ℝ) (numPoints : Nat) (t dt : ℝ) (ego : ℝ × ℝ × ℝ) : List (ℝ × ℝ × ℝ) :=
  (Act.planConstAcc minVel maxVel a t dt numPoints (row ego)).2.map vec

/-- idm_classic.cpp:34-91 with base_idm.cpp:389-392: the ego's state, then the generated rows -/
noncomputable def planIdm (p : Idm.Params) (r : Idm.Rel) (t dt : ℝ) (ego : ℝ × ℝ × ℝ) : Res (List (ℝ × ℝ × ℝ)) :=
  match Idm.generate p r t (Idm.stepSize p dt) ego.2.1 ego.2.2 with
  | .error f => .error f
  | .ok l => .ok (ego :: l.map fun x => vec x.2)

/-- status and last trajectory of a behaviour that follows its lane corridor -/
structure Drive where
  status : BStatus
  traj : Res (List (ℝ × ℝ × ℝ))

/-- base_idm.cpp:366-400 `Plan` (constant_acceleration.cpp:18-42 likewise): without a lane corridor the behaviour expires and keeps its trajectory -/
def drive (hasLane : Bool) (traj : Res (List (ℝ × ℝ × ℝ))) (b : Drive) : Drive :=
  if hasLane = true then ⟨.valid, traj⟩ else ⟨.expired, b.traj⟩

end Bark.Loop
