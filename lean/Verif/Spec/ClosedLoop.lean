import Verif.Model.ClosedLoop
import Verif.Spec.World
import Verif.Spec.Interpolate

/-!
Specification vocabulary for closed-loop simulations (C180–C182).
-/
namespace Bark.Loop.Spec
open Bark
set_option linter.unusedSectionVars false

variable {K V St Act B E Sh Box O : Type} [Field K] [LinearOrder K] [IsStrictOrderedRing K] [AddCommGroup V] [Module K V]

/-- the models `P` of a simulation include behaviours that replay recordings and execution by interpolation: `behav` and `exec` are the states of
such models, `st` the vehicle state of a row; observing does not change the time -/
structure Replays (P : Plug K St Act B E Sh Box O) (tm : V →ₗ[K] K) (behav : Res (Replay V) → B) (exec : Res (Interp.Exec V) → E) (st : V → St) :
    Prop where
  plan : ∀ b dt obs id, P.plan (behav b) dt obs id = behav (replan tm obs.time dt b)
  status : ∀ b : Replay V, P.status (behav (.ok b)) = b.status
  execute : ∀ e t b, P.execute (exec e) t (behav b) = exec (carryOut tm t (Replay.last b) e)
  execStatus : ∀ e : Interp.Exec V, P.execStatus (exec (.ok e)) = e.status
  executed : ∀ (e : Interp.Exec V) v, e.state = some v → P.executedState (exec (.ok e)) = st v
  clock : ∀ o w id, (P.observe o w id).2.time = w.time

/-- the models include behaviours that follow their lane corridor (if `lane` says the ego has one) on the trajectory `traj` planned from the observed
world and the ego's own state, and execution by interpolation; the ego sees the time and itself as they are -/
structure Drives (P : Plug ℝ St Act B E Sh Box O) (lane : World ℝ St Act B E Sh Box O → Nat → Bool)
    (traj : World ℝ St Act B E Sh Box O → Nat → ℝ → ℝ × ℝ × ℝ → Res (List (ℝ × ℝ × ℝ)))
    (behav : Drive → B) (exec : Res (Interp.Exec (ℝ × ℝ × ℝ)) → E) (st : ℝ × ℝ × ℝ → St) : Prop where
  plan : ∀ b dt (obs : World ℝ St Act B E Sh Box O) id a x, obs.getAgent id = some a → a.currentState = .ok (st x) →
    P.plan (behav b) dt obs id = behav (drive (lane obs id) (traj obs id dt x) b)
  status : ∀ b, P.status (behav b) = b.status
  execute : ∀ e t b, P.execute (exec e) t (behav b) = exec (carryOut (LinearMap.fst ℝ ℝ (ℝ × ℝ)) t b.traj e)
  execStatus : ∀ e : Interp.Exec (ℝ × ℝ × ℝ), P.execStatus (exec (.ok e)) = e.status
  executed : ∀ (e : Interp.Exec (ℝ × ℝ × ℝ)) v, e.state = some v → P.executedState (exec (.ok e)) = st v
  clock : ∀ o w id, (P.observe o w id).2.time = w.time
  self : ∀ o w id, (P.observe o w id).2.getAgent id = w.getAgent id

/-- an agent replays the recording `l`, has not expired and nothing went wrong so far -/
def Replaying (behav : Res (Replay V) → B) (exec : Res (Interp.Exec V) → E) (l : List V) (a : Agent K St Act B E Sh) : Prop :=
  (∃ b : Replay V, a.behavior = behav (.ok b) ∧ b.recording = l ∧ b.status ≠ .expired) ∧
  ∃ e : Interp.Exec V, a.exec = exec (.ok e) ∧ e.status = .valid

/-- the time after the first `k` of the steps `dts` -/
def timeAt (t0 : K) (dts : List K) (k : Nat) : K := t0 + (dts.take k).sum

/-- a recording has begun by time `t` -/
def Begun (tm : V →ₗ[K] K) (recording : List V) (t : K) : Prop := ∃ r ∈ recording, tm r ≤ t

/-- a recording is over at time `t` -/
def Over (tm : V →ₗ[K] K) (recording : List V) (t : K) : Prop := ∀ r ∈ recording, tm r ≤ t

/-- a run of the simulation -/
def steps (dts : List K) : List (World.Op K St Act B E Sh) := dts.map World.Op.step

/-- an agent that has entered drives, is in the state `x`, and nothing went wrong so far -/
def Driving (t : ℝ) (behav : Drive → B) (exec : Res (Interp.Exec (ℝ × ℝ × ℝ)) → E) (st : ℝ × ℝ × ℝ → St) (x : ℝ × ℝ × ℝ)
    (a : Agent ℝ St Act B E Sh) : Prop :=
  a.firstValid ≤ t ∧ (∃ b : Drive, a.behavior = behav b) ∧ (∃ e : Interp.Exec (ℝ × ℝ × ℝ), a.exec = exec (.ok e) ∧ e.status = .valid) ∧
  a.currentState = .ok (st x)

/-- `z` is reached from `x` with the constant acceleration `a`; rows are (time, arc length, velocity) -/
def Uniform (a : ℝ) (x z : ℝ × ℝ × ℝ) : Prop :=
  z.2.2 = x.2.2 + a * (z.1 - x.1) ∧ z.2.1 = x.2.1 + x.2.2 * (z.1 - x.1) + 1 / 2 * a * (z.1 - x.1) ^ 2

end Bark.Loop.Spec
