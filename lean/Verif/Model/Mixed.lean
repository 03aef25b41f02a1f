import Verif.Model.Traffic

/-!
Traffic as in `Model/Traffic` in which some vehicles are driven by something else: a vehicle under test, a recorded trajectory, a learned policy.
-/
namespace Bark.Mix
open Bark Bark.Flow

variable {Box Lane : Type}

/-- a behaviour model as the world calls it (behavior_model.hpp:127-128 `Plan`): its own state before, the step, the observed world and the agent's id give its state after -/
abbrev Planner (Box : Type) := Beh → ℝ → W Box → Nat → Beh

/-- agent.cpp:79-87: every agent has its own behaviour model; those of the vehicles in `foreign` are arbitrary, the others' is the classic IDM. All agents execute by
interpolation. -/
noncomputable def mixed (u : Setup Box Lane) (foreign : Nat → Bool) (f : Planner Box) :
    Plug ℝ V5 CAcc.Act Beh (Res (Interp.Exec V5)) Shape.Poly Box Unit :=
  { plug u with plan := fun b dt obs i => if foreign i then f b dt obs i else plan u b dt obs i }

/-- world.cpp:65-68 `Step`, once for every entry: the duration of the step and what the other vehicles are driven by in this step. It may be something else in every
step, so a behaviour model with a state of its own (or a random one) is included. -/
noncomputable def drive (u : Setup Box Lane) (foreign : Nat → Bool) : List (ℝ × Planner Box) → W Box → Res (W Box)
  | [], w => .ok w
  | (dt, f) :: rest, w =>
    match World.step (mixed u foreign f) dt w with
    | .error e => .error e
    | .ok w1 => drive u foreign rest w1

end Bark.Mix
