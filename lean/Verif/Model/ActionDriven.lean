import Verif.Model.Dynamics
import Mathlib.Algebra.Order.Floor.Ring
import Mathlib.Algebra.Order.Archimedean.Real.Basic

/-!
Model of the behaviours that carry out a given input: `motion_primitives/continuous_actions.cpp`, `dynamic_model/dynamic_model.cpp` and
`constant_acceleration/constant_acceleration.cpp` (with `idm/idm_classic.cpp`), over ℝ (exact arithmetic). Rows narrower than the
state (continuous_actions.cpp:26 stores `MIN_STATE_SIZE` entries) are not modelled.
-/
namespace Bark.Act
open Bark Dyn

/-- continuous_actions.cpp:31-44: rows `i, …` (`k` to go) of a trajectory of `n` rows -/
noncomputable def mpLoop (rnd : ℝ → ℝ) (f : State → State) (horizon dt : ℝ) (n : Nat) : (k i : Nat) → State → List State
  | 0, _, _ => []
  | k + 1, i, x =>
    let d := if i = n - 1 then horizon - ((i : ℝ) - 1) * dt else dt
    euler rnd f d x :: mpLoop rnd f horizon dt n k (i + 1) (euler rnd f d x)

/-- continuous_actions.cpp:19-47 `Plan`; `model u` is the dynamic model with input `u`. The size of the trajectory is the rounded-up
quotient plus one; row 0 of an empty matrix and an unknown primitive (`motion_primitives_[…]`, continuous_actions.hpp:38-40) are
undefined, as is a zero step. The primitive is only looked up inside the loop. -/
noncomputable def planContinuous {U : Type} (rnd : ℝ → ℝ) (model : U → State → State) (prims : List U) (active : Nat)
    (horizon dt : ℝ) (ego : State) : Res (List State) :=
  if dt = 0 then .error .ub
  else if ⌈horizon / dt⌉ + 1 < 1 then .error .ub
  else if ⌈horizon / dt⌉ = 0 then .ok [ego]
  else match prims[active]? with
    | none => .error .ub
    | some u => .ok (ego :: mpLoop rnd (model u) horizon dt (⌈horizon / dt⌉ + 1).toNat ⌈horizon / dt⌉.toNat 1 ego)

/-- dynamic_model.cpp:58-63: rows `i, …` (`k` to go) -/
noncomputable def dynLoop (rnd : ℝ → ℝ) (f : State → State) (start dt : ℝ) : (k i : Nat) → State → List State
  | 0, _, _ => []
  | k + 1, i, x =>
    let y : State := fun j => if j = 0 then start + i * dt else euler rnd f dt x j
    y :: dynLoop rnd f start dt k (i + 1) y

/-- dynamic_model.cpp:38-68 `Plan`; `f` is the dynamic model with the input set by `ActionToBehavior` -/
noncomputable def planDynamic (rnd : ℝ → ℝ) (f : State → State) (worldTime horizon dt : ℝ) (ego : State) : Res (List State) :=
  if dt = 0 then .error .ub
  else if ⌈horizon / dt⌉ + 2 < 1 then .error .ub
  else .ok (ego :: dynLoop rnd f worldTime dt (⌈horizon / dt⌉ + 1).toNat 1 ego)

/-- idm_classic.cpp:59-86 with the acceleration of constant_acceleration.cpp:50-53: rows `i, …` (`k` to go) -/
noncomputable def caLoop (minVel maxVel a start dt : ℝ) : (k i : Nat) → (s v : ℝ) → List Idm.Row
  | 0, _, _, _ => []
  | k + 1, i, s, v =>
    let s' := s + (1 / 2 * a * dt * dt + v * dt)
    let v' := max (min (v + a * dt) maxVel) minVel
    ⟨i * dt + start, s', v'⟩ :: caLoop minVel maxVel a start dt k (i + 1) s' v'

/-- constant_acceleration.cpp:18-42 `Plan` along a non-empty centre line: the action reported and the trajectory. `ego` is the ego's
current state as time, arc length, velocity. The action is the constant acceleration if there is a row after the first
(idm_classic.cpp:45, 64-66); at least one time point is assumed. -/
noncomputable def planConstAcc (minVel maxVel a worldTime horizon : ℝ) (numPoints : Nat) (ego : Idm.Row) : ℝ × List Idm.Row :=
  (if 2 ≤ numPoints then a else 0,
    ego :: caLoop minVel maxVel a worldTime (horizon / ((numPoints : ℝ) - 1)) (numPoints - 1) 1 ego.s ego.v)

end Bark.Act
