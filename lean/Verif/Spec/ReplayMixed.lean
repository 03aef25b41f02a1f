import Verif.Model.ReplayMixed
import Verif.Spec.Mixed
import Verif.Spec.Interpolate

/-! Vocabulary of C220. -/
namespace Bark.Mix.Spec
open Bark Bark.Flow Bark.Flow.Spec Bark.Ln

/-- a recording whose stamps increase and cover the times from `t0` to `t1` (and a little more); read between its rows by linear interpolation it is at time `t` on the
lane (of length `L`), directed along it, at the position and with the velocity `y t` -/
structure Kept (At : ℝ → Pt → ℝ → Prop) (L t0 t1 : ℝ) (recording : List V5) (y : ℝ → ℝ × ℝ) : Prop where
  increasing : Interp.Spec.Increasing clock recording
  begun : ∃ r ∈ recording, r.1 ≤ t0
  later : ∃ r ∈ recording, t1 < r.1
  along : ∀ t row, t0 ≤ t → t ≤ t1 → Interp.Spec.OnTrajectory clock recording t row →
    ∃ p θ, row = (t, p.1, p.2, θ, (y t).2) ∧ At (y t).1 p θ ∧ 0 ≤ (y t).1 ∧ (y t).1 ≤ L

/-- a recording along the lane that never reverses nor brakes harder than 5 m/s² -/
structure Recorded (At : ℝ → Pt → ℝ → Prop) (L t0 t1 : ℝ) (recording : List V5) (y : ℝ → ℝ × ℝ) : Prop extends Kept At L t0 t1 recording y where
  gentle : ∀ t d, t0 ≤ t → 0 < d → d ≤ 1 / 5 → t + d ≤ t1 → Loop.Spec.Gentle (t, y t) (t + d, y (t + d)) d

/-- vehicle `i` is driven by its recording in every step -/
def Replayed {Box Lane : Type} (u : Setup Box Lane) (foreign : Nat → Bool) (recording : List V5) (i : Nat) (l : List (ℝ × Planner Box)) : Prop :=
  foreign i = true ∧ ∀ e ∈ l, ∀ b dt obs, e.2 b dt obs i = replayer u (fun _ => recording) b dt obs i

end Bark.Mix.Spec
