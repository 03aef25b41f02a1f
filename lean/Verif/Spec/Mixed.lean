import Verif.Model.Mixed
import Verif.Spec.Traffic

/-! Vocabulary of C219. -/
namespace Bark.Mix.Spec
open Bark Bark.Flow Bark.Flow.Spec Bark.Ln

variable {Box Lane : Type}

/-- at time `t` the vehicle is at `s` on the lane of length `L`, directed along it, with velocity `v` -/
def On (At : ℝ → Pt → ℝ → Prop) (L t s v : ℝ) (ag : Agent ℝ V5 CAcc.Act Beh (Res (Interp.Exec V5)) Shape.Poly) : Prop := Rides At t s v ag ∧ 0 ≤ s ∧ s ≤ L

/-- what is asked of the other vehicles in a step of `dt` seconds from `w` to `w1`. One that was at `s` on the lane with velocity `v`
- is still there, on the lane (of length `L`) and directed along it,
- has not reversed, and has not braked harder than 5 m/s²,
- and drove so that it has room to everyone who was ahead of it and could stop before them. -/
def Decent (foreign : Nat → Bool) (At : ℝ → Pt → ℝ → Prop) (L dt : ℝ) (w w1 : W Box) : Prop :=
  ∀ i ag s v, foreign i = true → w.getAgent i = some ag → On At L w.time s v ag →
    ∃ a1 s1 v1, w1.getAgent i = some a1 ∧ a1.shape = ag.shape ∧ On At L w1.time s1 v1 a1 ∧
      Loop.Spec.Gentle (w.time, s, v) (w.time + dt, s1, v1) dt ∧
      ∀ j aj sj vj aj1 sj1 vj1, j ≠ i → w.getAgent j = some aj → On At L w.time sj vj aj → s ≤ sj → w1.getAgent j = some aj1 → On At L w1.time sj1 vj1 aj1 →
        Loop.Spec.Clear (gap a1.shape aj1.shape s1 sj1) v1 vj1

/-- the other vehicles do so in every step -/
def Behave (u : Setup Box Lane) (foreign : Nat → Bool) (At : ℝ → Pt → ℝ → Prop) (L : ℝ) : List (ℝ × Planner Box) → W Box → Prop
  | [], _ => True
  | (dt, f) :: rest, w => ∀ w1, World.step (mixed u foreign f) dt w = .ok w1 → Decent foreign At L dt w w1 ∧ Behave u foreign At L rest w1

end Bark.Mix.Spec
