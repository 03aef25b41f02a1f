import Verif.Spec.Mixed

/-! Vocabulary of C224: a vehicle that is given an acceleration for every step. -/
namespace Bark.Mix.Spec

/-- position along the lane and velocity after steps (duration, acceleration) -/
noncomputable def travel : List (ℝ × ℝ) → ℝ × ℝ → ℝ × ℝ
  | [], x => x
  | (dt, c) :: l, x => travel l (x.1 + x.2 * dt + c * dt ^ 2 / 2, x.2 + c * dt)

/-- the accelerations are not below -5 m/s², never make the vehicle reverse or drive faster than 50 m/s, and do not take it beyond the end of the lane of length `L` -/
def Moderate (L : ℝ) : List (ℝ × ℝ) → ℝ × ℝ → Prop
  | [], _ => True
  | (dt, c) :: l, x => -5 ≤ c ∧ 0 ≤ x.2 + c * dt ∧ x.2 + c * dt ≤ 50 ∧ x.1 + x.2 * dt + c * dt ^ 2 / 2 ≤ L ∧
      Moderate L l (x.1 + x.2 * dt + c * dt ^ 2 / 2, x.2 + c * dt)

end Bark.Mix.Spec
