import Verif.Props.Fresnel4
import Mathlib.Analysis.Calculus.Deriv.MeanValue

/-! C193: the branch of the Fresnel routine for large arguments: error. -/
namespace Bark.Spi
open Bark Bark.Ln Bark.PV Spec Real

theorem exact_deriv (x : ℝ) : HasDerivAt (fun y => (exact y).1) (sin (π / 2 * x ^ 2)) x ∧
    HasDerivAt (fun y => (exact y).2) (cos (π / 2 * x ^ 2)) x := by
  constructor
  · have hc : Continuous (fun t : ℝ => sin (π / 2 * t ^ 2)) := by fun_prop
    exact intervalIntegral.integral_hasDerivAt_right (hc.intervalIntegrable _ _)
      (hc.stronglyMeasurableAtFilter _ _) hc.continuousAt
  · have hc : Continuous (fun t : ℝ => cos (π / 2 * t ^ 2)) := by fun_prop
    exact intervalIntegral.integral_hasDerivAt_right (hc.intervalIntegrable _ _)
      (hc.stronglyMeasurableAtFilter _ _) hc.continuousAt

/-- a function whose derivative is at most `e / x²` in size changes by at most `e / a` beyond `a` -/
theorem drift {h h' : ℝ → ℝ} {a e : ℝ} (ha : 0 < a) (he : 0 ≤ e) (hd : ∀ x, a ≤ x → HasDerivAt h (h' x) x)
    (hb : ∀ x, a ≤ x → |h' x| ≤ e / x ^ 2) {x : ℝ} (hx : a ≤ x) : |h x - h a| ≤ e / a := by
  have key : ∀ (k k' : ℝ → ℝ), (∀ x, a ≤ x → HasDerivAt k (k' x) x) → (∀ x, a ≤ x → |k' x| ≤ e / x ^ 2) →
      k a - e / a ≤ k x := by
    intro k k' hk hkb
    have hinv : ∀ y, a ≤ y → HasDerivAt (fun y => k y - e / y) (k' y + e / y ^ 2) y := by
      intro y hy
      have hy0 : y ≠ 0 := (lt_of_lt_of_le ha hy).ne'
      refine ((hk y hy).sub ((hasDerivAt_const y e).div (hasDerivAt_id y) hy0)).congr_deriv ?_
      simp
      ring
    have hm : MonotoneOn (fun y => k y - e / y) (Set.Ici a) := by
      apply monotoneOn_of_deriv_nonneg (convex_Ici a)
      · exact fun y hy => (hinv y hy).continuousAt.continuousWithinAt
      · intro y hy
        rw [interior_Ici] at hy
        exact (hinv y (le_of_lt hy)).differentiableAt.differentiableWithinAt
      · intro y hy
        rw [interior_Ici] at hy
        rw [(hinv y (le_of_lt hy)).deriv]
        have := (abs_le.1 (hkb y (le_of_lt hy))).1
        linarith
    have := hm (Set.mem_Ici.2 le_rfl) (Set.mem_Ici.2 hx) hx
    dsimp only at this
    have hpos : 0 ≤ e / x := div_nonneg he (le_trans ha.le hx)
    linarith
  have h1 := key h h' hd hb
  have h2 := key (fun y => - h y) (fun y => - h' y) (fun y hy => (hd y hy).neg) (fun y hy => by rw [abs_neg]; exact hb y hy)
  rw [abs_le]
  constructor <;> linarith

theorem err_deriv_bound {x : ℝ} (hx : 0 < x) (h : 2.5 ≤ x * x) (c s : ℝ) (hc : |c| ≤ 1) (hs : |s| ≤ 1) :
    |c * (uu x * rA (uu x)) + s * (rB (uu x) / (π * (x * x)))| ≤ 1 / 10 ^ 10 / x ^ 2 := by
  obtain ⟨a, b⟩ := aux_bound (uu_nonneg x) (uu_le h)
  change |rA (uu x)| ≤ _ at a
  change |rB (uu x)| ≤ _ at b
  have hp := pi_gt_three
  have hxx : 0 < x * x := by positivity
  have hu : |uu x| ≤ 1 / (2 * (x * x)) := by
    rw [abs_of_nonneg (uu_nonneg x)]
    unfold uu
    apply one_div_le_one_div_of_le (by positivity)
    have h1 : 3 * (x * x) ≤ π * (x * x) := mul_le_mul_of_nonneg_right hp.le hxx.le
    nlinarith
  have e1 : |c * (uu x * rA (uu x))| ≤ 1 / (2 * (x * x)) * (1 / 10 ^ 10) := by
    rw [abs_mul, abs_mul]
    have h1 : |uu x| * |rA (uu x)| ≤ 1 / (2 * (x * x)) * (1 / 10 ^ 10) := mul_le_mul hu a (abs_nonneg _) (by positivity)
    have h2 : 0 ≤ |uu x| * |rA (uu x)| := by positivity
    nlinarith [abs_nonneg c]
  have e2 : |s * (rB (uu x) / (π * (x * x)))| ≤ 1 / (2 * (x * x)) * (1 / 10 ^ 10) := by
    rw [abs_mul, abs_div, abs_of_pos (by positivity : 0 < π * (x * x))]
    have h1 : |rB (uu x)| / (π * (x * x)) ≤ 1 / 10 ^ 10 / (2 * (x * x)) :=
      div_le_div₀ (by positivity) b (by positivity) (mul_le_mul_of_nonneg_right (by linarith) hxx.le)
    have h2 : 0 ≤ |rB (uu x)| / (π * (x * x)) := by positivity
    have h3 : (1 : ℝ) / 10 ^ 10 / (2 * (x * x)) = 1 / (2 * (x * x)) * (1 / 10 ^ 10) := by ring
    nlinarith [abs_nonneg s]
  refine le_trans (abs_add_le _ _) ?_
  have : (1 : ℝ) / 10 ^ 10 / x ^ 2 = 1 / (2 * (x * x)) * (1 / 10 ^ 10) + 1 / (2 * (x * x)) * (1 / 10 ^ 10) := by
    field_simp; norm_num
  linarith

theorem asym_drift {x : ℝ} (hx : √2.5 ≤ x) :
    |(asymS x - (exact x).1) - (asymS √2.5 - (exact √2.5).1)| ≤ 1 / 10 ^ 10 ∧
    |(asymC x - (exact x).2) - (asymC √2.5 - (exact √2.5).2)| ≤ 1 / 10 ^ 10 := by
  have ha : 0 < √(2.5 : ℝ) := Real.sqrt_pos.2 (by norm_num)
  have h1 : 1 ≤ √(2.5 : ℝ) := Real.one_le_sqrt.2 (by norm_num)
  have hsq : ∀ y, √(2.5 : ℝ) ≤ y → 2.5 ≤ y * y := by
    intro y hy
    have := Real.mul_self_sqrt (show (0 : ℝ) ≤ 2.5 by norm_num)
    nlinarith
  have hle : (1 : ℝ) / 10 ^ 10 / √2.5 ≤ 1 / 10 ^ 10 := div_le_self (by positivity) h1
  constructor
  · refine le_trans (drift ha (by positivity : (0 : ℝ) ≤ 1 / 10 ^ 10) (h := fun y => asymS y - (exact y).1) (h' := fun y =>
        sin (π / 2 * y ^ 2) * (uu y * rA (uu y)) + (-cos (π / 2 * y ^ 2)) * (rB (uu y) / (π * (y * y)))) ?_ ?_ hx) hle
    · intro y hy
      refine ((asym_deriv (lt_of_lt_of_le ha hy)).2.sub (exact_deriv y).1).congr_deriv ?_
      ring
    · intro y hy
      exact err_deriv_bound (lt_of_lt_of_le ha hy) (hsq y hy) _ _ (abs_sin_le_one _) (by rw [abs_neg]; exact abs_cos_le_one _)
  · refine le_trans (drift ha (by positivity : (0 : ℝ) ≤ 1 / 10 ^ 10) (h := fun y => asymC y - (exact y).2) (h' := fun y =>
        cos (π / 2 * y ^ 2) * (uu y * rA (uu y)) + sin (π / 2 * y ^ 2) * (rB (uu y) / (π * (y * y)))) ?_ ?_ hx) hle
    · intro y hy
      refine ((asym_deriv (lt_of_lt_of_le ha hy)).1.sub (exact_deriv y).2).congr_deriv ?_
      ring
    · intro y hy
      exact err_deriv_bound (lt_of_lt_of_le ha hy) (hsq y hy) _ _ (abs_cos_le_one _) (abs_sin_le_one _)

end Bark.Spi
