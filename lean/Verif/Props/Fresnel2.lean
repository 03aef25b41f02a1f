import Verif.Props.Fresnel

/-! C193: accuracy of the routine for the Fresnel integrals for small arguments. -/
namespace Bark.Spi
open Bark Bark.Ln Bark.PV Spec Real

/-- 2.5625 ^ 2 -/
def tmax : ℚ := 6.56640625

theorem cos_poly : bnd tmax (addP cn.reverse (scale (-1) (mulP ((List.range 16).map tc) cd.reverse))) ≤ 2 / 10 ^ 9 := by
  decide +kernel

theorem sin_poly : bnd tmax (addP sn.reverse (scale (-1) (mulP ((List.range 16).map ts) (1 :: sd).reverse))) ≤ 32 := by
  decide +kernel

theorem cd_ge {t : ℝ} (h0 : 0 ≤ t) : 1 ≤ ev t cd.reverse := by
  have e : cd.reverse = 1.00000000000000000118 :: cd.reverse.tail := by decide +kernel
  rw [e]
  refine le_trans ?_ (ev_ge_head h0 _ _ (by decide +kernel))
  norm_num

theorem sd_ge {t : ℝ} (h0 : 0 ≤ t) : 6 * 10 ^ 11 ≤ ev t (1 :: sd).reverse := by
  have e : (1 :: sd).reverse = 6.07366389490084639049E11 :: (1 :: sd).reverse.tail := by decide +kernel
  rw [e]
  refine le_trans ?_ (ev_ge_head h0 _ _ (by decide +kernel))
  norm_num

theorem abs_accuracy {x : ℝ} (h0 : 0 ≤ x) (hx : x * x < 2.5625) :
    |(fresnelAbs x).1 - (exact x).1| ≤ 1 / 10 ^ 8 ∧ |(fresnelAbs x).2 - (exact x).2| ≤ 1 / 10 ^ 8 := by
  have hx1 : x ≤ 161 / 100 := by nlinarith
  have ht0 : 0 ≤ x ^ 4 := by positivity
  have ht1 : x ^ 4 ≤ (tmax : ℝ) := by
    have : x ^ 4 = (x * x) * (x * x) := by ring
    rw [this]
    unfold tmax
    have h1 : 0 ≤ x * x := mul_nonneg h0 h0
    norm_num at *
    nlinarith
  obtain ⟨tC, tS⟩ := taylor_close h0 hx1
  have pC := ev_le_bnd ht0 ht1 (addP cn.reverse (scale (-1) (mulP ((List.range 16).map tc) cd.reverse)))
  have pS := ev_le_bnd ht0 ht1 (addP sn.reverse (scale (-1) (mulP ((List.range 16).map ts) (1 :: sd).reverse)))
  have bC : ((bnd tmax (addP cn.reverse (scale (-1) (mulP ((List.range 16).map tc) cd.reverse))) : ℚ) : ℝ) ≤ 2 / 10 ^ 9 := by
    have := cos_poly
    have h2 : ((2 / 10 ^ 9 : ℚ) : ℝ) = 2 / 10 ^ 9 := by push_cast; rfl
    rw [← h2]
    exact_mod_cast this
  have bS : ((bnd tmax (addP sn.reverse (scale (-1) (mulP ((List.range 16).map ts) (1 :: sd).reverse))) : ℚ) : ℝ) ≤ 32 := by
    exact_mod_cast sin_poly
  have qC := le_trans pC bC
  have qS := le_trans pS bS
  rw [ev_add, ev_scale, ev_mul] at qC qS
  have dC := cd_ge ht0
  have dS := sd_ge ht0
  have e : fresnelAbs x = (x * (x * x) * ev (x ^ 4) sn.reverse / ev (x ^ 4) (1 :: sd).reverse,
      x * ev (x ^ 4) cn.reverse / ev (x ^ 4) cd.reverse) := by
    unfold fresnelAbs
    dsimp only
    rw [if_pos hx, polevl_ev, polevl_ev, polevl_ev, p1evl_ev _ _ (by decide +kernel),
      show x * x * (x * x) = x ^ 4 by ring]
  rw [e]
  dsimp only
  generalize ev (x ^ 4) sn.reverse = N at *
  generalize ev (x ^ 4) cn.reverse = N' at *
  generalize ev (x ^ 4) (1 :: sd).reverse = D at *
  generalize ev (x ^ 4) cd.reverse = D' at *
  generalize ev (x ^ 4) ((List.range 16).map tc) = P' at *
  generalize ev (x ^ 4) ((List.range 16).map ts) = P at *
  have hD : 0 < D := lt_of_lt_of_le (by norm_num) dS
  have hD' : 0 < D' := lt_of_lt_of_le (by norm_num) dC
  constructor
  · have h1 : |x * (x * x) * N / D - x * x ^ 2 * P| ≤ 1 / 10 ^ 9 := by
      have : x * (x * x) * N / D - x * x ^ 2 * P = x * (x * x) * ((N + ((-1 : ℚ) : ℝ) * (P * D)) / D) := by
        push_cast
        field_simp
        ring
      rw [this, abs_mul, abs_div, abs_of_pos hD, abs_of_nonneg (by positivity : 0 ≤ x * (x * x))]
      have k1 : x * (x * x) ≤ 161 / 100 * 2.5625 := mul_le_mul hx1 hx.le (by positivity) (by norm_num)
      have k2 : |N + ((-1 : ℚ) : ℝ) * (P * D)| / D ≤ 32 / (6 * 10 ^ 11) := div_le_div₀ (by norm_num) qS (by norm_num) dS
      calc _ ≤ 161 / 100 * 2.5625 * (32 / (6 * 10 ^ 11) : ℝ) := mul_le_mul k1 k2 (by positivity) (by norm_num)
        _ ≤ 1 / 10 ^ 9 := by norm_num
    have h2 := abs_sub_le (x * (x * x) * N / D) (x * x ^ 2 * P) (exact x).1
    rw [abs_sub_comm] at tS
    norm_num at *
    linarith
  · have h1 : |x * N' / D' - x * P'| ≤ 4 / 10 ^ 9 := by
      have : x * N' / D' - x * P' = x * ((N' + ((-1 : ℚ) : ℝ) * (P' * D')) / D') := by
        push_cast
        field_simp
        ring
      rw [this, abs_mul, abs_div, abs_of_pos hD', abs_of_nonneg h0]
      have k2 : |N' + ((-1 : ℚ) : ℝ) * (P' * D')| / D' ≤ 2 / 10 ^ 9 / 1 := div_le_div₀ (by norm_num) qC (by norm_num) dC
      calc _ ≤ 161 / 100 * (2 / 10 ^ 9 / 1 : ℝ) := mul_le_mul hx1 k2 (by positivity) (by norm_num)
        _ ≤ 4 / 10 ^ 9 := by norm_num
    have h2 := abs_sub_le (x * N' / D') (x * P') (exact x).2
    rw [abs_sub_comm] at tC
    norm_num at *
    linarith

theorem exact_odd (x : ℝ) : exact (-x) = (-(exact x).1, -(exact x).2) := by
  unfold exact
  refine Prod.ext ?_ ?_
  · have := intervalIntegral.integral_comp_neg (a := 0) (b := x) (fun t => sin (π / 2 * t ^ 2))
    simp only [neg_zero, even_two.neg_pow] at this
    show (∫ t in (0:ℝ)..(-x), sin (π / 2 * t ^ 2)) = _
    rw [intervalIntegral.integral_symm, ← this]
  · have := intervalIntegral.integral_comp_neg (a := 0) (b := x) (fun t => cos (π / 2 * t ^ 2))
    simp only [neg_zero, even_two.neg_pow] at this
    show (∫ t in (0:ℝ)..(-x), cos (π / 2 * t ^ 2)) = _
    rw [intervalIntegral.integral_symm, ← this]

end Bark.Spi
