import Verif.Props.Fresnel3

/-! C193: the branch of the Fresnel routine for large arguments: error. -/
namespace Bark.Spi
open Bark Bark.Ln Bark.PV Spec Real

noncomputable def uu (x : ℝ) : ℝ := 1 / ((π * (x * x)) * (π * (x * x)))
noncomputable def ff (x : ℝ) : ℝ := 1 - uu x * (ev (uu x) N / ev (uu x) Q)
noncomputable def gg (x : ℝ) : ℝ := 1 / (π * (x * x)) * (ev (uu x) M / ev (uu x) R)
noncomputable def asymS (x : ℝ) : ℝ := 1 / 2 - (ff x * cos (π / 2 * x ^ 2) + gg x * sin (π / 2 * x ^ 2)) / (π * x)
noncomputable def asymC (x : ℝ) : ℝ := 1 / 2 + (ff x * sin (π / 2 * x ^ 2) - gg x * cos (π / 2 * x ^ 2)) / (π * x)

theorem fresnelAbs_asym {x : ℝ} (h1 : 2.5625 ≤ x * x) (h2 : x ≤ 36974) : fresnelAbs x = (asymS x, asymC x) := by
  unfold fresnelAbs asymS asymC ff gg uu
  dsimp only
  rw [if_neg (not_lt.2 h1), if_neg (not_lt.2 h2), polevl_ev, polevl_ev, p1evl_ev _ _ (by decide +kernel),
    p1evl_ev _ _ (by decide +kernel)]
  have e : π * (1 / 2) * (x * x) = π / 2 * x ^ 2 := by ring
  rw [e, mul_div_assoc, mul_div_assoc]
  rfl

theorem uu_nonneg (x : ℝ) : 0 ≤ uu x := by
  unfold uu
  have := mul_self_nonneg (π * (x * x))
  positivity

theorem uu_le {x : ℝ} (hx : 2.5 ≤ x * x) : uu x ≤ 0.01622 := by
  unfold uu
  have hp := pi_gt_d6
  have h : 7.8539 ≤ π * (x * x) := by
    have : (3.141592 : ℝ) * 2.5 ≤ π * (x * x) := mul_le_mul hp.le hx (by norm_num) (by positivity)
    norm_num at *; linarith
  rw [div_le_iff₀ (by positivity)]
  have := mul_le_mul h h (by norm_num) (by linarith)
  norm_num at *; linarith

theorem uu_deriv {x : ℝ} (hx : 0 < x) : HasDerivAt uu (-4 * uu x / x) x := by
  have hp := pi_pos
  have h1 : HasDerivAt (fun y : ℝ => (π * (y * y)) * (π * (y * y))) (4 * π ^ 2 * x ^ 3) x := by
    have := ((hasDerivAt_id x).mul (hasDerivAt_id x)).const_mul π
    refine (this.mul this).congr_deriv ?_
    simp; ring
  have h2 := (hasDerivAt_const x (1 : ℝ)).div h1 (by positivity)
  refine h2.congr_deriv ?_
  unfold uu
  field_simp
  ring

theorem quot_deriv (p q : List ℚ) {x : ℝ} (hx : 0 < x) (hq : ev (uu x) q ≠ 0) :
    HasDerivAt (fun y => ev (uu y) p / ev (uu y) q)
      ((ev (uu x) (dP p) * ev (uu x) q - ev (uu x) p * ev (uu x) (dP q)) / ev (uu x) q ^ 2 * (-4 * uu x / x)) x := by
  have h1 : HasDerivAt (fun y => ev (uu y) p) (ev (uu x) (dP p) * (-4 * uu x / x)) x :=
    HasDerivAt.comp x (ev_deriv (uu x) p) (uu_deriv hx)
  have h2 : HasDerivAt (fun y => ev (uu y) q) (ev (uu x) (dP q) * (-4 * uu x / x)) x :=
    HasDerivAt.comp x (ev_deriv (uu x) q) (uu_deriv hx)
  refine (h1.div h2 hq).congr_deriv ?_
  ring

/-- `-F + 3 G + 4 u G'` -/
noncomputable def rA (u : ℝ) : ℝ := -(ev u N / ev u Q) + 3 * (ev u M / ev u R) +
        4 * u * ((ev u (dP M) * ev u R - ev u M * ev u (dP R)) / ev u R ^ 2)
noncomputable def rB (u : ℝ) : ℝ := ev u M / ev u R - 1 + 5 * u * (ev u N / ev u Q) +
        4 * u ^ 2 * ((ev u (dP N) * ev u Q - ev u N * ev u (dP Q)) / ev u Q ^ 2)

theorem asym_deriv {x : ℝ} (hx : 0 < x) :
    HasDerivAt asymC (cos (π / 2 * x ^ 2) + cos (π / 2 * x ^ 2) * (uu x * rA (uu x)) +
      sin (π / 2 * x ^ 2) * (rB (uu x) / (π * (x * x)))) x ∧
    HasDerivAt asymS (sin (π / 2 * x ^ 2) + sin (π / 2 * x ^ 2) * (uu x * rA (uu x)) -
      cos (π / 2 * x ^ 2) * (rB (uu x) / (π * (x * x)))) x := by
  have hp := pi_pos
  have hQ := (Q_pos (uu_nonneg x)).ne'
  have hR := (R_pos (uu_nonneg x)).ne'
  have dF := quot_deriv N Q hx hQ
  have dG := quot_deriv M R hx hR
  have du := uu_deriv hx
  have df := (hasDerivAt_const x (1 : ℝ)).sub (du.mul dF)
  have dt : HasDerivAt (fun y : ℝ => π * (y * y)) (π * (x + x)) x := by
    refine (((hasDerivAt_id x).mul (hasDerivAt_id x)).const_mul π).congr_deriv ?_
    simp
  have dti := (hasDerivAt_const x (1 : ℝ)).div dt (by positivity)
  have dg := dti.mul dG
  have dth : HasDerivAt (fun y : ℝ => π / 2 * y ^ 2) (π * x) x := by
    refine ((hasDerivAt_pow 2 x).const_mul (π / 2)).congr_deriv ?_
    simp; ring
  have dpx : HasDerivAt (fun y : ℝ => π * y) π x := by
    simpa using (hasDerivAt_id x).const_mul π
  have hu : uu x = 1 / ((π * (x * x)) * (π * (x * x))) := rfl
  constructor
  · have := (((df.mul dth.sin).sub (dg.mul dth.cos)).div dpx (by positivity)).const_add (1 / 2)
    refine this.congr_deriv ?_
    unfold rA rB
    simp only [Pi.mul_apply, Pi.sub_apply, Pi.div_apply]
    generalize cos (π / 2 * x ^ 2) = c
    generalize sin (π / 2 * x ^ 2) = s
    generalize (ev (uu x) (dP N) * ev (uu x) Q - ev (uu x) N * ev (uu x) (dP Q)) / ev (uu x) Q ^ 2 = F'
    generalize (ev (uu x) (dP M) * ev (uu x) R - ev (uu x) M * ev (uu x) (dP R)) / ev (uu x) R ^ 2 = G'
    generalize ev (uu x) N / ev (uu x) Q = F
    generalize ev (uu x) M / ev (uu x) R = G
    rw [hu]
    field_simp
    ring
  · have := (((df.mul dth.cos).add (dg.mul dth.sin)).div dpx (by positivity)).const_sub (1 / 2)
    refine this.congr_deriv ?_
    unfold rA rB
    simp only [Pi.mul_apply, Pi.sub_apply, Pi.add_apply, Pi.div_apply]
    generalize cos (π / 2 * x ^ 2) = c
    generalize sin (π / 2 * x ^ 2) = s
    generalize (ev (uu x) (dP N) * ev (uu x) Q - ev (uu x) N * ev (uu x) (dP Q)) / ev (uu x) Q ^ 2 = F'
    generalize (ev (uu x) (dP M) * ev (uu x) R - ev (uu x) M * ev (uu x) (dP R)) / ev (uu x) R ^ 2 = G'
    generalize ev (uu x) N / ev (uu x) Q = F
    generalize ev (uu x) M / ev (uu x) R = G
    rw [hu]
    field_simp
    ring

end Bark.Spi
