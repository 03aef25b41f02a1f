import Verif.Props.Fresnel6

/-! C193: accuracy of the routine for the Fresnel integrals and of the clothoids for all arguments. -/
namespace Bark.Spi
open Bark Bark.Ln Bark.PV Spec Real

theorem asym_accuracy {x : ℝ} (h0 : 0 ≤ x) (hx : 2.5625 ≤ x * x) :
    |asymS x - (exact x).1| ≤ 1 / 10 ^ 8 ∧ |asymC x - (exact x).2| ≤ 1 / 10 ^ 8 := by
  have h : √2.5 ≤ x := Real.sqrt_le_iff.2 ⟨h0, by norm_num at *; nlinarith⟩
  obtain ⟨a, b⟩ := asym_drift h
  obtain ⟨c, d⟩ := anchor
  simp only [abs_le] at *
  norm_num at *
  refine ⟨⟨?_, ?_⟩, ?_, ?_⟩ <;> linarith

theorem abs_accuracy_all {x : ℝ} (h0 : 0 ≤ x) (h : x ≤ 36974) :
    |(fresnelAbs x).1 - (exact x).1| ≤ 1 / 10 ^ 8 ∧ |(fresnelAbs x).2 - (exact x).2| ≤ 1 / 10 ^ 8 := by
  rcases lt_or_ge (x * x) 2.5625 with g | g
  · exact abs_accuracy h0 g
  · rw [fresnelAbs_asym g h]
    exact asym_accuracy h0 g

theorem far_check : evQ (1 / 10 ^ 10) N ≤ 4 * evQ 0 Q ∧ evQ (1 / 10 ^ 10) M ≤ 4 * evQ 0 R := by decide +kernel

theorem far_quot {u : ℝ} (h0 : 0 ≤ u) (h1 : u ≤ 1 / 10 ^ 10) :
    0 ≤ ev u N / ev u Q ∧ ev u N / ev u Q ≤ 4 ∧ 0 ≤ ev u M / ev u R ∧ ev u M / ev u R ≤ 4 := by
  obtain ⟨a, b⟩ := far_check
  have a := cast_le_iff' a
  have b := cast_le_iff' b
  push_cast at a b
  rw [evQ_cast, evQ_cast] at a b
  push_cast at a b
  have key : ∀ (P D : List ℚ), (∀ c ∈ P, 0 ≤ c) → (∀ c ∈ D, 0 ≤ c) → 0 < ev u D → ev (1 / 10 ^ 10) P ≤ 4 * ev 0 D →
      0 ≤ ev u P / ev u D ∧ ev u P / ev u D ≤ 4 := by
    intro P D hP hD hp hh
    refine ⟨div_nonneg (ev_nonneg h0 _ hP) hp.le, ?_⟩
    rw [div_le_iff₀ hp]
    have m1 := ev_mono h0 h1 P hP
    have m2 := ev_mono le_rfl h0 D hD
    linarith
  obtain ⟨x1, x2⟩ := key N Q (by decide +kernel) (by decide +kernel) (Q_pos h0) a
  obtain ⟨x3, x4⟩ := key M R (by decide +kernel) (by decide +kernel) (R_pos h0) b
  exact ⟨x1, x2, x3, x4⟩

theorem far_half {x : ℝ} (h : 36974 ≤ x) : |asymS x - 1 / 2| ≤ 9 / 10 ^ 6 ∧ |asymC x - 1 / 2| ≤ 9 / 10 ^ 6 := by
  have hp := pi_gt_d2
  have ht : 3.14 * (36974 * 36974) ≤ π * (x * x) :=
    mul_le_mul hp.le (mul_le_mul h h (by norm_num) (by linarith)) (by norm_num) (by positivity)
  have htp : (0 : ℝ) < π * (x * x) := lt_of_lt_of_le (by norm_num) ht
  have hu1 : uu x ≤ 1 / 10 ^ 10 := by
    unfold uu
    apply one_div_le_one_div_of_le (by norm_num)
    have := mul_le_mul ht ht (by norm_num) htp.le
    refine le_trans ?_ this
    norm_num
  obtain ⟨f0, f1, g0, g1⟩ := far_quot (uu_nonneg x) hu1
  have hf : |ff x| ≤ 1 := by
    unfold ff
    have := uu_nonneg x
    rw [abs_le]
    constructor
    · have : uu x * (ev (uu x) N / ev (uu x) Q) ≤ 1 / 10 ^ 10 * 4 := mul_le_mul hu1 f1 f0 (by norm_num)
      norm_num at *
      linarith
    · have : 0 ≤ uu x * (ev (uu x) N / ev (uu x) Q) := mul_nonneg this f0
      linarith
  have hg : |gg x| ≤ 1 / 10 ^ 8 := by
    unfold gg
    rw [abs_of_nonneg (mul_nonneg (by positivity) g0)]
    have h1 : 1 / (π * (x * x)) ≤ 1 / (3.14 * (36974 * 36974)) := one_div_le_one_div_of_le (by norm_num) ht
    refine le_trans (mul_le_mul h1 g1 g0 (by norm_num)) ?_
    norm_num
  have hd : (3.14 : ℝ) * 36974 ≤ π * x := mul_le_mul hp.le h (by norm_num) (by positivity)
  have hdp : 0 < π * x := lt_of_lt_of_le (by norm_num) hd
  have key : ∀ a b : ℝ, |a| ≤ 1 → |b| ≤ 1 → |(ff x * a + gg x * b) / (π * x)| ≤ 9 / 10 ^ 6 := by
    intro a b ha hb
    rw [abs_div, abs_of_pos hdp, div_le_iff₀ hdp]
    have h1 : |ff x * a| ≤ 1 := by
      rw [abs_mul]
      exact mul_le_one₀ hf (abs_nonneg _) ha
    have h2 : |gg x * b| ≤ 1 / 10 ^ 8 := by
      rw [abs_mul]
      exact le_trans (mul_le_mul hg hb (abs_nonneg _) (by norm_num)) (by norm_num)
    refine le_trans (abs_add_le _ _) ?_
    norm_num at *
    linarith
  constructor
  · unfold asymS
    rw [show (1 : ℝ) / 2 - (ff x * cos (π / 2 * x ^ 2) + gg x * sin (π / 2 * x ^ 2)) / (π * x) - 1 / 2 =
      -((ff x * cos (π / 2 * x ^ 2) + gg x * sin (π / 2 * x ^ 2)) / (π * x)) by ring, abs_neg]
    exact key _ _ (abs_cos_le_one _) (abs_sin_le_one _)
  · unfold asymC
    rw [show (1 : ℝ) / 2 + (ff x * sin (π / 2 * x ^ 2) - gg x * cos (π / 2 * x ^ 2)) / (π * x) - 1 / 2 =
      (ff x * sin (π / 2 * x ^ 2) + gg x * (-cos (π / 2 * x ^ 2))) / (π * x) by ring]
    exact key _ _ (abs_sin_le_one _) (by rw [abs_neg]; exact abs_cos_le_one _)

theorem abs_accuracy_far {x : ℝ} (h : 36974 < x) :
    |(fresnelAbs x).1 - (exact x).1| ≤ 1 / 10 ^ 5 ∧ |(fresnelAbs x).2 - (exact x).2| ≤ 1 / 10 ^ 5 := by
  have hxx : (2.5625 : ℝ) ≤ x * x := by norm_num at *; nlinarith
  obtain ⟨a, b⟩ := asym_accuracy (by linarith) hxx
  obtain ⟨c, d⟩ := far_half h.le
  have e : fresnelAbs x = (1 / 2, 1 / 2) := by
    unfold fresnelAbs
    dsimp only
    rw [if_neg (not_lt.2 hxx), if_pos h]
  rw [e]
  simp only [abs_le] at *
  norm_num at *
  refine ⟨⟨?_, ?_⟩, ?_, ?_⟩ <;> linarith

theorem odd_accuracy {e x : ℝ} (h : |(fresnelAbs |x|).1 - (exact |x|).1| ≤ e ∧ |(fresnelAbs |x|).2 - (exact |x|).2| ≤ e) :
    |(fresnel x).1 - (exact x).1| ≤ e ∧ |(fresnel x).2 - (exact x).2| ≤ e := by
  rcases le_or_gt 0 x with g | g
  · unfold fresnel
    dsimp only
    rw [abs_of_nonneg g] at h ⊢
    rw [if_neg (not_lt.2 g)]
    exact h
  · rw [abs_of_neg g, exact_odd] at h
    unfold fresnel
    dsimp only at h ⊢
    rw [if_pos g, abs_of_neg g]
    dsimp only
    obtain ⟨a, b⟩ := h
    refine ⟨?_, ?_⟩
    · rw [← abs_neg]; convert a using 2; ring
    · rw [← abs_neg]; convert b using 2; ring

/-- **C193, accuracy.** The routine of the code, with all its coefficients, deviates from the Fresnel integrals by at most
10⁻⁸ for arguments between -36974 and 36974 -/
theorem C193_fresnel_accuracy {x : ℝ} (hx : |x| ≤ 36974) :
    |(fresnel x).1 - (exact x).1| ≤ 1 / 10 ^ 8 ∧ |(fresnel x).2 - (exact x).2| ≤ 1 / 10 ^ 8 :=
  odd_accuracy (abs_accuracy_all (abs_nonneg x) hx)

/-- … and by at most 10⁻⁵ for every argument. -/
theorem C193_fresnel_everywhere : Accurate (1 / 10 ^ 5) fresnel := by
  intro x
  rcases le_or_gt |x| 36974 with h | h
  · obtain ⟨a, b⟩ := C193_fresnel_accuracy h
    norm_num at *
    exact ⟨by linarith, by linarith⟩
  · exact odd_accuracy (abs_accuracy_far h)

/-- **C193, end to end.** Whatever its start pose, start curvature and (non-zero) rate of curvature, the clothoid computed
by the code is at every arc length within 10⁻⁵ · √(8 π / |c|) of the clothoid and has its heading; and within
10⁻⁸ · √(8 π / |c|) as long as it has turned by less than 36974² π / 2 (more than 3 · 10⁸ full turns) from its point of zero
curvature. -/
theorem C193_code_accuracy {c : ℝ} (hc : c ≠ 0) (p : Pt) (k s h : ℝ) :
    (((odrSpiral fresnel s p c k h).1.1 - (clothoid p h k c s).1) ^ 2 +
        ((odrSpiral fresnel s p c k h).1.2 - (clothoid p h k c s).2) ^ 2 ≤ (1 / 10 ^ 5) ^ 2 * (8 * π / |c|) ∧
      (odrSpiral fresnel s p c k h).2 = heading h k c s) ∧
    (k ^ 2 / (2 * |c|) ≤ 36974 ^ 2 * π / 2 → (k + c * s) ^ 2 / (2 * |c|) ≤ 36974 ^ 2 * π / 2 →
      ((odrSpiral fresnel s p c k h).1.1 - (clothoid p h k c s).1) ^ 2 +
        ((odrSpiral fresnel s p c k h).1.2 - (clothoid p h k c s).2) ^ 2 ≤ (1 / 10 ^ 8) ^ 2 * (8 * π / |c|)) := by
  have ha := abs_pos.2 hc
  refine ⟨error_at hc p k h s (C193_fresnel_everywhere _) (C193_fresnel_everywhere _), fun h1 h2 => ?_⟩
  have key : ∀ y : ℝ, y ^ 2 / (2 * |c|) ≤ 36974 ^ 2 * π / 2 → |y / √(π * |c|)| ≤ 36974 := by
    intro y hy
    apply abs_le_of_sq_le_sq _ (by norm_num)
    rw [div_pow, Real.sq_sqrt (by positivity), div_le_iff₀ (by positivity)]
    rw [div_le_iff₀ (by positivity)] at hy
    nlinarith
  exact (error_at hc p k h s (C193_fresnel_accuracy (key _ h2)) (C193_fresnel_accuracy (key _ h1))).1

/-- **C193, sampled clothoid.** What the code adds to the reference line for a clothoid of positive length between two
different curvatures: one point for each sample, within 10⁻⁵ · √(8 π / |c|) of the clothoid at this arc length. -/
theorem C193_add_spiral_code (v : PlanView) (p : Pt) (h : ℝ) {len inc k0 k1 : ℝ} (hl : 0 < len) (hi : 0 < inc) (hk : k0 ≠ k1) :
    ∃ n v' ss qs, (∀ fuel, n ≤ fuel → planSpiral fresnel fuel v p h len k0 k1 inc = .ok v') ∧ PV.Spec.Sampling len inc ss ∧
      v'.line.pts = v.line.pts ++ qs ∧ v'.length = Ln.length v'.line.pts ∧
      List.Forall₂ (fun s q => pdist q (clothoid p h k0 ((k1 - k0) / len) s) ≤
        1 / 10 ^ 5 * √(8 * π * len / |k1 - k0|)) ss qs := by
  have hc : (k1 - k0) / len ≠ 0 := div_ne_zero (sub_ne_zero.2 hk.symm) hl.ne'
  obtain ⟨n, v', ss, h1, h2, h3, h4⟩ := C36_spiral v (fun s => (odrSpiral fresnel s p ((k1 - k0) / len) k0 h).1) hl.le hi
  refine ⟨n, v', ss, ss.map (fun s => (odrSpiral fresnel s p ((k1 - k0) / len) k0 h).1), fun fuel hf => ?_, h2, h3, h4, ?_⟩
  · unfold planSpiral
    rw [if_neg hl.ne']
    exact h1 fuel hf
  · rw [List.forall₂_map_right_iff, List.forall₂_same]
    intro s _
    have := (C193_code_accuracy hc p k0 s h).1.1
    unfold pdist
    rw [Real.sqrt_le_iff]
    refine ⟨by positivity, ?_⟩
    rw [mul_pow, Real.sq_sqrt (by positivity)]
    rw [abs_div, abs_of_pos hl] at this
    have e : 8 * π / (|k1 - k0| / len) = 8 * π * len / |k1 - k0| := by rw [div_div_eq_mul_div]
    rw [e] at this
    linarith

/-- non-vacuity: a motorway exit that tightens to a radius of 50 m over 100 m -/
example : (1 / 5000 : ℝ) ≠ 0 ∧ (0 : ℝ) ^ 2 / (2 * |1 / 5000|) ≤ 36974 ^ 2 * π / 2 ∧
    (0 + 1 / 5000 * 100 : ℝ) ^ 2 / (2 * |1 / 5000|) ≤ 36974 ^ 2 * π / 2 := by
  have := pi_gt_three
  rw [abs_of_pos (by norm_num)]
  refine ⟨by norm_num, ?_, ?_⟩ <;> norm_num <;> linarith

end Bark.Spi
