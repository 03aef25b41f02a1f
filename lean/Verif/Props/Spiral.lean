import Verif.Model.Spiral
import Verif.Spec.Spiral
import Verif.Props.PlanView
import Mathlib.MeasureTheory.Integral.IntervalIntegral.FundThmCalculus
import Mathlib.Analysis.SpecialFunctions.Trigonometric.Deriv
import Mathlib.Tactic.FieldSimp

/-! C193: clothoids (`odrSpiral`). -/
namespace Bark.Spi
open Bark Bark.Ln Bark.PV Spec Real

/-- the sign used for the cosine integral -/
noncomputable def sgn (c : ℝ) : ℝ := if c < 0 then -1 else 1

/-- both coordinates without complex numbers -/
theorem coords (fr : ℝ → ℝ × ℝ) (s : ℝ) (p : Pt) {c : ℝ} (hc : c ≠ 0) (k h : ℝ) :
    (odrSpiral fr s p c k h).1 =
      (p.1 + √(π / |c|) * (cos (h - k * k / 2 / c) *
            (sgn c * ((fr ((k + c * s) / √(π * |c|))).2 - (fr (k / √(π * |c|))).2)) -
          sin (h - k * k / 2 / c) * ((fr ((k + c * s) / √(π * |c|))).1 - (fr (k / √(π * |c|))).1)),
       p.2 + √(π / |c|) * (sin (h - k * k / 2 / c) *
            (sgn c * ((fr ((k + c * s) / √(π * |c|))).2 - (fr (k / √(π * |c|))).2)) +
          cos (h - k * k / 2 / c) * ((fr ((k + c * s) / √(π * |c|))).1 - (fr (k / √(π * |c|))).1))) := by
  unfold odrSpiral sgn
  have e1 : ¬ (c = 0 ∧ k = 0) := fun hh => hc hh.1
  have e2 : ¬ (c = 0 ∧ k ≠ 0) := fun hh => hc hh.1
  dsimp only
  rw [if_neg e1, if_neg e2]
  have hI : (⟨0, 1⟩ : ℂ) = Complex.I := rfl
  have hexp : ∀ a : ℝ, Complex.exp (Complex.I * (a : ℂ)) = ⟨cos a, sin a⟩ := by
    intro a
    rw [mul_comm, Complex.exp_mul_I, ← Complex.ofReal_cos, ← Complex.ofReal_sin]
    apply Complex.ext
    · simp [-Complex.ofReal_cos, -Complex.ofReal_sin]
    · simp [-Complex.ofReal_cos, -Complex.ofReal_sin]
  rw [hI, hexp]
  by_cases hn : c < 0
  · rw [if_pos hn, if_pos hn]
    ext <;> simp <;> ring
  · rw [if_neg hn, if_neg hn]
    ext <;> simp <;> ring

theorem hasDeriv_sin (x : ℝ) : HasDerivAt (fun x => (exact x).1) (sin (π / 2 * x ^ 2)) x := by
  have hcont : Continuous (fun t : ℝ => sin (π / 2 * t ^ 2)) := by fun_prop
  exact intervalIntegral.integral_hasDerivAt_right (hcont.intervalIntegrable 0 x)
    (hcont.stronglyMeasurableAtFilter _ _) hcont.continuousAt

theorem hasDeriv_cos (x : ℝ) : HasDerivAt (fun x => (exact x).2) (cos (π / 2 * x ^ 2)) x := by
  have hcont : Continuous (fun t : ℝ => cos (π / 2 * t ^ 2)) := by fun_prop
  exact intervalIntegral.integral_hasDerivAt_right (hcont.intervalIntegrable 0 x)
    (hcont.stronglyMeasurableAtFilter _ _) hcont.continuousAt

theorem root_pos {c : ℝ} (hc : c ≠ 0) : 0 < √(π * |c|) := Real.sqrt_pos.2 (mul_pos pi_pos (abs_pos.2 hc))

theorem root_ratio {c : ℝ} (hc : c ≠ 0) : √(π / |c|) * (1 / √(π * |c|)) = 1 / |c| := by
  have ha := abs_pos.2 hc
  rw [Real.sqrt_div pi_pos.le, Real.sqrt_mul pi_pos.le]
  have h1 : √π ≠ 0 := (Real.sqrt_pos.2 pi_pos).ne'
  have h2 : √|c| ≠ 0 := (Real.sqrt_pos.2 ha).ne'
  have h3 : √|c| * √|c| = |c| := Real.mul_self_sqrt ha.le
  field_simp
  rw [sq, h3]

theorem angle_eq {c : ℝ} (hc : c ≠ 0) (k s : ℝ) :
    π / 2 * ((k + c * s) / √(π * |c|)) ^ 2 = (k + c * s) ^ 2 / (2 * |c|) := by
  have ha := abs_pos.2 hc
  rw [div_pow, Real.sq_sqrt (by positivity)]
  have := pi_ne_zero
  field_simp

theorem inner_deriv (c k s : ℝ) : HasDerivAt (fun s => (k + c * s) / √(π * |c|)) (c / √(π * |c|)) s := by
  have h := ((hasDerivAt_id s).const_mul c).const_add k
  simpa using h.div_const (√(π * |c|))

/-- with exact integrals, the curve moves into the direction of its heading -/
theorem deriv_curve {c : ℝ} (hc : c ≠ 0) (p : Pt) (k h s : ℝ) :
    HasDerivAt (fun s => (odrSpiral exact s p c k h).1.1) (cos (heading h k c s)) s ∧
      HasDerivAt (fun s => (odrSpiral exact s p c k h).1.2) (sin (heading h k c s)) s := by
  have hw := inner_deriv c k s
  have hS := (hasDeriv_sin ((k + c * s) / √(π * |c|))).comp s hw
  have hC := (hasDeriv_cos ((k + c * s) / √(π * |c|))).comp s hw
  rw [angle_eq hc] at hS hC
  simp only [coords _ _ _ hc]
  have hone : √(π / |c|) * (c / √(π * |c|)) = sgn c := by
    rw [show c / √(π * |c|) = c * (1 / √(π * |c|)) by ring, ← mul_assoc, mul_comm (√(π / |c|)) c, mul_assoc, root_ratio hc]
    unfold sgn
    by_cases hn : c < 0
    · rw [if_pos hn, abs_of_neg hn]; field_simp
    · rw [if_neg hn, abs_of_nonneg (not_lt.1 hn)]; field_simp
  have hss : sgn c * sgn c = 1 := by unfold sgn; split_ifs <;> norm_num
  have hhead : heading h k c s = (h - k * k / 2 / c) + sgn c * ((k + c * s) ^ 2 / (2 * |c|)) := by
    unfold heading sgn
    by_cases hn : c < 0
    · rw [if_pos hn, abs_of_neg hn]; field_simp; ring
    · rw [if_neg hn, abs_of_nonneg (not_lt.1 hn)]; field_simp; ring
  have hcos : cos (sgn c * ((k + c * s) ^ 2 / (2 * |c|))) = cos ((k + c * s) ^ 2 / (2 * |c|)) := by
    unfold sgn; split_ifs
    · rw [neg_one_mul, cos_neg]
    · rw [one_mul]
  have hsin : sin (sgn c * ((k + c * s) ^ 2 / (2 * |c|))) = sgn c * sin ((k + c * s) ^ 2 / (2 * |c|)) := by
    unfold sgn; split_ifs
    · rw [neg_one_mul, neg_one_mul, sin_neg]
    · rw [one_mul, one_mul]
  rw [hhead, cos_add, sin_add, hcos, hsin]
  generalize h - k * k / 2 / c = A at *
  generalize (k + c * s) ^ 2 / (2 * |c|) = φ at *
  constructor
  · have d := (((((hC.sub_const (exact (k / √(π * |c|))).2).const_mul (sgn c)).const_mul (cos A)).sub
      ((hS.sub_const (exact (k / √(π * |c|))).1).const_mul (sin A))).const_mul (√(π / |c|))).const_add p.1
    refine HasDerivAt.congr_deriv d ?_
    linear_combination ((cos A * cos φ) * sgn c - sin A * sin φ) * hone + cos A * cos φ * hss
  · have d := (((((hC.sub_const (exact (k / √(π * |c|))).2).const_mul (sgn c)).const_mul (sin A)).add
      ((hS.sub_const (exact (k / √(π * |c|))).1).const_mul (cos A))).const_mul (√(π / |c|))).const_add p.2
    refine HasDerivAt.congr_deriv d ?_
    linear_combination ((sin A * cos φ) * sgn c + cos A * sin φ) * hone + sin A * cos φ * hss

theorem start_curve (fr : ℝ → ℝ × ℝ) {c : ℝ} (hc : c ≠ 0) (p : Pt) (k h : ℝ) : (odrSpiral fr 0 p c k h).1 = p := by
  rw [coords _ _ _ hc]
  simp

/-- **C193.** With exact Fresnel integrals and a non-zero curvature rate `c`, `odrSpiral` returns the point at arc
length `s` of the clothoid that starts at the given point with the given heading and curvature, and its heading there. -/
theorem C193_clothoid {c : ℝ} (hc : c ≠ 0) (p : Pt) (k h s : ℝ) :
    odrSpiral exact s p c k h = (clothoid p h k c s, heading h k c s) := by
  have hcc : Continuous (fun u => cos (heading h k c u)) := by unfold heading; fun_prop
  have hcs : Continuous (fun u => sin (heading h k c u)) := by unfold heading; fun_prop
  have h1 := intervalIntegral.integral_eq_sub_of_hasDerivAt (a := 0) (b := s)
    (fun u _ => (deriv_curve hc p k h u).1) (hcc.intervalIntegrable 0 s)
  have h2 := intervalIntegral.integral_eq_sub_of_hasDerivAt (a := 0) (b := s)
    (fun u _ => (deriv_curve hc p k h u).2) (hcs.intervalIntegrable 0 s)
  rw [start_curve _ hc] at h1 h2
  refine Prod.ext (Prod.ext ?_ ?_) ?_
  · show _ = p.1 + _
    rw [h1]; ring
  · show _ = p.2 + _
    rw [h2]; ring
  · unfold odrSpiral heading; ring

/-- the error of a point, given the errors of the two values used -/
theorem error_at {c : ℝ} (hc : c ≠ 0) {e : ℝ} {fr : ℝ → ℝ × ℝ} (p : Pt) (k h s : ℝ)
    (hfa : |(fr ((k + c * s) / √(π * |c|))).1 - (exact ((k + c * s) / √(π * |c|))).1| ≤ e ∧
      |(fr ((k + c * s) / √(π * |c|))).2 - (exact ((k + c * s) / √(π * |c|))).2| ≤ e)
    (hfb : |(fr (k / √(π * |c|))).1 - (exact (k / √(π * |c|))).1| ≤ e ∧
      |(fr (k / √(π * |c|))).2 - (exact (k / √(π * |c|))).2| ≤ e) :
    ((odrSpiral fr s p c k h).1.1 - (clothoid p h k c s).1) ^ 2 + ((odrSpiral fr s p c k h).1.2 - (clothoid p h k c s).2) ^ 2
        ≤ e ^ 2 * (8 * π / |c|) ∧
      (odrSpiral fr s p c k h).2 = heading h k c s := by
  have hcl := congrArg Prod.fst (C193_clothoid hc p k h s)
  dsimp only at hcl
  rw [← hcl, coords _ _ _ hc, coords _ _ _ hc]
  constructor
  · dsimp only
    obtain ⟨a1, a2⟩ := hfa
    obtain ⟨b1, b2⟩ := hfb
    rw [abs_le] at a1 a2 b1 b2
    have hss : sgn c ^ 2 = 1 := by unfold sgn; split_ifs <;> norm_num
    have hR : √(π / |c|) ^ 2 = π / |c| := Real.sq_sqrt (by positivity)
    have hp0 : 0 ≤ π / |c| := by positivity
    generalize (fr ((k + c * s) / √(π * |c|))).1 = fa at *
    generalize (fr ((k + c * s) / √(π * |c|))).2 = fb at *
    generalize (fr (k / √(π * |c|))).1 = ga at *
    generalize (fr (k / √(π * |c|))).2 = gb at *
    generalize (exact ((k + c * s) / √(π * |c|))).1 = xa at *
    generalize (exact ((k + c * s) / √(π * |c|))).2 = xb at *
    generalize (exact (k / √(π * |c|))).1 = ya at *
    generalize (exact (k / √(π * |c|))).2 = yb at *
    generalize √(π / |c|) = R at *
    have hcs := Real.sin_sq_add_cos_sq (h - k * k / 2 / c)
    generalize sin (h - k * k / 2 / c) = sA at *
    generalize cos (h - k * k / 2 / c) = cA at *
    generalize sgn c = σ at *
    have key : (p.1 + R * (cA * (σ * (fb - gb)) - sA * (fa - ga)) - (p.1 + R * (cA * (σ * (xb - yb)) - sA * (xa - ya)))) ^ 2 +
        (p.2 + R * (sA * (σ * (fb - gb)) + cA * (fa - ga)) - (p.2 + R * (sA * (σ * (xb - yb)) + cA * (xa - ya)))) ^ 2 =
        π / |c| * (((fb - gb) - (xb - yb)) ^ 2 + ((fa - ga) - (xa - ya)) ^ 2) := by
      rw [← hR]
      linear_combination (R ^ 2 * (sA ^ 2 + cA ^ 2) * ((fb - gb) - (xb - yb)) ^ 2) * hss +
        R ^ 2 * (((fb - gb) - (xb - yb)) ^ 2 + ((fa - ga) - (xa - ya)) ^ 2) * hcs
    rw [key]
    have q1 : ((fb - gb) - (xb - yb)) ^ 2 ≤ (2 * e) ^ 2 := by
      rw [sq_le_sq, abs_of_nonneg (by linarith : 0 ≤ 2 * e), abs_le]
      constructor <;> linarith
    have q2 : ((fa - ga) - (xa - ya)) ^ 2 ≤ (2 * e) ^ 2 := by
      rw [sq_le_sq, abs_of_nonneg (by linarith : 0 ≤ 2 * e), abs_le]
      constructor <;> linarith
    calc _ ≤ π / |c| * ((2 * e) ^ 2 + (2 * e) ^ 2) := mul_le_mul_of_nonneg_left (add_le_add q1 q2) hp0
      _ = e ^ 2 * (8 * π / |c|) := by ring
  · unfold odrSpiral heading; ring

/-- **C193, error.** If the routine for the Fresnel integrals has absolute error at most `e`, the returned point is at most
`e · √(8 π / |c|)` away from the clothoid; the heading is exact. -/
theorem C193_error {c : ℝ} (hc : c ≠ 0) {e : ℝ} {fr : ℝ → ℝ × ℝ} (hf : Accurate e fr) (p : Pt) (k h s : ℝ) :
    ((odrSpiral fr s p c k h).1.1 - (clothoid p h k c s).1) ^ 2 + ((odrSpiral fr s p c k h).1.2 - (clothoid p h k c s).2) ^ 2
        ≤ e ^ 2 * (8 * π / |c|) ∧
      (odrSpiral fr s p c k h).2 = heading h k c s := by
  exact error_at hc p k h s (hf _) (hf _)

/-- **C193, standard spiral.** The spiral in local coordinates (curvature 0 and heading 0 at the origin). -/
theorem C193_standard {c : ℝ} (hc : c ≠ 0) (s : ℝ) :
    standard exact s c = .ok (clothoid (0, 0) 0 0 c s, heading 0 0 c s) := by
  rw [← C193_clothoid hc, standard, if_neg hc]
  have h1 : √π ≠ 0 := (Real.sqrt_pos.2 pi_pos).ne'
  have ha := abs_pos.2 hc
  have h2 : √|c| ≠ 0 := (Real.sqrt_pos.2 ha).ne'
  have h3 : √|c| * √|c| = |c| := Real.mul_self_sqrt ha.le
  have e0 : exact 0 = (0, 0) := by simp [exact]
  have hodd : ∀ x, exact (-x) = (-(exact x).1, -(exact x).2) := by
    intro x
    unfold exact
    refine Prod.ext ?_ ?_
    · have := intervalIntegral.integral_comp_neg (a := 0) (b := x) (fun t => sin (π / 2 * t ^ 2))
      simp only [neg_zero, even_two.neg_pow] at this
      show (∫ t in (0:ℝ)..(-x), sin (π / 2 * t ^ 2)) = _
      rw [intervalIntegral.integral_symm, ← this]
    · have := intervalIntegral.integral_comp_neg (a := 0) (b := x) (fun t => cos (π / 2 * t ^ 2))
      simp only [neg_zero, even_two.neg_pow] at this
      show (∫ t in (0:ℝ)..(-x), cos (π / 2 * t ^ 2)) = _
      rw [intervalIntegral.integral_symm, ← this]
  dsimp only
  rw [Except.ok.injEq]
  refine Prod.ext ?_ ?_
  · rw [coords _ _ _ hc]
    have ew : s / (1 / √|c| * √π) = |c| * s / √(π * |c|) := by
      rw [Real.sqrt_mul pi_pos.le]
      field_simp
      rw [sq, h3]
    have er : √(π / |c|) = 1 / √|c| * √π := by rw [Real.sqrt_div pi_pos.le]; ring
    dsimp only
    rw [ew, er]
    unfold sgn
    by_cases hn : c < 0
    · have em : (0 + c * s) / √(π * |c|) = -(|c| * s / √(π * |c|)) := by rw [abs_of_neg hn]; ring
      rw [em, hodd, zero_div, e0, if_pos hn, if_pos hn]
      ext <;> simp <;> ring
    · have em : (0 + c * s) / √(π * |c|) = |c| * s / √(π * |c|) := by
        rw [abs_of_nonneg (not_lt.1 hn)]; ring
      rw [em, zero_div, e0, if_neg hn, if_neg hn]
      ext <;> simp <;> ring
  · unfold odrSpiral; dsimp only; ring

/-- **C193, straight lines (violated).** Without curvature and curvature rate, the point should lie `s` ahead; instead it lies
`heading · s` above the start. It is right for `s = 0` only. -/
theorem C193_straight_violated (fr : ℝ → ℝ × ℝ) (p : Pt) (h s : ℝ) :
    (odrSpiral fr s p 0 0 h).1 = (p.1, p.2 + h * s) ∧
      ((odrSpiral fr s p 0 0 h).1 = (p.1 + s * cos h, p.2 + s * sin h) ↔ s = 0) := by
  have e : (odrSpiral fr s p 0 0 h).1 = (p.1, p.2 + h * s) := by
    unfold odrSpiral
    dsimp only
    rw [if_pos ⟨rfl, rfl⟩]
    ext <;> simp
  refine ⟨e, ?_⟩
  rw [e]
  constructor
  · intro heq
    rw [Prod.mk.injEq] at heq
    obtain ⟨h1, h2⟩ := heq
    by_contra hs
    have hc : cos h = 0 := by
      have : s * cos h = 0 := by linarith
      exact (mul_eq_zero.1 this).resolve_left hs
    have hsn : sin h = h := by
      have : s * (sin h - h) = 0 := by linarith
      have := (mul_eq_zero.1 this).resolve_left hs
      linarith
    have hlt : |h| ≤ 1 := by rw [← hsn]; exact abs_sin_le_one h
    have : 0 < cos h := cos_pos_of_mem_Ioo ⟨by rw [abs_le] at hlt; linarith [pi_gt_three], by rw [abs_le] at hlt; linarith [pi_gt_three]⟩
    linarith
  · rintro rfl; simp

/-- **C193, arcs (violated).** With constant curvature `k ≠ 0`, the displacement is that of a circular arc scaled and turned
according to `heading · i` instead of `exp (heading · i)`: it is right only where the arc returns to its start. -/
theorem C193_arc_violated (fr : ℝ → ℝ × ℝ) (p : Pt) (h s : ℝ) {k : ℝ} (hk : k ≠ 0) :
    (odrSpiral fr s p 0 k h).1 = (p.1 - h / k * (1 - cos (k * s)), p.2 + h / k * sin (k * s)) ∧
      ((odrSpiral fr s p 0 k h).1 = PV.Spec.arcAt p h k s ↔ cos (k * s) = 1) := by
  have e : (odrSpiral fr s p 0 k h).1 = (p.1 - h / k * (1 - cos (k * s)), p.2 + h / k * sin (k * s)) := by
    unfold odrSpiral
    dsimp only
    rw [if_neg (fun hh => hk hh.2), if_pos ⟨rfl, hk⟩]
    have e1 : (⟨0, 1⟩ : ℂ) * (h : ℂ) / (k : ℂ) = ⟨0, h / k⟩ := by
      apply Complex.ext <;> simp
    rw [e1]
    ext <;> simp [-Complex.ofReal_cos, -Complex.ofReal_sin, sub_eq_add_neg]
  refine ⟨e, ?_⟩
  rw [e]
  unfold PV.Spec.arcAt
  rw [Prod.mk.injEq]
  constructor
  · rintro ⟨h1, h2⟩
    have e1 : -(h * (1 - cos (k * s))) = sin (h + k * s) - sin h := by
      have : -(h / k * (1 - cos (k * s))) = (sin (h + k * s) - sin h) / k := by linarith
      field_simp at this
      linarith
    have e2 : h * sin (k * s) = cos h - cos (h + k * s) := by
      have : h / k * sin (k * s) = (cos h - cos (h + k * s)) / k := by linarith
      field_simp at this
      linarith
    rw [sin_add] at e1
    rw [cos_add] at e2
    have hcs := sin_sq_add_cos_sq (k * s)
    generalize cos (k * s) = x at *
    generalize sin (k * s) = y at *
    by_contra hx
    have hd : 0 < (1 - x) ^ 2 + y ^ 2 := by
      have : 0 < (1 - x) ^ 2 := by
        have : 1 - x ≠ 0 := fun hh => hx (by linarith)
        positivity
      positivity
    have c0 : cos h * ((1 - x) ^ 2 + y ^ 2) = 0 := by linear_combination -(1 - x) * e2 - y * e1
    have c1 : (sin h - h) * ((1 - x) ^ 2 + y ^ 2) = 0 := by linear_combination (1 - x) * e1 - y * e2
    have hc : cos h = 0 := (mul_eq_zero.1 c0).resolve_right hd.ne'
    have hsn : sin h = h := by
      have := (mul_eq_zero.1 c1).resolve_right hd.ne'
      linarith
    have hlt : |h| ≤ 1 := by rw [← hsn]; exact abs_sin_le_one h
    have : 0 < cos h := cos_pos_of_mem_Ioo ⟨by rw [abs_le] at hlt; linarith [pi_gt_three], by rw [abs_le] at hlt; linarith [pi_gt_three]⟩
    linarith
  · intro hx
    have hy : sin (k * s) = 0 := by
      have := sin_sq_add_cos_sq (k * s)
      rw [hx] at this
      nlinarith
    rw [sin_add, cos_add, hx, hy]
    constructor <;> ring

end Bark.Spi
