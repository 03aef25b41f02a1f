import Verif.Props.Spiral
import Mathlib.Analysis.Real.Pi.Bounds

/-! C193: spirals in reference lines, and the routine for the Fresnel integrals. -/
namespace Bark.Spi
open Bark Bark.Ln Bark.PV Spec Real

theorem clothoid_continuous_cos (h k c : ℝ) : Continuous (fun u => cos (heading h k c u)) := by unfold heading; fun_prop
theorem clothoid_continuous_sin (h k c : ℝ) : Continuous (fun u => sin (heading h k c u)) := by unfold heading; fun_prop

/-- chords of a clothoid are not longer than the arc -/
theorem chord_le (p : Pt) (h k c s s' : ℝ) : pdist (clothoid p h k c s) (clothoid p h k c s') ≤ |s - s'| := by
  have hcc := clothoid_continuous_cos h k c
  have hcs := clothoid_continuous_sin h k c
  have ex : (clothoid p h k c s).1 - (clothoid p h k c s').1 = ∫ u in s'..s, cos (heading h k c u) := by
    have := intervalIntegral.integral_interval_sub_left (hcc.intervalIntegrable (μ := MeasureTheory.volume) 0 s) (hcc.intervalIntegrable 0 s')
    rw [← this]
    simp only [clothoid]
    ring
  have ey : (clothoid p h k c s).2 - (clothoid p h k c s').2 = ∫ u in s'..s, sin (heading h k c u) := by
    have := intervalIntegral.integral_interval_sub_left (hcs.intervalIntegrable (μ := MeasureTheory.volume) 0 s) (hcs.intervalIntegrable 0 s')
    rw [← this]
    simp only [clothoid]
    ring
  unfold pdist
  generalize (clothoid p h k c s).1 - (clothoid p h k c s').1 = dx at *
  generalize (clothoid p h k c s).2 - (clothoid p h k c s').2 = dy at *
  set d := √(dx * dx + dy * dy) with hd
  have hd0 : 0 ≤ d := Real.sqrt_nonneg _
  have hd2 : d * d = dx * dx + dy * dy := Real.mul_self_sqrt (by nlinarith [mul_self_nonneg dx, mul_self_nonneg dy])
  have hint : dx * dx + dy * dy = ∫ u in s'..s, (dx * cos (heading h k c u) + dy * sin (heading h k c u)) := by
    rw [intervalIntegral.integral_add ((hcc.const_mul dx).intervalIntegrable _ _) ((hcs.const_mul dy).intervalIntegrable _ _),
      intervalIntegral.integral_const_mul, intervalIntegral.integral_const_mul, ← ex, ← ey]
  have hb := intervalIntegral.norm_integral_le_of_norm_le_const (a := s') (b := s) (C := d)
    (f := fun u => dx * cos (heading h k c u) + dy * sin (heading h k c u)) (fun u _ => by
      rw [Real.norm_eq_abs]
      apply abs_le_of_sq_le_sq _ hd0
      have := sin_sq_add_cos_sq (heading h k c u)
      rw [sq d, hd2]
      nlinarith [sq_nonneg (dx * sin (heading h k c u) - dy * cos (heading h k c u))])
  rw [← hint, ← hd2, Real.norm_eq_abs, abs_of_nonneg (mul_nonneg hd0 hd0)] at hb
  rcases hd0.lt_or_eq with hp | hz
  · exact le_of_mul_le_mul_left hb hp
  · rw [← hz]; exact abs_nonneg _

theorem length_samples (f : ℝ → Pt) (hf : ∀ s s', pdist (f s) (f s') ≤ |s - s'|) : ∀ (ss : List ℝ) (a b : ℝ),
    (∀ (i : Nat) (x y : ℝ), (a :: ss)[i]? = some x → (a :: ss)[i + 1]? = some y → x < y) → (a :: ss).getLast? = some b →
      Ln.length ((a :: ss).map f) ≤ b - a := by
  intro ss
  induction ss with
  | nil =>
    intro a b _ hb
    simp only [List.getLast?_singleton, Option.some.injEq] at hb
    simp [Ln.length, hb]
  | cons c ss ih =>
    intro a b hstep hb
    have h1 : a < c := hstep 0 a c (by simp) (by simp)
    have h2 := ih c b (fun i x y hx hy => hstep (i + 1) x y (by simpa using hx) (by simpa using hy)) (by simpa using hb)
    have h3 := hf a c
    rw [abs_of_neg (by linarith)] at h3
    simp only [List.map_cons, Ln.length] at h2 ⊢
    linarith

/-- **C193, reference lines.** With exact Fresnel integrals, `AddSpiral` with different curvatures at both ends appends
points of the clothoid from the start point on whose curvature changes linearly from `k0` to `k1`, sampled from 0 to exactly
the length, with neighbours at most the increment apart; a reference line consisting of a spiral is at most as long as the
spiral. -/
theorem C193_add_spiral (v : PlanView) (p : Pt) (h : ℝ) {len inc k0 k1 : ℝ} (hl : 0 < len) (hi : 0 < inc) (hk : k0 ≠ k1) :
    ∃ n v' ss, (∀ fuel, n ≤ fuel → planSpiral exact fuel v p h len k0 k1 inc = .ok v') ∧ PV.Spec.Sampling len inc ss ∧
      v'.line.pts = v.line.pts ++ ss.map (clothoid p h k0 ((k1 - k0) / len)) ∧ clothoid p h k0 ((k1 - k0) / len) 0 = p ∧
      (∀ (i : Nat) (a b : Pt), (ss.map (clothoid p h k0 ((k1 - k0) / len)))[i]? = some a →
        (ss.map (clothoid p h k0 ((k1 - k0) / len)))[i + 1]? = some b → pdist a b ≤ inc) ∧
      v'.length = Ln.length v'.line.pts ∧ (v.line.pts = [] → v'.length ≤ len) := by
  have hc : (k1 - k0) / len ≠ 0 := div_ne_zero (sub_ne_zero.2 hk.symm) hl.ne'
  have hpos : (fun s => (odrSpiral exact s p ((k1 - k0) / len) k0 h).1) = clothoid p h k0 ((k1 - k0) / len) := by
    funext s; rw [C193_clothoid hc]
  obtain ⟨n, v', ss, h1, h2, h3, h4⟩ := C36_spiral v (clothoid p h k0 ((k1 - k0) / len)) hl.le hi
  refine ⟨n, v', ss, fun fuel hf => ?_, h2, h3, by simp [clothoid], ?_, h4, fun hnil => ?_⟩
  · unfold planSpiral
    rw [if_neg hl.ne', hpos]
    exact h1 fuel hf
  · intro i a b ha hb
    rw [List.getElem?_map, Option.map_eq_some_iff] at ha hb
    obtain ⟨x, hx, rfl⟩ := ha
    obtain ⟨y, hy, rfl⟩ := hb
    obtain ⟨q1, q2⟩ := h2.step i x y hx hy
    refine le_trans (chord_le _ _ _ _ _ _) ?_
    rw [abs_of_neg (by linarith)]
    linarith
  · rw [h4, h3, hnil, List.nil_append]
    have hf := h2.first
    have hlast := h2.last
    have hst := h2.step
    cases ss with
    | nil => simp at hf
    | cons a ss =>
      simp only [List.head?_cons, Option.some.injEq] at hf
      subst hf
      have := length_samples _ (chord_le p h k0 ((k1 - k0) / len)) ss 0 len (fun i x y hx hy => (hst i x y hx hy).1) hlast
      linarith

/-- **C193, constant curvature (violated).** A spiral without curvature at either end is a straight line of the given length;
`AddSpiral` with heading 0 adds the start point again and again, and the reference line has length 0. -/
theorem C193_straight_spiral_violated (fr : ℝ → ℝ × ℝ) (p : Pt) {len inc : ℝ} (hl : 0 < len) (hi : 0 < inc) :
    ∃ n v', (∀ fuel, n ≤ fuel → planSpiral fr fuel PlanView.new p 0 len 0 0 inc = .ok v') ∧
      2 ≤ v'.line.pts.length ∧ (∀ q ∈ v'.line.pts, q = p) ∧ v'.length = 0 := by
  have hpos : (fun s => (odrSpiral fr s p ((0 - 0) / len) 0 0).1) = fun _ => p := by
    funext s
    rw [sub_self, zero_div, (C193_straight_violated fr p 0 s).1]
    simp
  obtain ⟨n, v', ss, h1, h2, h3, h4⟩ := C36_spiral PlanView.new (fun _ => p) hl.le hi
  have h3' : v'.line.pts = ss.map (fun _ => p) := by rw [h3]; rfl
  refine ⟨n, v', fun fuel hf => ?_, ?_, ?_, ?_⟩
  · unfold planSpiral
    rw [if_neg hl.ne', hpos]
    exact h1 fuel hf
  · have hf := h2.first
    have hlast := h2.last
    rw [h3', List.length_map]
    match ss, hf, hlast with
    | [], hf, _ => simp at hf
    | [a], hf, hlast =>
      simp only [List.head?_cons, Option.some.injEq, List.getLast?_singleton] at hf hlast
      linarith
    | a :: b :: l, _, _ => simp
  · intro q hq
    rw [h3'] at hq
    obtain ⟨_, _, rfl⟩ := List.mem_map.1 hq
    rfl
  · rw [h4, h3']
    have : ∀ l : List ℝ, Ln.length (l.map (fun _ => p)) = 0 := by
      intro l
      induction l with
      | nil => rfl
      | cons a l ih =>
        cases l with
        | nil => rfl
        | cons b l =>
          simp only [List.map_cons, Ln.length] at ih ⊢
          rw [ih]
          simp [pdist]
    exact this ss

/-- a length of zero makes every coordinate a NaN -/
theorem C193_zero_length (fr : ℝ → ℝ × ℝ) (fuel : ℕ) (v : PlanView) (p : Pt) (h k0 k1 inc : ℝ) :
    planSpiral fr fuel v p h 0 k0 k1 inc = .error .nan := by
  simp [planSpiral]

/-! ### the routine for the Fresnel integrals -/

/-- **C193, no division by zero.** None of the denominators in the approximation vanishes. -/
theorem C193_denominators {t : ℝ} (ht : 0 ≤ t) : 0 < p1evl t sd ∧ 0 < polevl t cd ∧ 0 < p1evl t fd ∧ 0 < p1evl t gd := by
  refine ⟨?_, ?_, ?_, ?_⟩ <;>
    simp only [p1evl, polevl, sd, cd, fd, gd, List.foldl] <;> norm_num <;> positivity

/-- **C193, symmetry.** The approximation is an odd function, as the Fresnel integrals are. -/
theorem C193_odd (x : ℝ) : (fresnel (-x)).1 = -(fresnel x).1 ∧ (fresnel (-x)).2 = -(fresnel x).2 := by
  unfold fresnel
  dsimp only
  rw [abs_neg]
  rcases lt_trichotomy x 0 with h | h | h
  · rw [if_neg (by linarith), if_pos h]; simp
  · subst h
    have : fresnelAbs 0 = (0, 0) := by
      unfold fresnelAbs
      dsimp only
      rw [if_pos (by norm_num)]
      simp
    simp [this]
  · rw [if_pos (by linarith), if_neg (by linarith)]
    simp

end Bark.Spi
