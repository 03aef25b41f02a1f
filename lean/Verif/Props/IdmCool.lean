import Verif.Props.Idm
import Mathlib.Analysis.SpecialFunctions.Trigonometric.DerivHyp
import Mathlib.Analysis.Complex.ExponentialBounds

/-!
C23 with the constant-acceleration heuristic (coolness factor above 0).
-/
namespace Bark.Idm
open Num Spec

theorem tanh_hasDeriv (x : ℝ) : HasDerivAt Real.tanh (1 - Real.tanh x ^ 2) x := by
  have hc : Real.cosh x ≠ 0 := (Real.cosh_pos x).ne'
  have h := (Real.hasDerivAt_sinh x).div (Real.hasDerivAt_cosh x) hc
  have e : Real.tanh = fun y => Real.sinh y / Real.cosh y := funext Real.tanh_eq_sinh_div_cosh
  have e2 : (1 - Real.tanh x ^ 2) = (Real.cosh x * Real.cosh x - Real.sinh x * Real.sinh x) / Real.cosh x ^ 2 := by
    rw [Real.tanh_eq_sinh_div_cosh]
    field_simp
  rw [e2, e]
  exact h

theorem tanh_mono : Monotone Real.tanh :=
  monotone_of_deriv_nonneg (fun x => (tanh_hasDeriv x).differentiableAt)
    fun x => by
      rw [(tanh_hasDeriv x).deriv]
      have := Real.tanh_sq_lt_one x
      linarith

theorem tanh_lip {a b : ℝ} (h : a ≤ b) : Real.tanh b - Real.tanh a ≤ b - a := by
  have hm : Monotone fun x : ℝ => x - Real.tanh x :=
    monotone_of_deriv_nonneg (fun x => ((hasDerivAt_id x).sub (tanh_hasDeriv x)).differentiableAt)
      fun x => by
        have hd : deriv (fun x : ℝ => x - Real.tanh x) x = 1 - (1 - Real.tanh x ^ 2) :=
          ((hasDerivAt_id x).sub (tanh_hasDeriv x)).deriv
        rw [hd]
        have := sq_nonneg (Real.tanh x)
        linarith
  have := hm h
  simp only at this
  linarith

theorem tanh_nonpos {a : ℝ} (h : a ≤ 0) : Real.tanh a ≤ 0 := by
  have := tanh_mono h
  rwa [Real.tanh_zero] at this

theorem tanh_ge {a : ℝ} (h : a ≤ 0) : a ≤ Real.tanh a := by
  have := tanh_lip h
  rw [Real.tanh_zero] at this
  linarith

theorem blend_mono_left {c b : ℝ} (c0 : 0 ≤ c) (c1 : c ≤ 1) (hb : 0 < b) {x x' : ℝ} (y : ℝ) (hx : x ≤ x') :
    blend c b x y ≤ blend c b x' y := by
  have key : ∀ z, z ≤ y → (1 - c) * z + c * (y + b * Real.tanh ((z - y) / b)) ≤ (1 - c) * y + c * y := by
    intro z hz
    have h1 : Real.tanh ((z - y) / b) ≤ 0 := tanh_nonpos (div_nonpos_of_nonpos_of_nonneg (by linarith) hb.le)
    have h2 : b * Real.tanh ((z - y) / b) ≤ 0 := mul_nonpos_of_nonneg_of_nonpos hb.le h1
    nlinarith
  unfold blend
  split_ifs with g1 g2
  · exact hx
  · exact absurd (g1.trans hx) g2
  · have := key x (not_le.1 g1).le
    linarith
  · have h1 : Real.tanh ((x - y) / b) ≤ Real.tanh ((x' - y) / b) := tanh_mono (by gcongr)
    have h2 : 0 ≤ 1 - c := by linarith
    gcongr

theorem blend_mono_right {c b : ℝ} (c0 : 0 ≤ c) (hb : 0 < b) (x : ℝ) {y y' : ℝ} (hy : y ≤ y') :
    blend c b x y ≤ blend c b x y' := by
  unfold blend
  split_ifs with g1 g2 g2
  · exact le_rfl
  · have h1 : (x - y') / b ≤ Real.tanh ((x - y') / b) :=
      tanh_ge (div_nonpos_of_nonpos_of_nonneg (by linarith) hb.le)
    have h2 : x - y' ≤ b * Real.tanh ((x - y') / b) := by
      have := mul_le_mul_of_nonneg_left h1 hb.le
      rwa [mul_div_cancel₀ _ hb.ne'] at this
    nlinarith
  · exact absurd (hy.trans g2) g1
  · have h1 := tanh_lip (a := (x - y') / b) (b := (x - y) / b) (by gcongr)
    have h2 : b * (Real.tanh ((x - y) / b) - Real.tanh ((x - y') / b)) ≤ b * ((x - y) / b - (x - y') / b) :=
      mul_le_mul_of_nonneg_left h1 hb.le
    have h3 : b * ((x - y) / b - (x - y') / b) = y' - y := by
      field_simp
      ring
    have : y + b * Real.tanh ((x - y) / b) ≤ y' + b * Real.tanh ((x - y') / b) := by nlinarith
    nlinarith

theorem blend_le_right {c b : ℝ} (c0 : 0 ≤ c) (hb : 0 < b) {x y : ℝ} (h : x ≤ y) : x ≤ blend c b x y := by
  have := blend_mono_right c0 hb x h
  unfold blend at this ⊢
  simpa using this

/-- value of the code's heuristic for a positive gap -/
theorem cahAcc_val {p : Params} {d v vo : ℝ} (ao : ℝ) (hd : 0 < d) (hv : 0 ≤ vo * v) :
    cahAcc p d v vo ao = fin (heuristic d v vo (min ao p.maxAcc)) := by
  unfold cahAcc heuristic
  dsimp only
  generalize hE : min ao p.maxAcc = E
  split_ifs with hc h2 h3 h3
  · have : vo * vo - 2 * d * E ≠ 0 := by
      intro h0
      nlinarith
    simp only [div, if_neg this]
    ring_nf
  · have : 2 * d ≠ 0 := by simpa using hd.ne'
    simp only [div, if_neg this, sub, neg, add]
    congr 1
    rw [mul_one, ← sub_eq_add_neg, sq]
  · exact absurd (by linarith) h3
  · exact absurd (by linarith) h2
  · have : 2 * d ≠ 0 := by simpa using hd.ne'
    simp only [div, if_neg this, sub, neg, add]
    congr 1
    simp

theorem heuristic_gap {v vo E d e : ℝ} (hv : 0 ≤ v) (ho : 0 ≤ vo) (hd : 0 < d) (hde : d ≤ e) :
    heuristic d v vo E ≤ heuristic e v vo E := by
  have he : 0 < e := hd.trans_le hde
  have hov : 0 ≤ vo * v := mul_nonneg ho hv
  unfold heuristic
  by_cases g1 : vo * (v - vo) < -2 * d * E
  · rw [if_pos g1]
    have q1 : 0 < vo ^ 2 - 2 * d * E := by nlinarith
    by_cases g2 : vo * (v - vo) < -2 * e * E
    · rw [if_pos g2]
      have q2 : 0 < vo ^ 2 - 2 * e * E := by nlinarith
      rw [div_le_div_iff₀ q1 q2]
      nlinarith [mul_nonneg (sq_nonneg v) (mul_nonneg (sq_nonneg E) (sub_nonneg.2 hde))]
    · rw [if_neg g2]
      have hE : 0 ≤ E := by
        by_contra hE
        have : (e - d) * E ≤ 0 := mul_nonpos_of_nonneg_of_nonpos (by linarith) (by linarith)
        linarith
      have hlt : vo * (v - vo) < 0 := by
        have := mul_nonneg hd.le hE
        linarith
      have g3 : ¬ vo ≤ v := fun g3 => absurd (mul_nonneg ho (sub_nonneg.2 g3)) (not_le.2 hlt)
      rw [if_neg g3, div_le_iff₀ q1]
      have : v ^ 2 ≤ vo ^ 2 - 2 * d * E := by nlinarith
      nlinarith
  · rw [if_neg g1]
    by_cases g2 : vo * (v - vo) < -2 * e * E
    · rw [if_pos g2]
      have q2 : 0 < vo ^ 2 - 2 * e * E := by nlinarith
      have hE : E < 0 := by
        by_contra hE
        have : 0 ≤ (e - d) * E := mul_nonneg (by linarith) (by linarith)
        linarith
      have hpos : 0 < -2 * d * E := by nlinarith
      have g3 : vo ≤ v := by
        by_contra g3
        have : vo * (v - vo) ≤ 0 := mul_nonpos_of_nonneg_of_nonpos ho (by linarith)
        linarith
      rw [if_pos g3]
      have q1 : 0 < vo ^ 2 - 2 * d * E := by nlinarith
      have step : v ^ 2 * E / (vo ^ 2 - 2 * d * E) ≤ v ^ 2 * E / (vo ^ 2 - 2 * e * E) := by
        rw [div_le_div_iff₀ q1 q2]
        nlinarith [mul_nonneg (sq_nonneg v) (mul_nonneg (sq_nonneg E) (sub_nonneg.2 hde))]
      refine le_trans ?_ step
      rw [le_div_iff₀ q1]
      have e1 : (E - (v - vo) ^ 2 / (2 * d)) = (2 * d * E - (v - vo) ^ 2) / (2 * d) := by
        field_simp
      rw [e1, div_mul_eq_mul_div, div_le_iff₀ (by linarith)]
      nlinarith [sq_nonneg (vo * (v - vo) + 2 * d * E)]
    · rw [if_neg g2]
      split_ifs
      · have : (v - vo) ^ 2 / (2 * e) ≤ (v - vo) ^ 2 / (2 * d) := by
          apply div_le_div_of_nonneg_left (sq_nonneg _) (by linarith) (by linarith)
        linarith
      · exact le_rfl

theorem vel_aux {v vo vo' m : ℝ} (ho : 0 ≤ vo) (hle : vo ≤ vo') (hw : 0 ≤ v - vo') (hm : 0 ≤ m)
    (h1 : vo * (v - vo) ≤ m) (h2 : m ≤ vo' * (v - vo')) :
    (m + (v - vo') ^ 2) * (vo ^ 2 + m) ≤ m * v ^ 2 := by
  have k0 : 0 ≤ vo * (vo' - vo) := mul_nonneg ho (by linarith)
  have k1 : 0 ≤ m - (v - vo') * vo := by nlinarith
  have k2 : m - (v - vo') * vo ≤ (v - vo') * (vo' - vo) := by nlinarith
  have k3 : (m - (v - vo') * vo) ^ 2 ≤ m * ((v - vo') * (vo' - vo)) := by
    have hn : 0 ≤ (v - vo') * (vo' - vo) := mul_nonneg hw (by linarith)
    calc (m - (v - vo') * vo) ^ 2 = (m - (v - vo') * vo) * (m - (v - vo') * vo) := sq _
      _ ≤ (m - (v - vo') * vo) * ((v - vo') * (vo' - vo)) := mul_le_mul_of_nonneg_left k2 k1
      _ ≤ m * ((v - vo') * (vo' - vo)) := by
        refine mul_le_mul_of_nonneg_right ?_ hn
        have := mul_nonneg hw ho
        linarith
  have k4 : m * ((v - vo') * (vo' - vo)) ≤ m * ((vo' - vo) * (v + vo + (v - vo'))) := by
    refine mul_le_mul_of_nonneg_left ?_ hm
    nlinarith
  nlinarith

theorem heuristic_velocity {v vo vo' E d : ℝ} (hv : 0 ≤ v) (ho : 0 ≤ vo) (hE : E ≤ 0) (hd : 0 < d) (hle : vo ≤ vo') :
    heuristic d v vo E ≤ heuristic d v vo' E := by
  have ho' : 0 ≤ vo' := ho.trans hle
  have hov : 0 ≤ vo * v := mul_nonneg ho hv
  have hov' : 0 ≤ vo' * v := mul_nonneg ho' hv
  have hdE : 0 ≤ -2 * d * E := by nlinarith
  unfold heuristic
  by_cases g1 : vo * (v - vo) < -2 * d * E
  · rw [if_pos g1]
    have q1 : 0 < vo ^ 2 - 2 * d * E := by nlinarith
    by_cases g2 : vo' * (v - vo') < -2 * d * E
    · rw [if_pos g2]
      have q2 : 0 < vo' ^ 2 - 2 * d * E := by nlinarith
      rw [div_le_div_iff₀ q1 q2]
      have : vo ^ 2 ≤ vo' ^ 2 := by gcongr
      have h2 : v ^ 2 * E ≤ 0 := mul_nonpos_of_nonneg_of_nonpos (sq_nonneg v) hE
      nlinarith
    · rw [if_neg g2]
      by_cases g3 : vo' ≤ v
      · rw [if_pos g3, div_le_iff₀ q1]
        have e1 : (E - (v - vo') ^ 2 / (2 * d)) = (2 * d * E - (v - vo') ^ 2) / (2 * d) := by
          field_simp
        rw [e1, div_mul_eq_mul_div, le_div_iff₀ (by linarith)]
        have := vel_aux ho hle (sub_nonneg.2 g3) hdE (by linarith) (by nlinarith)
        nlinarith
      · exact absurd (by nlinarith) g2
  · rw [if_neg g1]
    have g3 : vo ≤ v := by
      by_contra g3
      have : vo * (v - vo) < 0 := mul_neg_of_pos_of_neg (by linarith) (by linarith)
      linarith
    rw [if_pos g3]
    by_cases g2 : vo' * (v - vo') < -2 * d * E
    · rw [if_pos g2]
      have q2 : 0 < vo' ^ 2 - 2 * d * E := by nlinarith
      rw [le_div_iff₀ q2]
      have e1 : (E - (v - vo) ^ 2 / (2 * d)) = (2 * d * E - (v - vo) ^ 2) / (2 * d) := by
        field_simp
      rw [e1, div_mul_eq_mul_div, div_le_iff₀ (by linarith)]
      have k1 : vo ^ 2 ≤ vo' ^ 2 := by gcongr
      have k2 : 0 ≤ (vo' ^ 2 - vo ^ 2) * (-2 * d * E + (v - vo) ^ 2) :=
        mul_nonneg (by linarith) (add_nonneg hdE (sq_nonneg _))
      nlinarith [sq_nonneg (vo * (v - vo) + 2 * d * E)]
    · rw [if_neg g2]
      have g4 : vo' ≤ v := by
        by_contra g4
        have : vo' * (v - vo') < 0 := mul_neg_of_pos_of_neg (by linarith) (by linarith)
        linarith
      rw [if_pos g4]
      have k1 : (v - vo') ^ 2 ≤ (v - vo) ^ 2 := by
        have : 0 ≤ v - vo' := by linarith
        gcongr
      have : (v - vo') ^ 2 / (2 * d) ≤ (v - vo) ^ 2 / (2 * d) := by gcongr
      linarith

/-- **C23, formula with heuristic.** Behind a leader the acceleration is the blend of textbook IDM and textbook
heuristic, cut to the bounds, for a positive gap, and full braking otherwise. -/
theorem C23_value_cool {p : Params} (h : Sane p) (hc : 0 < p.coolness) {r : Rel} (hr : r.hasLeader = true) {v : ℝ}
    (hv : 0 ≤ r.velocity * v) (rel : ℝ) :
    Returns (totalAcc p r v rel)
      (if 0 < rel then max (min (blend p.coolness p.comfBraking (textbook p rel v r.velocity)
          (heuristic rel v r.velocity (min r.leadAcc p.maxAcc))) p.accUpper) p.accLower else p.accLower) := by
  have hb := h.comf
  have hc1 : 0 < 1 - p.coolness := by linarith [h.cool1]
  unfold totalAcc Returns
  rw [if_pos hr, if_pos hc]
  unfold accAcc
  dsimp only
  rw [if_neg hc.ne']
  by_cases hd : 0 < rel
  · rw [if_neg hd.ne', cahAcc_val _ hd hv, rawAcc_pos h hd, if_pos hd]
    dsimp only
    generalize textbook p rel v r.velocity = x
    generalize heuristic rel v r.velocity (min r.leadAcc p.maxAcc) = y
    unfold blend
    by_cases g : y ≤ x
    · rw [if_pos g, if_pos (by simpa [ge] using g), clamp_fin]
    · rw [if_neg g, if_neg (by simpa [ge] using g), ← clamp_fin]
      simp [sub, neg, add, div, hb.ne', Num.tanh, mul, sub_eq_add_neg]
  · rw [if_neg hd]
    have hne : (if rel = 0 then p.tiny else rel) ≠ 0 := by
      split_ifs with h0
      · exact h.tiny.ne'
      · exact h0
    obtain ⟨c, hcc⟩ := cahAcc_fin (p := p) r.leadAcc hne hv
    rw [hcc, rawAcc_nonpos h (not_lt.1 hd)]
    dsimp only
    rw [if_neg (by simp [ge])]
    have : add (mul (fin (1 - p.coolness)) ninf) (mul (fin p.coolness) (add (fin c) (mul (fin p.comfBraking)
      (Num.tanh (div (sub ninf (fin c)) (fin p.comfBraking)))))) = ninf := by
      simp [sub, neg, add, div, not_lt.2 hb.le, Num.tanh, mul, infMul, h.cool1]
    rw [this, clamp_ninf]

theorem textbook_gap {p : Params} (h : Sane p) (v vo : ℝ) {d e : ℝ} (hd : 0 < d) (hde : d ≤ e) :
    textbook p d v vo ≤ textbook p e v vo := by
  unfold textbook
  refine mul_le_mul_of_nonneg_left ?_ h.maxAcc.le
  have : (desiredGap p v vo / e) ^ 2 ≤ (desiredGap p v vo / d) ^ 2 := by
    rw [div_pow, div_pow]
    have : d ^ 2 ≤ e ^ 2 := by nlinarith
    exact div_le_div_of_nonneg_left (sq_nonneg _) (by positivity) this
  linarith

theorem textbook_velocity {p : Params} (h : Sane p) {v vo vo' d : ℝ} (hd : 0 < d) (hv : 0 ≤ v) (hle : vo ≤ vo')
    (hg : 0 ≤ desiredGap p v vo') : textbook p d v vo ≤ textbook p d v vo' := by
  unfold textbook
  refine mul_le_mul_of_nonneg_left ?_ h.maxAcc.le
  have h1 : desiredGap p v vo' ≤ desiredGap p v vo := by
    unfold desiredGap
    gcongr
  have : (desiredGap p v vo' / d) ^ 2 ≤ (desiredGap p v vo / d) ^ 2 := by gcongr
  linarith

/-- **C23, gap, with heuristic.** For every coolness factor in `[0,1)`, any acceleration of the leader and vehicles that
do not drive backwards a smaller gap never increases the acceleration. -/
theorem C23_gap_monotone_cool {p : Params} (h : Sane p) {r : Rel} (hr : r.hasLeader = true) {v : ℝ} (hv : 0 ≤ v)
    (ho : 0 ≤ r.velocity) {d e : ℝ} (hde : d ≤ e) :
    ∃ a b, Returns (totalAcc p r v d) a ∧ Returns (totalAcc p r v e) b ∧ a ≤ b := by
  rcases h.cool0.eq_or_lt with hc | hc
  · exact C23_gap_monotone h hc.symm hr v hde
  refine ⟨_, _, C23_value_cool h hc hr (mul_nonneg ho hv) d, C23_value_cool h hc hr (mul_nonneg ho hv) e, ?_⟩
  by_cases hd : 0 < d
  · rw [if_pos hd, if_pos (hd.trans_le hde)]
    refine max_le_max (min_le_min ?_ le_rfl) le_rfl
    exact (blend_mono_left h.cool0 h.cool1.le h.comf _ (textbook_gap h _ _ hd hde)).trans
      (blend_mono_right h.cool0 h.comf _ (heuristic_gap hv ho hd hde))
  · rw [if_neg hd]
    split_ifs
    · exact le_max_right _ _
    · exact le_rfl

/-- **C23, leader velocity, with heuristic** (part): a slower leader with the same acceleration never increases the
acceleration if it does not accelerate and the desired gap towards the faster one is not negative. -/
theorem C23_leader_velocity_cool {p : Params} (h : Sane p) {r r' : Rel} (hr : r.hasLeader = true)
    (hr' : r'.hasLeader = true) {v d : ℝ} (hv : 0 ≤ v) (ho : 0 ≤ r.velocity) (hle : r.velocity ≤ r'.velocity)
    (ha : r'.leadAcc = r.leadAcc) (ha0 : r.leadAcc ≤ 0) (hg : 0 ≤ desiredGap p v r'.velocity) :
    ∃ a b, Returns (totalAcc p r v d) a ∧ Returns (totalAcc p r' v d) b ∧ a ≤ b := by
  rcases h.cool0.eq_or_lt with hc | hc
  · exact C23_leader_velocity h hc.symm hr hr' hv hle hg
  refine ⟨_, _, C23_value_cool h hc hr (mul_nonneg ho hv) d,
    C23_value_cool h hc hr' (mul_nonneg (ho.trans hle) hv) d, ?_⟩
  by_cases hd : 0 < d
  · rw [if_pos hd, if_pos hd, ha]
    refine max_le_max (min_le_min ?_ le_rfl) le_rfl
    exact (blend_mono_left h.cool0 h.cool1.le h.comf _ (textbook_velocity h hd hv hle hg)).trans
      (blend_mono_right h.cool0 h.comf _ (heuristic_velocity hv ho ((min_le_left _ _).trans ha0) hd hle))
  · rw [if_neg hd, if_neg hd]

/-- the witness parameters with adaptive cruise control, coolness factor 1/2 -/
noncomputable def wc : Params := { wp with coolness := 1 / 2 }

theorem wc_sane : Sane wc := by
  constructor <;> norm_num [wc, wp]

theorem wc_gap (v vo : ℝ) : desiredGap wc v vo = 2 + v + v * (v - vo) / 4 := wp_gap v vo

theorem tanh_two : Real.tanh (-2) ≤ -0.9 := by
  rw [Real.tanh_neg, Real.tanh_eq]
  have h1 : (2.7 : ℝ) < Real.exp 1 := by have := Real.exp_one_gt_d9; linarith
  have h2 : Real.exp 2 = Real.exp 1 * Real.exp 1 := by rw [← Real.exp_add]; norm_num
  have h3 : Real.exp (-2) = 1 / (Real.exp 1 * Real.exp 1) := by rw [Real.exp_neg, h2, one_div]
  have h4 : (7.29 : ℝ) < Real.exp 2 := by rw [h2]; nlinarith
  have h5 : Real.exp (-2) ≤ 1 / 7.29 := by
    rw [h3, ← h2]
    apply one_div_le_one_div_of_le <;> linarith
  have h6 : 0 < Real.exp (-2) := Real.exp_pos _
  have : (0.9 : ℝ) ≤ (Real.exp 2 - Real.exp (-2)) / (Real.exp 2 + Real.exp (-2)) := by
    rw [le_div_iff₀ (by linarith)]
    norm_num at h5 ⊢
    linarith
  linarith

/-- the hypotheses of the theorems with heuristic are met -/
example : Sane wc ∧ 0 < wc.coolness ∧ 0 ≤ desiredGap wc 10 11 := by
  refine ⟨wc_sane, by norm_num [wc], ?_⟩
  rw [wc_gap]
  norm_num

theorem cut_aux {A B : ℝ} (h : A + 1 / 100 < B) (h8 : B ≤ 8) (h5 : -5 + 1 / 100 < B) :
    max (min A 8) (-5) + 1 / 100 < max (min B 8) (-5) := by
  rw [min_eq_left h8]
  refine lt_of_lt_of_le ?_ (le_max_left _ _)
  have : max (min A 8) (-5) < B - 1 / 100 := max_lt ((min_le_left _ _).trans_lt (by linarith)) (by linarith)
  linarith

/-- **C23, leader velocity violated with the heuristic** although the desired gap is positive: behind an accelerating
leader (2 m/s²) 5 m ahead an ego at 10 m/s brakes harder for a leader at 11.72 m/s than for one at 11.7 m/s. -/
theorem C23_leader_velocity_cool_violated : 0 ≤ desiredGap wc 10 11.72 ∧
    ∃ a b, Returns (totalAcc wc ⟨5, 11.7, 2, true⟩ 10 5) a ∧ Returns (totalAcc wc ⟨5, 11.72, 2, true⟩ 10 5) b ∧
      b + 1 / 100 < a := by
  refine ⟨by rw [wc_gap]; norm_num, _, _, C23_value_cool wc_sane (by norm_num [wc]) rfl (by norm_num) 5,
    C23_value_cool wc_sane (by norm_num [wc]) rfl (by norm_num) 5, ?_⟩
  rw [if_pos (by norm_num), if_pos (by norm_num)]
  have hm : min (2 : ℝ) wc.maxAcc = 2 := by norm_num [wc, wp]
  have t1 : textbook wc 5 10 11.7 = 2 * (1 - (10 / 15) ^ 2 - ((2 + 10 + 10 * (10 - 11.7) / 4) / 5) ^ 2) := by
    unfold textbook
    rw [wc_gap]
    norm_num [wc, wp]
  have t2 : textbook wc 5 10 11.72 = 2 * (1 - (10 / 15) ^ 2 - ((2 + 10 + 10 * (10 - 11.72) / 4) / 5) ^ 2) := by
    unfold textbook
    rw [wc_gap]
    norm_num [wc, wp]
  have c1 : heuristic 5 10 11.7 2 = 2 := by
    unfold heuristic
    rw [if_neg (by norm_num), if_neg (by norm_num)]
  have c2 : heuristic 5 10 11.72 2 = 10 ^ 2 * 2 / (11.72 ^ 2 - 2 * 5 * 2) := by
    unfold heuristic
    rw [if_pos (by norm_num)]
  simp only [hm, c1, c2, t1, t2]
  have hcb : wc.coolness = 1 / 2 ∧ wc.comfBraking = 2 ∧ wc.accLower = -5 ∧ wc.accUpper = 8 := by
    refine ⟨?_, ?_, ?_, ?_⟩ <;> norm_num [wc, wp]
  rw [hcb.1, hcb.2.1, hcb.2.2.1, hcb.2.2.2]
  unfold blend
  rw [if_neg (by norm_num), if_neg (by norm_num)]
  have l1 := Real.neg_one_lt_tanh ((2 * (1 - (10 / 15) ^ 2 - ((2 + 10 + 10 * (10 - 11.7) / 4) / 5) ^ 2) - 2) / 2)
  have l2 : Real.tanh ((2 * (1 - (10 / 15) ^ 2 - ((2 + 10 + 10 * (10 - 11.72) / 4) / 5) ^ 2) -
      10 ^ 2 * 2 / (11.72 ^ 2 - 2 * 5 * 2)) / 2) ≤ -0.9 :=
    (tanh_mono (by norm_num)).trans tanh_two
  have l3 := Real.tanh_lt_one ((2 * (1 - (10 / 15) ^ 2 - ((2 + 10 + 10 * (10 - 11.7) / 4) / 5) ^ 2) - 2) / 2)
  generalize Real.tanh _ = x at l1 l3 ⊢
  generalize Real.tanh _ = y at l2 ⊢
  refine cut_aux ?_ ?_ ?_
  · norm_num at l1 l2 ⊢
    linarith
  · norm_num at l3 ⊢
    linarith
  · norm_num at l1 ⊢
    linarith

end Bark.Idm
