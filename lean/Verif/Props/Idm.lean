import Verif.Spec.Idm
import Mathlib.Tactic.Linarith
import Mathlib.Tactic.Ring
import Mathlib.Tactic.FieldSimp
import Mathlib.Tactic.Positivity
import Mathlib.Tactic.NormNum
import Mathlib.Algebra.Order.Field.Basic

/-!
C21–C25, C57 – intelligent driver model.
-/
namespace Bark.Idm
open Num Spec

theorem clamp_fin (p : Params) (x : ℝ) : clamp p (fin x) = fin (max (min x p.accUpper) p.accLower) := by
  unfold clamp cmax cmin
  by_cases h : p.accUpper < x
  · have : lt (fin p.accUpper) (fin x) := h
    rw [if_pos this, min_eq_right h.le]
    by_cases h2 : p.accUpper < p.accLower
    · rw [if_pos (show lt (fin _) (fin _) from h2), max_eq_right h2.le]
    · rw [if_neg (show ¬ lt (fin _) (fin _) from h2), max_eq_left (not_lt.1 h2)]
  · rw [if_neg (show ¬ lt (fin _) (fin _) from h), min_eq_left (not_lt.1 h)]
    by_cases h2 : x < p.accLower
    · rw [if_pos (show lt (fin _) (fin _) from h2), max_eq_right h2.le]
    · rw [if_neg (show ¬ lt (fin _) (fin _) from h2), max_eq_left (not_lt.1 h2)]

theorem clamp_ninf (p : Params) : clamp p ninf = fin p.accLower := by
  simp [clamp, cmax, cmin, lt]

theorem clamp_pinf (p : Params) : clamp p pinf = fin (max p.accUpper p.accLower) := by
  unfold clamp cmax cmin
  rw [if_pos (show lt (fin _) pinf from trivial)]
  by_cases h2 : p.accUpper < p.accLower
  · rw [if_pos (show lt (fin _) (fin _) from h2), max_eq_right h2.le]
  · rw [if_neg (show ¬ lt (fin _) (fin _) from h2), max_eq_left (not_lt.1 h2)]

theorem clamp_nan (p : Params) : clamp p nan = nan := by
  simp [clamp, cmax, cmin, lt]

/-- C21, clamping: anything but NaN is brought into the bounds. -/
theorem clamp_bounds (p : Params) (hb : p.accLower ≤ p.accUpper) {x : Num} (hx : x ≠ nan) :
    ∃ a, clamp p x = fin a ∧ p.accLower ≤ a ∧ a ≤ p.accUpper := by
  cases x with
  | fin x => exact ⟨_, clamp_fin p x, le_max_right _ _, max_le (min_le_right _ _) hb⟩
  | pinf => exact ⟨_, clamp_pinf p, le_max_right _ _, max_le le_rfl hb⟩
  | ninf => exact ⟨_, clamp_ninf p, le_rfl, hb⟩
  | nan => exact absurd rfl hx

theorem freeRoad_fin {p : Params} (h : Sane p) (v : ℝ) :
    freeRoad p v = fin (1 - (v / p.desiredVel) ^ p.exponent) := by
  unfold freeRoad
  have : div (fin v) (fin p.desiredVel) = fin (v / p.desiredVel) := by simp [div, h.desired]
  rw [this]
  by_cases h0 : p.exponent = 0
  · simp [pow, sub, add, neg, h0, sub_eq_add_neg]
  · simp [pow, h0, sub, add, neg, sub_eq_add_neg]

theorem helper_fin {p : Params} (h : Sane p) (v vo : ℝ) : helper p v vo = fin (desiredGap p v vo) := by
  have hpos : 0 < p.maxAcc * p.comfBraking := mul_pos h.maxAcc h.comf
  have hs : 0 < Real.sqrt (p.maxAcc * p.comfBraking) := Real.sqrt_pos.2 hpos
  unfold helper desiredGap
  rw [show Num.sqrt (fin (p.maxAcc * p.comfBraking)) = fin (Real.sqrt (p.maxAcc * p.comfBraking)) by
    simp [Num.sqrt, not_lt.2 hpos.le]]
  have : (2 : ℝ) * Real.sqrt (p.maxAcc * p.comfBraking) ≠ 0 := by positivity
  simp only [mul, div, if_neg this, add]

theorem interaction_pos {p : Params} (h : Sane p) {d : ℝ} (hd : 0 < d) (v vo : ℝ) :
    interaction p d v vo = fin ((desiredGap p v vo / d) ^ 2) := by
  unfold interaction
  rw [helper_fin h, max_eq_left hd.le]
  simp [div, hd.ne', mul, sq]

theorem interaction_nonpos {p : Params} (h : Sane p) {d : ℝ} (hd : d ≤ 0) (v vo : ℝ) :
    interaction p d v vo = pinf := by
  unfold interaction
  rw [helper_fin h, max_eq_right hd]
  simp only [div, if_true, infMul]
  split_ifs <;> rfl

theorem rawAcc_pos {p : Params} (h : Sane p) {d : ℝ} (hd : 0 < d) (v vo : ℝ) :
    rawAcc p d v vo = fin (textbook p d v vo) := by
  unfold rawAcc textbook
  rw [freeRoad_fin h, interaction_pos h hd]
  simp [sub, add, neg, mul, sub_eq_add_neg]

theorem rawAcc_nonpos {p : Params} (h : Sane p) {d : ℝ} (hd : d ≤ 0) (v vo : ℝ) :
    rawAcc p d v vo = ninf := by
  unfold rawAcc
  rw [freeRoad_fin h, interaction_nonpos h hd]
  simp [sub, add, neg, mul, infMul, h.maxAcc]

theorem cahAcc_fin {p : Params} {d v vo : ℝ} (ao : ℝ) (hd : d ≠ 0) (hv : 0 ≤ vo * v) :
    ∃ x, cahAcc p d v vo ao = fin x := by
  unfold cahAcc
  dsimp only
  split_ifs with hc h2
  · have : vo * vo - 2 * d * min ao p.maxAcc ≠ 0 := by
      intro h0
      nlinarith
    simp only [div, if_neg this]
    exact ⟨_, rfl⟩
  · have : 2 * d ≠ 0 := by simpa using hd
    simp only [div, if_neg this, sub, neg, add]
    exact ⟨_, rfl⟩
  · have : 2 * d ≠ 0 := by simpa using hd
    simp only [div, if_neg this, sub, neg, add]
    exact ⟨_, rfl⟩

/-- the blending formula (base_idm.cpp:325) is not NaN -/
theorem blend_ne_nan {p : Params} (h : Sane p) {raw : Num} (hr : raw = ninf ∨ ∃ x, raw = fin x) (c : ℝ) :
    add (mul (fin (1 - p.coolness)) raw) (mul (fin p.coolness) (add (fin c) (mul (fin p.comfBraking)
      (Num.tanh (div (sub raw (fin c)) (fin p.comfBraking)))))) ≠ nan := by
  have hb := h.comf
  have hc : 0 < 1 - p.coolness := by linarith [h.cool1]
  rcases hr with rfl | ⟨x, rfl⟩
  · simp [sub, neg, add, div, not_lt.2 hb.le, Num.tanh, mul, infMul, h.cool1]
  · simp [sub, neg, add, div, hb.ne', Num.tanh, mul]

/-- the heuristic, whatever the directions: a number, or an infinity with the sign of the distance -/
theorem cahAcc_cases {p : Params} {d v vo : ℝ} (ao : ℝ) (hd : d ≠ 0) :
    (∃ x, cahAcc p d v vo ao = fin x) ∨
      (vo * v < 0 ∧ vo ^ 2 = 2 * d * min ao p.maxAcc ∧
        (0 < d → cahAcc p d v vo ao = pinf) ∧ (d < 0 → cahAcc p d v vo ao = ninf)) := by
  by_cases hz : vo * (v - vo) < -2 * d * min ao p.maxAcc ∧ vo * vo - 2 * d * min ao p.maxAcc = 0
  · obtain ⟨hc, h0⟩ := hz
    have ho : vo * v < 0 := by nlinarith
    have hvo : vo ≠ 0 := by rintro rfl; simp at ho
    have hv : v ≠ 0 := by rintro rfl; simp at ho
    have hvo2 : 0 < vo * vo := mul_self_pos.2 hvo
    have hv2 : 0 < v * v := mul_self_pos.2 hv
    refine Or.inr ⟨ho, by rw [sq]; linarith, fun hp => ?_, fun hn => ?_⟩
    · have he : 0 < min ao p.maxAcc := by
        by_contra hcon
        have : d * min ao p.maxAcc ≤ 0 := mul_nonpos_of_nonneg_of_nonpos hp.le (not_lt.1 hcon)
        linarith
      unfold cahAcc
      dsimp only
      rw [if_pos hc, h0]
      simp [div, infMul, mul_pos hv2 he]
    · have he : min ao p.maxAcc < 0 := by
        by_contra hcon
        have : d * min ao p.maxAcc ≤ 0 := mul_nonpos_of_nonpos_of_nonneg hn.le (not_lt.1 hcon)
        linarith
      have hlt : v * v * min ao p.maxAcc < 0 := mul_neg_of_pos_of_neg hv2 he
      unfold cahAcc
      dsimp only
      rw [if_pos hc, h0]
      simp only [div, if_true, infMul, if_neg (not_lt.2 hlt.le), if_pos hlt]
  · left
    unfold cahAcc
    dsimp only
    have h2 : 2 * d ≠ 0 := by simpa using hd
    split_ifs with hc
    · have : vo * vo - 2 * d * min ao p.maxAcc ≠ 0 := fun h0 => hz ⟨hc, h0⟩
      simp only [div, if_neg this]
      exact ⟨_, rfl⟩
    · simp only [div, if_neg h2, sub, neg, add]
      exact ⟨_, rfl⟩
    · simp only [div, if_neg h2, sub, neg, add]
      exact ⟨_, rfl⟩

/-- **C21.** For sensible parameters and any traffic situation, at any distance – positive, zero, or negative for
overlapping vehicles – the acceleration is a real number within the configured bounds. The only exception is a zero gap
in the singular situation. -/
theorem C21_acc_within_bounds {p : Params} (h : Sane p) (r : Rel) (v rel : ℝ) (hv : rel = 0 → ¬ Singular p r v) :
    ∃ a, Returns (totalAcc p r v rel) a ∧ p.accLower ≤ a ∧ a ≤ p.accUpper := by
  have hraw : ∀ d, rawAcc p d v r.velocity = ninf ∨ ∃ x, rawAcc p d v r.velocity = fin x := by
    intro d
    rcases le_or_gt d 0 with hd | hd
    · exact Or.inl (rawAcc_nonpos h hd v _)
    · exact Or.inr ⟨_, rawAcc_pos h hd v _⟩
  have hrn : ∀ d, rawAcc p d v r.velocity ≠ nan := by
    intro d
    rcases hraw d with e | ⟨x, e⟩ <;> rw [e] <;> simp
  have key : ∀ x, x ≠ nan → ∃ a, Returns (.ok (clamp p x)) a ∧ p.accLower ≤ a ∧ a ≤ p.accUpper := by
    intro x hx
    obtain ⟨a, e, h1, h2⟩ := clamp_bounds p h.bounds hx
    exact ⟨a, by rw [Returns, e], h1, h2⟩
  unfold totalAcc
  split_ifs with h1 h2
  · unfold accAcc
    dsimp only
    rw [if_neg h2.ne']
    have hne : (if rel = 0 then p.tiny else rel) ≠ 0 := by
      split_ifs with h0
      · exact h.tiny.ne'
      · exact h0
    rcases cahAcc_cases (p := p) (v := v) (vo := r.velocity) r.leadAcc hne with ⟨c, hc⟩ | ⟨ho, hs, hpos, hneg⟩
    · rw [hc]
      dsimp only
      split_ifs
      · exact key _ (hrn _)
      · exact key _ (blend_ne_nan h (hraw _) c)
    · by_cases h0 : rel = 0
      · rw [if_pos h0] at hs
        exact absurd ⟨h2, h1, ho, hs⟩ (hv h0)
      · rw [if_neg h0] at hpos hneg ⊢
        rcases lt_or_gt_of_ne h0 with hl | hg
        · rw [hneg hl, rawAcc_nonpos h hl.le]
          dsimp only
          rw [if_pos (show ge ninf ninf from trivial)]
          exact key _ (by simp)
        · rw [hpos hg, rawAcc_pos h hg]
          dsimp only
          rw [if_neg (show ¬ ge (fin _) pinf from id)]
          refine key _ ?_
          simp [sub, neg, add, div, not_lt.2 h.comf.le, Num.tanh, mul, infMul, h2]
  · exact key _ (hrn _)
  · refine key _ ?_
    rw [freeRoad_fin h]
    simp [mul]

/-- the exception is real: in the singular situation a zero gap gives NaN, whatever the bounds -/
theorem C21_violated_singular {p : Params} (h : Sane p) (r : Rel) (v : ℝ) (hs : Singular p r v) :
    totalAcc p r v 0 = .ok nan := by
  obtain ⟨hc, hl, ho, he⟩ := hs
  have hvo : r.velocity ≠ 0 := by intro e; rw [e] at ho; simp at ho
  have hv : v ≠ 0 := by intro e; rw [e] at ho; simp at ho
  have hvo2 : 0 < r.velocity ^ 2 := by positivity
  have hv2 : 0 < v * v := mul_self_pos.2 hv
  have hm : 0 < min r.leadAcc p.maxAcc := by
    by_contra hcon
    have : p.tiny * min r.leadAcc p.maxAcc ≤ 0 := mul_nonpos_of_nonneg_of_nonpos h.tiny.le (not_lt.1 hcon)
    linarith
  have hcah : cahAcc p p.tiny v r.velocity r.leadAcc = pinf := by
    unfold cahAcc
    dsimp only
    rw [if_pos (by nlinarith), show r.velocity * r.velocity - 2 * p.tiny * min r.leadAcc p.maxAcc = 0 by
      rw [← he]; ring]
    simp [div, infMul, mul_pos hv2 hm]
  unfold totalAcc
  rw [if_pos hl, if_pos hc]
  unfold accAcc
  dsimp only
  rw [if_neg hc.ne', if_pos rfl, hcah, rawAcc_nonpos h le_rfl]
  dsimp only
  rw [if_neg (show ¬ ge ninf pinf from id)]
  have hb := h.comf
  simp [sub, neg, add, div, not_lt.2 hb.le, Num.tanh, mul, infMul, hc, h.cool1, clamp_nan]

/-- the singular situation exists for every positive coolness factor: a leader that comes towards the ego at just the
right speed -/
theorem C21_singular_witness {p : Params} (h : Sane p) (hc : 0 < p.coolness) :
    Singular p ⟨0, -Real.sqrt (2 * p.tiny * p.maxAcc), p.maxAcc, true⟩ 10 := by
  have hpos : 0 < 2 * p.tiny * p.maxAcc := mul_pos (mul_pos two_pos h.tiny) h.maxAcc
  refine ⟨hc, rfl, ?_, ?_⟩
  · have := Real.sqrt_pos.2 hpos
    show -Real.sqrt (2 * p.tiny * p.maxAcc) * 10 < 0
    linarith
  · show (-Real.sqrt (2 * p.tiny * p.maxAcc)) ^ 2 = 2 * p.tiny * min p.maxAcc p.maxAcc
    rw [neg_sq, Real.sq_sqrt hpos.le, min_self]

/-- the exception is the only one -/
theorem C21_exactly {p : Params} (h : Sane p) (r : Rel) (v rel : ℝ) :
    (∃ a, Returns (totalAcc p r v rel) a ∧ p.accLower ≤ a ∧ a ≤ p.accUpper) ↔ ¬ (rel = 0 ∧ Singular p r v) := by
  constructor
  · rintro ⟨a, ha, -⟩ ⟨rfl, hs⟩
    rw [Returns, C21_violated_singular h r v hs] at ha
    cases ha
  · exact fun hn => C21_acc_within_bounds h r v rel (fun e hs => hn ⟨e, hs⟩)

/-- NaN escapes: with maximal acceleration 0 (allowed by the parameter interface) and a leader at zero gap the
"clamped" acceleration is NaN, whatever the bounds. -/
theorem C21_violated_zero_maxAcc (p : Params) (hm : p.maxAcc = 0) (hd : p.desiredVel ≠ 0) (hc : p.coolness = 0)
    (r : Rel) (hr : r.hasLeader = true) (v : ℝ) : totalAcc p r v 0 = .ok nan := by
  unfold totalAcc
  rw [if_pos hr, if_neg (by rw [hc]; exact lt_irrefl _)]
  have hf : ∃ x, freeRoad p v = fin x := by
    unfold freeRoad
    have : div (fin v) (fin p.desiredVel) = fin (v / p.desiredVel) := by simp [div, hd]
    rw [this]
    by_cases h0 : p.exponent = 0
    · simp [pow, h0, sub, neg, add]
    · simp [pow, h0, sub, neg, add]
  obtain ⟨x, hx⟩ := hf
  have hi : interaction p 0 v r.velocity = pinf := by
    unfold interaction
    simp only [max_self]
    cases helper p v r.velocity <;> simp [div, infMul, mul] <;> split_ifs <;> rfl
  have : rawAcc p 0 v r.velocity = nan := by
    unfold rawAcc
    rw [hx, hi, hm]
    simp [sub, neg, add, mul, infMul]
  rw [idmAcc, this, clamp_nan]

/-- With coolness factor 1 (pure constant-acceleration heuristic) a zero gap gives NaN as well: the IDM part
`0 · (-∞)` is not ignored. -/
theorem C21_violated_coolness_one {p : Params} (h : Sane { p with coolness := 0 }) (hc : p.coolness = 1)
    (r : Rel) (hr : r.hasLeader = true) (v : ℝ) (hv : 0 ≤ r.velocity * v) : totalAcc p r v 0 = .ok nan := by
  have hraw : rawAcc p 0 v r.velocity = ninf :=
    rawAcc_nonpos (p := { p with coolness := 0 }) h le_rfl v r.velocity
  unfold totalAcc
  rw [if_pos hr, if_pos (by rw [hc]; exact zero_lt_one)]
  unfold accAcc
  dsimp only
  rw [if_neg (by rw [hc]; exact one_ne_zero), if_pos rfl, hraw]
  obtain ⟨c, hcah⟩ := cahAcc_fin (p := p) r.leadAcc h.tiny.ne' hv
  rw [show cahAcc p p.tiny v r.velocity r.leadAcc = fin c from hcah]
  have hb := h.comf
  simp only [ge, if_false, hc, sub_self]
  simp [mul, infMul, neg, add, clamp_nan]

/-! ### C22 -/

/-- what `GetTotalAcc` returns without a leader -/
theorem free_value {p : Params} (h : Sane p) {r : Rel} (hr : r.hasLeader = false) (v rel : ℝ) :
    Returns (totalAcc p r v rel)
      (max (min (p.maxAcc * (1 - (v / p.desiredVel) ^ p.exponent)) p.accUpper) p.accLower) := by
  unfold totalAcc Returns
  rw [hr, freeRoad_fin h]
  simp [mul, clamp_fin]

/-- **C22, monotone.** Without a leader a faster ego never accelerates harder. -/
theorem C22_free_road_antitone {p : Params} (h : Sane p) (hv0 : 0 < p.desiredVel) {r : Rel}
    (hr : r.hasLeader = false) {v w rel : ℝ} (h0 : 0 ≤ v) (hvw : v ≤ w) :
    ∃ a b, Returns (totalAcc p r v rel) a ∧ Returns (totalAcc p r w rel) b ∧ b ≤ a := by
  refine ⟨_, _, free_value h hr v rel, free_value h hr w rel, ?_⟩
  have h1 : (v / p.desiredVel) ^ p.exponent ≤ (w / p.desiredVel) ^ p.exponent :=
    pow_le_pow_left₀ (by positivity) (by gcongr) _
  have h2 : p.maxAcc * (1 - (w / p.desiredVel) ^ p.exponent) ≤ p.maxAcc * (1 - (v / p.desiredVel) ^ p.exponent) :=
    mul_le_mul_of_nonneg_left (by linarith) h.maxAcc.le
  exact max_le_max (min_le_min h2 le_rfl) le_rfl

/-- **C22, sign.** Without a leader the acceleration is zero at the desired velocity, positive below and negative
above it (bounds admitting both signs, exponent at least 1). -/
theorem C22_free_road_sign {p : Params} (h : Sane p) (hv0 : 0 < p.desiredVel) (he : p.exponent ≠ 0)
    (hl : p.accLower < 0) (hu : 0 < p.accUpper) {r : Rel} (hr : r.hasLeader = false) {v rel : ℝ} (h0 : 0 ≤ v) :
    ∃ a, Returns (totalAcc p r v rel) a ∧ (a = 0 ↔ v = p.desiredVel) ∧ (0 < a ↔ v < p.desiredVel) ∧
      (a < 0 ↔ p.desiredVel < v) := by
  refine ⟨_, free_value h hr v rel, ?_⟩
  set x := p.maxAcc * (1 - (v / p.desiredVel) ^ p.exponent) with hx
  have hm := h.maxAcc
  have hq : 0 ≤ v / p.desiredVel := by positivity
  rcases lt_trichotomy v p.desiredVel with hlt | heq | hgt
  · have h1 : (v / p.desiredVel) ^ p.exponent < 1 := pow_lt_one₀ hq ((div_lt_one hv0).2 hlt) he
    have hxp : 0 < x := mul_pos hm (by linarith)
    have : 0 < max (min x p.accUpper) p.accLower := lt_max_of_lt_left (lt_min hxp hu)
    exact ⟨⟨fun e => absurd e this.ne', fun e => absurd e hlt.ne⟩, ⟨fun _ => hlt, fun _ => this⟩,
      ⟨fun e => absurd e this.le.not_gt, fun e => absurd e hlt.le.not_gt⟩⟩
  · have hx0 : x = 0 := by rw [hx, heq, div_self hv0.ne', one_pow, sub_self, mul_zero]
    have : max (min x p.accUpper) p.accLower = 0 := by
      rw [hx0, min_eq_left hu.le, max_eq_left hl.le]
    rw [this, heq]
    simp
  · have h1 : 1 < (v / p.desiredVel) ^ p.exponent := one_lt_pow₀ ((one_lt_div hv0).2 hgt) he
    have hxn : x < 0 := mul_neg_of_pos_of_neg hm (by linarith)
    have : max (min x p.accUpper) p.accLower < 0 := max_lt (lt_of_le_of_lt (min_le_left _ _) hxn) hl
    exact ⟨⟨fun e => absurd e this.ne, fun e => absurd e hgt.ne'⟩,
      ⟨fun e => absurd e this.le.not_gt, fun e => absurd e hgt.le.not_gt⟩, ⟨fun _ => hgt, fun _ => this⟩⟩

/-! ### C23 -/

/-- **C23, formula.** Behind a leader, with coolness factor 0, the acceleration is the textbook IDM acceleration cut
to the bounds for a positive gap, and full braking for a gap that is zero or negative. -/
theorem C23_value {p : Params} (h : Sane p) (hc : p.coolness = 0) {r : Rel} (hr : r.hasLeader = true) (v rel : ℝ) :
    Returns (totalAcc p r v rel)
      (if 0 < rel then max (min (textbook p rel v r.velocity) p.accUpper) p.accLower else p.accLower) := by
  unfold totalAcc Returns
  rw [if_pos hr, if_neg (by rw [hc]; exact lt_irrefl _), idmAcc]
  by_cases hd : 0 < rel
  · rw [rawAcc_pos h hd, clamp_fin, if_pos hd]
  · rw [rawAcc_nonpos h (not_lt.1 hd), clamp_ninf, if_neg hd]

/-- **C23, gap.** A smaller gap never increases the acceleration. -/
theorem C23_gap_monotone {p : Params} (h : Sane p) (hc : p.coolness = 0) {r : Rel} (hr : r.hasLeader = true)
    (v : ℝ) {d e : ℝ} (hde : d ≤ e) :
    ∃ a b, Returns (totalAcc p r v d) a ∧ Returns (totalAcc p r v e) b ∧ a ≤ b := by
  refine ⟨_, _, C23_value h hc hr v d, C23_value h hc hr v e, ?_⟩
  by_cases hd : 0 < d
  · have he : 0 < e := hd.trans_le hde
    rw [if_pos hd, if_pos he]
    refine max_le_max (min_le_min ?_ le_rfl) le_rfl
    unfold textbook
    refine mul_le_mul_of_nonneg_left ?_ h.maxAcc.le
    have : (desiredGap p v r.velocity / e) ^ 2 ≤ (desiredGap p v r.velocity / d) ^ 2 := by
      rw [div_pow, div_pow]
      have : d ^ 2 ≤ e ^ 2 := by nlinarith
      exact div_le_div_of_nonneg_left (sq_nonneg _) (by positivity) this
    linarith
  · rw [if_neg hd]
    split_ifs
    · exact le_max_right _ _
    · exact le_rfl

/-- **C23, leader velocity** (part): a slower leader never increases the acceleration as long as the desired gap towards
the faster one is not negative. -/
theorem C23_leader_velocity {p : Params} (h : Sane p) (hc : p.coolness = 0) {r r' : Rel}
    (hr : r.hasLeader = true) (hr' : r'.hasLeader = true) {v d : ℝ} (hv : 0 ≤ v) (hle : r.velocity ≤ r'.velocity)
    (hg : 0 ≤ desiredGap p v r'.velocity) :
    ∃ a b, Returns (totalAcc p r v d) a ∧ Returns (totalAcc p r' v d) b ∧ a ≤ b := by
  refine ⟨_, _, C23_value h hc hr v d, C23_value h hc hr' v d, ?_⟩
  by_cases hd : 0 < d
  · rw [if_pos hd, if_pos hd]
    refine max_le_max (min_le_min ?_ le_rfl) le_rfl
    unfold textbook
    refine mul_le_mul_of_nonneg_left ?_ h.maxAcc.le
    have h1 : desiredGap p v r'.velocity ≤ desiredGap p v r.velocity := by
      unfold desiredGap
      gcongr
    have : (desiredGap p v r'.velocity / d) ^ 2 ≤ (desiredGap p v r.velocity / d) ^ 2 := by gcongr
    linarith
  · rw [if_neg hd, if_neg hd]

/-- parameters for the witnesses: bounds [-5, 8], spacing 2 m, headway 1 s, accelerations 2, desired 15 m/s, exponent 2 -/
def wp : Params where
  minSpacing := 2
  headway := 1
  maxAcc := 2
  desiredVel := 15
  comfBraking := 2
  minVel := 0
  maxVel := 50
  accLower := -5
  accUpper := 8
  exponent := 2
  numPoints := 11
  coolness := 0
  tiny := 1

theorem wp_sane : Sane wp := by
  constructor <;> norm_num [wp]

/-- the hypotheses of C21–C23 are met by ordinary parameters (with or without adaptive cruise control) -/
example : Sane wp ∧ Sane { wp with coolness := 1 / 2 } ∧ 0 < wp.desiredVel ∧ wp.exponent ≠ 0 ∧ wp.accLower < 0 ∧
    0 < wp.accUpper ∧ 0 ≤ desiredGap wp 10 10 := by
  refine ⟨wp_sane, ?_, ?_, ?_, ?_, ?_, ?_⟩
  · constructor <;> norm_num [wp]
  all_goals norm_num [wp, desiredGap]

theorem wp_gap (v vo : ℝ) : desiredGap wp v vo = 2 + v + v * (v - vo) / 4 := by
  have : Real.sqrt ((2 : ℝ) * 2) = 2 := Real.sqrt_mul_self (by norm_num)
  unfold desiredGap wp
  rw [this]
  ring

/-- **C23, leader velocity violated**: ego at 10 m/s, leader 100 m ahead. Following a leader at 100 m/s the model brakes
(down to the lower bound), following one at 10 m/s it accelerates. -/
theorem C23_leader_velocity_violated :
    ∃ a b, Returns (totalAcc wp ⟨100, 10, 0, true⟩ 10 100) a ∧ Returns (totalAcc wp ⟨100, 100, 0, true⟩ 10 100) b ∧
      0 < a ∧ b < 0 := by
  refine ⟨_, _, C23_value wp_sane rfl rfl 10 100, C23_value wp_sane rfl rfl 10 100, ?_, ?_⟩
  · rw [if_pos (by norm_num)]
    unfold textbook
    rw [wp_gap]
    norm_num [wp]
  · rw [if_pos (by norm_num)]
    unfold textbook
    rw [wp_gap]
    norm_num [wp]

/-! ### C24 -/

theorem genLoop_spec {p : Params} {r : Rel} {start dt v0 : ℝ} (n : Nat) : ∀ (i : Nat) (s v rel : ℝ) {l},
    genLoop p r start dt v0 n i s v rel = .ok l →
    l.length = n ∧ ∀ k (hk : k < l.length), (l[k]).2.t = ((i + k : Nat) : ℝ) * dt + start ∧
      p.minVel ≤ (l[k]).2.v ∧ (p.minVel ≤ p.maxVel → (l[k]).2.v ≤ p.maxVel) := by
  induction n with
  | zero =>
    intro i s v rel l h
    simp only [genLoop, Except.ok.injEq] at h
    subst h
    simp
  | succ n ih =>
    intro i s v rel l h
    unfold genLoop at h
    split at h
    · cases h
    · dsimp only at h
      split at h
      · next l' hl' =>
        cases h
        obtain ⟨h1, h2⟩ := ih _ _ _ _ hl'
        refine ⟨by simp [h1], ?_⟩
        intro k hk
        cases k with
        | zero =>
          refine ⟨by simp, le_max_right _ _, fun hle => ?_⟩
          exact max_le (min_le_right _ _) hle
        | succ k =>
          have hk' : k < l'.length := by simpa using hk
          have := h2 k hk'
          simp only [List.getElem_cons_succ]
          refine ⟨?_, this.2⟩
          rw [this.1]
          congr 2
          push_cast
          ring
      · cases h
    · cases h

theorem genLoop_total {p : Params} (h : Sane p) {r : Rel} {start dt v0 : ℝ} (hv : ¬ Singular p r v0) (n : Nat) :
    ∀ (i : Nat) (s v rel : ℝ), ∃ l, genLoop p r start dt v0 n i s v rel = .ok l := by
  induction n with
  | zero => intro i s v rel; exact ⟨[], rfl⟩
  | succ n ih =>
    intro i s v rel
    obtain ⟨a, ha, _⟩ := C21_acc_within_bounds h r v0 rel (fun _ => hv)
    unfold genLoop
    rw [show totalAcc p r v0 rel = .ok (fin a) from ha]
    dsimp only
    obtain ⟨l, hl⟩ := ih (i + 1) (s + (1 / 2 * a * dt * dt + v * dt)) (max (min (v + a * dt) p.maxVel) p.minVel)
      (nextDist r v0 rel a dt)
    rw [hl]
    exact ⟨_, rfl⟩

/-- **C24.** Planning with sensible parameters always yields a trajectory: the computed points 1, 2, …,
numPoints-1 are stamped start + k·dt, so the last one is stamped start + horizon, and all their velocities lie between
minimum and maximum velocity. (Point 0 is the ego's own state, copied.) -/
theorem C24_velocity_and_times {p : Params} (h : Sane p) (hn : 2 ≤ p.numPoints) (hm : p.minVel ≤ p.maxVel) {r : Rel}
    (start horizon s0 : ℝ) {v0 : ℝ} (hv : ¬ Singular p r v0) :
    ∃ l, generate p r start (stepSize p horizon) s0 v0 = .ok l ∧ l.length = p.numPoints - 1 ∧
      (∀ k (hk : k < l.length), (l[k]).2.t = start + ((k + 1 : Nat) : ℝ) * (horizon / ((p.numPoints : ℝ) - 1)) ∧
        p.minVel ≤ (l[k]).2.v ∧ (l[k]).2.v ≤ p.maxVel) ∧
      ∃ last ∈ l.getLast?, last.2.t = start + horizon := by
  obtain ⟨l, hl⟩ := genLoop_total h (start := start) (dt := stepSize p horizon) hv (p.numPoints - 1) 1 s0 v0 r.distance
  obtain ⟨h1, h2⟩ := genLoop_spec _ _ _ _ _ hl
  refine ⟨l, hl, h1, fun k hk => ⟨?_, (h2 k hk).2.1, (h2 k hk).2.2 hm⟩, ?_⟩
  · rw [(h2 k hk).1, Nat.add_comm 1 k, stepSize]
    ring
  · have hlen : 0 < l.length := by omega
    have hne : l ≠ [] := List.length_pos_iff.1 hlen
    refine ⟨l.getLast hne, by rw [List.getLast?_eq_some_getLast hne]; rfl, ?_⟩
    rw [List.getLast_eq_getElem, (h2 (l.length - 1) (by omega)).1, h1, stepSize]
    have : (1 + (p.numPoints - 1 - 1)) = p.numPoints - 1 := by omega
    rw [this]
    have hnp : ((p.numPoints - 1 : ℕ) : ℝ) = (p.numPoints : ℝ) - 1 := by
      rw [Nat.cast_sub (by omega)]; norm_num
    have hne0 : (p.numPoints : ℝ) - 1 ≠ 0 := by
      have : (2 : ℝ) ≤ p.numPoints := by exact_mod_cast hn
      linarith
    rw [hnp, mul_div_cancel₀ _ hne0, add_comm]

/-- every acceleration used along a planned trajectory is within the bounds -/
theorem C21_along_trajectory {p : Params} (h : Sane p) {r : Rel} {start dt v0 : ℝ} (hv : ¬ Singular p r v0)
    (n : Nat) : ∀ (i : Nat) (s v rel : ℝ) {l}, genLoop p r start dt v0 n i s v rel = .ok l →
      ∀ x ∈ l, p.accLower ≤ x.1 ∧ x.1 ≤ p.accUpper := by
  induction n with
  | zero =>
    intro i s v rel l hl
    simp only [genLoop, Except.ok.injEq] at hl
    subst hl
    simp
  | succ n ih =>
    intro i s v rel l hl
    obtain ⟨a, ha, hlo, hhi⟩ := C21_acc_within_bounds h r v0 rel (fun _ => hv)
    unfold genLoop at hl
    rw [show totalAcc p r v0 rel = .ok (fin a) from ha] at hl
    dsimp only at hl
    split at hl
    · next l' hl' =>
      cases hl
      intro x hx
      rcases List.mem_cons.1 hx with rfl | hx
      · exact ⟨hlo, hhi⟩
      · exact ih _ _ _ _ hl' x hx
    · cases hl

/-! ### C25 -/

/-- the arc lengths never decrease along consecutive points, starting from `s` -/
def NonDecreasingS (s : ℝ) : List (ℝ × Row) → Prop
  | [] => True
  | x :: l => s ≤ x.2.s ∧ NonDecreasingS x.2.s l

/-- **C25** (part): with non-negative minimum velocity the arc length does not decrease as long as, in every step, the
ego's velocity plus half the velocity change is not negative – in particular whenever the trajectory never brakes. -/
theorem C25_no_backward_partial {p : Params} {r : Rel} {start dt v0 : ℝ} (hdt : 0 ≤ dt)
    (hmin : 0 ≤ p.minVel) (n : Nat) : ∀ (i : Nat) (s v rel : ℝ) {l}, 0 ≤ v →
      genLoop p r start dt v0 n i s v rel = .ok l → (∀ x ∈ l, 0 ≤ x.1 ∨ - x.1 * dt ≤ 2 * p.minVel) →
      (∀ x ∈ l.head?, 0 ≤ x.1 ∨ - x.1 * dt ≤ 2 * v) → NonDecreasingS s l := by
  induction n with
  | zero =>
    intro i s v rel l _ hl _ _
    simp only [genLoop, Except.ok.injEq] at hl
    subst hl
    trivial
  | succ n ih =>
    intro i s v rel l hv hl hall hhead
    unfold genLoop at hl
    split at hl
    · cases hl
    · next acc hacc =>
      dsimp only at hl
      split at hl
      · next l' hl' =>
        cases hl
        have h0 := hhead _ rfl
        refine ⟨?_, ?_⟩
        · dsimp only at h0 ⊢
          have : 0 ≤ (1 / 2 * acc * dt + v) * dt := by
            refine mul_nonneg ?_ hdt
            rcases h0 with h0 | h0
            · positivity
            · linarith
          nlinarith
        · refine ih _ _ _ _ (le_trans hmin (le_max_right _ _)) hl' (fun x hx => hall x (List.mem_cons_of_mem _ hx)) ?_
          intro x hx
          have hx' : x ∈ l' := List.mem_of_mem_head? hx
          rcases hall x (List.mem_cons_of_mem _ hx') with h | h
          · exact Or.inl h
          · refine Or.inr (h.trans ?_)
            have := le_max_right (min (v + acc * dt) p.maxVel) p.minVel
            linarith
      · cases hl
    · cases hl

/-- **C25 violated**: an ego standing still 1 m behind a stopped leader (minimum spacing 2 m) has a first trajectory
point strictly behind its position, for every positive step, although its velocity stays 0. -/
theorem C25_violated (start s0 dt : ℝ) (hdt : 0 < dt) :
    ∃ x l, generate wp ⟨1, 0, 0, true⟩ start dt s0 0 = .ok (x :: l) ∧ x.2.s < s0 ∧ x.2.v = 0 := by
  obtain ⟨l, hl⟩ := genLoop_total wp_sane (r := ⟨1, 0, 0, true⟩) (start := start) (dt := dt) (v0 := 0)
    (fun hs => absurd hs.2.2.1 (by norm_num)) 10 1 s0 0 1
  have hv := C23_value wp_sane rfl (r := ⟨1, 0, 0, true⟩) rfl 0 1
  have hval : (if (0 : ℝ) < 1 then max (min (textbook wp 1 0 0) wp.accUpper) wp.accLower else wp.accLower) = -5 := by
    rw [if_pos one_pos]
    unfold textbook
    rw [wp_gap]
    norm_num [wp]
  dsimp only at hv
  rw [hval] at hv
  have hgen : generate wp ⟨1, 0, 0, true⟩ start dt s0 0 = .ok l := hl
  rw [hgen]
  unfold genLoop at hl
  rw [show totalAcc wp ⟨1, 0, 0, true⟩ 0 1 = .ok (fin (-5)) from hv] at hl
  dsimp only at hl
  split at hl
  · next l' hl' =>
    cases hl
    refine ⟨_, l', rfl, ?_, ?_⟩
    · dsimp only
      nlinarith [mul_pos hdt hdt]
    · dsimp only
      have : min (0 + -5 * dt) wp.maxVel ≤ 0 := (min_le_left _ _).trans (by linarith)
      exact max_eq_right (this.trans (by norm_num [wp]))
  · cases hl

/-! ### C57 -/

/-- without a leader all accelerations along the trajectory are the one for the initial velocity -/
theorem C57_free_road_constant {p : Params} (h : Sane p) {r : Rel} (hr : r.hasLeader = false) {start dt v0 : ℝ}
    (n : Nat) : ∀ (i : Nat) (s v rel : ℝ) {l}, genLoop p r start dt v0 n i s v rel = .ok l →
      ∀ x ∈ l, x.1 = max (min (p.maxAcc * (1 - (v0 / p.desiredVel) ^ p.exponent)) p.accUpper) p.accLower := by
  induction n with
  | zero =>
    intro i s v rel l hl
    simp only [genLoop, Except.ok.injEq] at hl
    subst hl
    simp
  | succ n ih =>
    intro i s v rel l hl
    have ha := free_value h hr v0 rel
    unfold genLoop at hl
    rw [show totalAcc p r v0 rel = .ok (fin _) from ha] at hl
    dsimp only at hl
    split at hl
    · next l' hl' =>
      cases hl
      intro x hx
      rcases List.mem_cons.1 hx with rfl | hx
      · rfl
      · exact ih _ _ _ _ hl' x hx
    · cases hl

/-- velocities of a constant-acceleration trajectory that never reaches the velocity bounds -/
theorem C57_free_road_velocity {p : Params} (h : Sane p) {r : Rel} (hr : r.hasLeader = false)
    {start dt v0 a : ℝ} (ha : a = max (min (p.maxAcc * (1 - (v0 / p.desiredVel) ^ p.exponent)) p.accUpper) p.accLower)
    (h0 : 0 ≤ a) (hdt : 0 ≤ dt) (n : Nat) : ∀ (i : Nat) (s v rel : ℝ) {l},
      genLoop p r start dt v0 n i s v rel = .ok l → p.minVel ≤ v → v + n * (a * dt) ≤ p.maxVel →
      ∀ k (hk : k < l.length), (l[k]).2.v = v + ((k + 1 : Nat) : ℝ) * (a * dt) := by
  have had : 0 ≤ a * dt := mul_nonneg h0 hdt
  induction n with
  | zero =>
    intro i s v rel l hl
    simp only [genLoop, Except.ok.injEq] at hl
    subst hl
    simp
  | succ n ih =>
    intro i s v rel l hl hmin hmax
    have hv := free_value h hr v0 rel
    rw [← ha] at hv
    unfold genLoop at hl
    rw [show totalAcc p r v0 rel = .ok (fin _) from hv] at hl
    dsimp only at hl
    push_cast at hmax
    have hn : 0 ≤ (n : ℝ) * (a * dt) := by positivity
    have hvel : max (min (v + a * dt) p.maxVel) p.minVel = v + a * dt := by
      rw [min_eq_left (by linarith), max_eq_left (by linarith)]
    rw [hvel] at hl
    split at hl
    · next l' hl' =>
      cases hl
      intro k hk
      cases k with
      | zero => simp
      | succ k =>
        have := ih _ _ _ _ hl' (by linarith) (by linarith) k (by simpa using hk)
        simp only [List.getElem_cons_succ]
        rw [this]
        push_cast
        ring
    · cases hl

/-- **C57 violated**: on a free road, with a planning horizon of 10 s in 10 steps, an ego starting from standstill with
desired velocity 15 m/s and maximal acceleration 2 m/s² is planned to drive 20 m/s in the end: the acceleration is
evaluated for the initial velocity in every step. -/
theorem C57_violated (start s0 : ℝ) : ∃ l last, generate wp ⟨0, 0, 0, false⟩ start (stepSize wp 10) s0 0 = .ok l ∧
    l.getLast? = some last ∧ last.2.v = 20 ∧ wp.desiredVel = 15 := by
  have hdt : stepSize wp 10 = 1 := by norm_num [stepSize, wp]
  obtain ⟨l, hl⟩ := genLoop_total wp_sane (r := ⟨0, 0, 0, false⟩) (start := start) (dt := stepSize wp 10) (v0 := 0)
    (fun hs => absurd hs.2.2.1 (by norm_num)) 10 1 s0 0 0
  have hlen := (genLoop_spec _ _ _ _ _ hl).1
  have ha : (2 : ℝ) = max (min (wp.maxAcc * (1 - (0 / wp.desiredVel) ^ wp.exponent)) wp.accUpper) wp.accLower := by
    norm_num [wp]
  have hvel := C57_free_road_velocity wp_sane (r := ⟨0, 0, 0, false⟩) rfl ha (by norm_num) (by rw [hdt]; norm_num) 10
    1 s0 0 0 hl (by norm_num [wp]) (by rw [hdt]; norm_num [wp])
  have hne : l ≠ [] := by rw [← List.length_pos_iff]; omega
  refine ⟨l, l.getLast hne, hl, List.getLast?_eq_some_getLast hne, ?_, rfl⟩
  rw [List.getLast_eq_getElem, hvel, hlen, hdt]
  norm_num

end Bark.Idm
