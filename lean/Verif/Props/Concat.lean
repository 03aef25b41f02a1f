import Verif.Props.LineOps
import Verif.Spec.Concat

/-! C79: lines that cross or touch in one point. -/
namespace Bark.Ln
open Bark Bark.Ln.Spec Real

open Classical in
theorem unique_step (a b : Pt) (l : List Pt) :
    unique (a :: b :: l) = if a = b then unique (b :: l) else a :: unique (b :: l) := by rw [unique]

theorem unique_dup (x : Pt) (r : List Pt) : ∀ l : List Pt, unique (l ++ x :: x :: r) = unique (l ++ x :: r)
  | [] => by
    show unique (x :: x :: r) = unique (x :: r)
    rw [unique_step, if_pos rfl]
  | [a] => by
    show unique (a :: x :: x :: r) = unique (a :: x :: r)
    have h := unique_dup x r []
    simp only [List.nil_append] at h
    rw [unique_step a x (x :: r), unique_step a x r, h]
  | a :: b :: l => by
    show unique (a :: b :: (l ++ x :: x :: r)) = unique (a :: b :: (l ++ x :: r))
    have h := unique_dup x r (b :: l)
    simp only [List.cons_append] at h
    rw [unique_step a b (l ++ x :: x :: r), unique_step a b (l ++ x :: r), h]

theorem unique_id : ∀ {l : List Pt}, NoDup l → unique l = l
  | [], _ => by simp [unique]
  | [a], _ => by simp [unique]
  | a :: b :: l, h => by
    have h' := List.isChain_cons_cons.1 h
    rw [unique_step, if_neg h'.1, unique_id h'.2]

/-- a table strictly increasing from zero to the length, as lines and reversed lines have it -/
structure Proper (l : Line) : Prop where
  two : 2 ≤ l.pts.length
  len : l.s.length = l.pts.length
  inc : l.s.Pairwise (· < ·)
  first : l.s[0]? = some 0
  last : l.s[l.pts.length - 1]? = some (Ln.length l.pts)
  nd : NoDup l.pts

theorem proper_of_table {l : Line} (h : TableRight l) (h2 : 2 ≤ l.pts.length) (hnd : NoDup l.pts) : Proper l := by
  refine ⟨h2, h.1, ?_, ?_, ?_, hnd⟩
  · rw [← List.isChain_iff_pairwise, List.isChain_iff_getElem]
    intro i hi
    have hi' : i + 1 < l.pts.length := by rw [← h.1]; exact hi
    have ha : l.pts[i]? = some l.pts[i] := List.getElem?_eq_getElem (by omega)
    have hb : l.pts[i + 1]? = some l.pts[i + 1] := List.getElem?_eq_getElem hi'
    rw [h.2, h.2, arc_step _ _ _ _ ha hb]
    have := lt_of_le_of_ne (pdist_nonneg _ _) (fun e => noDup_seg hnd ha hb (pdist_eq_zero.1 e.symm))
    linarith
  · have : l.pts[0]? = some l.pts[0] := List.getElem?_eq_getElem (by omega)
    rw [table_at h this]
    cases hp : l.pts with
    | nil => rw [hp] at h2; simp at h2
    | cons a r => rw [arc_zero]
  · have : l.pts[l.pts.length - 1]? = some l.pts[l.pts.length - 1] := List.getElem?_eq_getElem (by omega)
    rw [table_at h this, List.take_of_length_le (by omega)]

theorem length_concat : ∀ (l : List Pt) (a b : Pt), Ln.length (l ++ [a, b]) = Ln.length (l ++ [a]) + pdist a b
  | [], a, b => by simp [Ln.length]
  | [c], a, b => by simp [Ln.length]
  | c :: d :: l, a, b => by
    have h := length_concat (d :: l) a b
    simp only [List.cons_append, length_cons_cons] at h ⊢
    rw [h]; ring

theorem length_reverse : ∀ l : List Pt, Ln.length l.reverse = Ln.length l
  | [] => rfl
  | [_] => rfl
  | a :: b :: l => by
    rw [List.reverse_cons, List.reverse_cons, List.append_assoc]
    show Ln.length (l.reverse ++ [b, a]) = _
    rw [length_concat, ← List.reverse_cons, length_reverse (b :: l), length_cons_cons, pdist_comm]
    ring

theorem proper_reverse {l : Line} (h : Proper l) : Proper (reverse l) := by
  refine ⟨by simpa [reverse] using h.two, by simpa [reverse] using h.len, h.inc, h.first, ?_, ?_⟩
  · show l.s[l.pts.reverse.length - 1]? = some (Ln.length l.pts.reverse)
    rw [List.length_reverse, length_reverse]; exact h.last
  · show NoDup l.pts.reverse
    unfold NoDup
    rw [List.isChain_reverse]
    exact h.nd.imp (fun _ _ g => g.symm)

theorem proper_lt {l : Line} (h : Proper l) {i j : Nat} {x y : ℝ} (hi : l.s[i]? = some x) (hj : l.s[j]? = some y)
    (hij : i < j) : x < y := by
  obtain ⟨h1, rfl⟩ := List.getElem?_eq_some_iff.1 hi
  obtain ⟨h2, rfl⟩ := List.getElem?_eq_some_iff.1 hj
  exact List.pairwise_iff_getElem.1 h.inc _ _ h1 h2 hij

theorem upper_at {s : List ℝ} (hs : s.Pairwise (· < ·)) {k : Nat} {a b x : ℝ} (ha : s[k]? = some a) (hb : s[k + 1]? = some b)
    (h1 : a ≤ x) (h2 : x < b) : upperBound s x = k + 1 := by
  unfold upperBound
  obtain ⟨g1, rfl⟩ := List.getElem?_eq_some_iff.1 ha
  obtain ⟨g2, rfl⟩ := List.getElem?_eq_some_iff.1 hb
  rw [List.findIdx_eq g2]
  refine ⟨by simpa using h2, ?_⟩
  intro j hj
  simp only [decide_eq_false_iff_not, not_lt]
  rcases Nat.lt_or_ge j k with g | g
  · exact le_trans (List.pairwise_iff_getElem.1 hs _ _ (by omega) g1 g).le h1
  · have : j = k := by omega
    subst this; exact h1

theorem lower_at {s : List ℝ} (hs : s.Pairwise (· < ·)) {k : Nat} {a b x : ℝ} (ha : s[k]? = some a) (hb : s[k + 1]? = some b)
    (h1 : a < x) (h2 : x ≤ b) : lowerBound s x = k + 1 := by
  unfold lowerBound
  obtain ⟨g1, rfl⟩ := List.getElem?_eq_some_iff.1 ha
  obtain ⟨g2, rfl⟩ := List.getElem?_eq_some_iff.1 hb
  rw [List.findIdx_eq g2]
  refine ⟨by simpa using h2, ?_⟩
  intro j hj
  simp only [decide_eq_false_iff_not, not_le]
  rcases Nat.lt_or_ge j k with g | g
  · exact lt_trans (List.pairwise_iff_getElem.1 hs _ _ (by omega) g1 g) h1
  · have : j = k := by omega
    subst this; exact h1

theorem lerp_mem {p q : Pt} (h : p ≠ q) {t u : ℝ} (e : lerp p q t = lerp p q u) : t = u := by
  have := pdist_lerp p q t u
  rw [e, pdist_self] at this
  rcases mul_eq_zero.1 this.symm with g | g
  · exact sub_eq_zero.1 (abs_eq_zero.1 g)
  · exact absurd (pdist_eq_zero.1 g) h

/-- the nearest place of a line to one of its own points -/
theorem nearestS_on {l : Line} (h : Proper l) {x : Pt} (hx : OnLine l.pts x) :
    ∃ (i : Nat) (p q : Pt) (t s0 s1 : ℝ), l.pts[i]? = some p ∧ l.pts[i + 1]? = some q ∧ l.s[i]? = some s0 ∧
      l.s[i + 1]? = some s1 ∧ 0 ≤ t ∧ t ≤ 1 ∧ x = lerp p q t ∧ nearestS l x = .ok ((1 - t) * s0 + t * s1) := by
  have h2 := h.two
  rcases nearestLoop_spec x l.pts 0 none 0 with ⟨_, _, hc⟩ | ⟨k, a, b, hk, hs, hmin, _⟩
  · exact absurd (hc rfl) (by omega)
  rw [Nat.zero_add] at hk
  obtain ⟨j, a', b', t, ha', hb', g0, g1, hx'⟩ := hx
  have hz : segDist2 a b x ≤ 0 := by
    refine le_trans (hmin j a' b' ⟨ha', hb'⟩) (le_trans (segDist2_le a' b' x g0 g1) ?_)
    rw [hx']; unfold dist2; simp
  have hab := noDup_seg h.nd hs.1 hs.2
  have hl0 : len2 a b ≠ 0 := fun e => hab (len2_eq_zero.1 e)
  have hlp : 0 < len2 a b := lt_of_le_of_ne (len2_nonneg a b) hl0.symm
  have key : ∃ u, 0 ≤ u ∧ u ≤ 1 ∧ x = lerp a b u ∧ dot a b x / len2 a b = u := by
    have d0 : ∀ y : Pt, dist2 x y ≤ 0 → x = y := by
      intro y hy
      unfold dist2 at hy
      have e1 := mul_self_nonneg (x.1 - y.1)
      have e2 := mul_self_nonneg (x.2 - y.2)
      exact Prod.ext (sub_eq_zero.1 (mul_self_eq_zero.1 (by linarith))) (sub_eq_zero.1 (mul_self_eq_zero.1 (by linarith)))
    unfold segDist2 at hz
    split_ifs at hz with c1 c2
    · refine ⟨0, le_rfl, zero_le_one, by rw [lerp_zero]; exact d0 _ hz, ?_⟩
      rw [d0 _ hz]; simp [dot]
    · refine ⟨1, zero_le_one, le_rfl, by rw [lerp_one]; exact d0 _ hz, ?_⟩
      rw [d0 _ hz]; exact div_self hl0
    · exact ⟨dot a b x / len2 a b, div_nonneg (not_le.1 c1).le hlp.le, (div_le_one hlp).2 (not_le.1 c2).le, d0 _ hz, rfl⟩
  obtain ⟨u, u0, u1, hxu, hdu⟩ := key
  have k1 : k + 1 < l.pts.length := (List.getElem?_eq_some_iff.1 hs.2).1
  have k2 : k + 1 < l.s.length := by rw [h.len]; exact k1
  have hs0 : l.s[k]? = some l.s[k] := List.getElem?_eq_getElem (by rw [h.len]; omega)
  have hs1 : l.s[k + 1]? = some l.s[k + 1] := List.getElem?_eq_getElem (by rw [h.len]; omega)
  refine ⟨k, a, b, u, _, _, hs.1, hs.2, hs0, hs1, u0, u1, hxu, ?_⟩
  unfold nearestS nearest
  split
  · next e => rw [e] at h2; simp at h2
  · next e => rw [e] at h2; simp at h2
  · rw [hk, at'_nat hs.1, at'_nat hs.2, at'_nat hs0, at'_nat hs1]
    simp only [Res.ok_bind]
    rw [projectOn_eq, if_neg hl0, hdu, if_neg (not_lt.2 u0), if_neg (not_lt.2 u1)]
    rfl

/-- the point at the place found -/
theorem pointAtS_on {l : Line} (h : Proper l) {i : Nat} {p q : Pt} {t s0 s1 : ℝ} (hp : l.pts[i]? = some p)
    (hq : l.pts[i + 1]? = some q) (h0 : l.s[i]? = some s0) (h1 : l.s[i + 1]? = some s1) (t0 : 0 ≤ t) (t1 : t ≤ 1) :
    pointAtS l ((1 - t) * s0 + t * s1) = .ok (lerp p q t) := by
  have h2 := h.two
  have hlt := proper_lt h h0 h1 (Nat.lt_succ_self i)
  have hin := (List.getElem?_eq_some_iff.1 hq).1
  have hf := h.first
  have hn0 : 0 ≤ s0 := by
    rcases Nat.eq_zero_or_pos i with g | g
    · subst g; rw [hf] at h0; cases h0; exact le_rfl
    · exact (proper_lt h hf h0 g).le
  have hnL : s1 ≤ Ln.length l.pts := by
    rcases Nat.lt_or_ge (i + 1) (l.pts.length - 1) with g | g
    · exact (proper_lt h h1 h.last g).le
    · have : i + 1 = l.pts.length - 1 := by omega
      have e := h.last
      rw [← this, h1] at e; cases e; exact le_rfl
  have e0 : (1 - t) * s0 + t * s1 = s0 + t * (s1 - s0) := by ring
  rw [e0]
  unfold pointAtS
  rw [if_neg (by omega)]
  by_cases c1 : s0 + t * (s1 - s0) ≤ 0
  · rw [if_pos c1]
    have ht : t = 0 := by
      by_contra g
      have : 0 < t * (s1 - s0) := mul_pos (lt_of_le_of_ne t0 (Ne.symm g)) (by linarith)
      linarith
    have hs : s0 = 0 := le_antisymm (by rw [ht] at c1; linarith) hn0
    have hi : i = 0 := by
      rcases Nat.eq_zero_or_pos i with g | g
      · exact g
      · have := proper_lt h hf h0 g; linarith
    subst hi
    rw [show (0 : Int) = ((0 : Nat) : Int) from rfl, at'_nat hp, ht, lerp_zero]
  · rw [if_neg c1]
    have hb : back l.s = .ok (Ln.length l.pts) := by
      unfold back
      rw [List.getLast?_eq_getElem?, h.len, h.last]
    rw [hb, Res.ok_bind]
    by_cases c2 : Ln.length l.pts ≤ s0 + t * (s1 - s0)
    · rw [if_pos c2]
      have ht : t = 1 := by
        by_contra g
        have : t * (s1 - s0) < 1 * (s1 - s0) := mul_lt_mul_of_pos_right (lt_of_le_of_ne t1 g) (by linarith)
        linarith
      have hs : s1 = Ln.length l.pts := le_antisymm hnL (by rw [ht] at c2; linarith)
      have hi : i + 1 = l.pts.length - 1 := by
        rcases Nat.lt_or_ge (i + 1) (l.pts.length - 1) with g | g
        · have := proper_lt h h1 h.last g; linarith
        · omega
      rw [show ((l.pts.length : Int) - 1) = ((l.pts.length - 1 : Nat) : Int) by omega, ← hi, at'_nat hq, ht, lerp_one]
    · rw [if_neg c2]
      rcases eq_or_lt_of_le t1 with ht | ht
      · subst ht
        have hs : s0 + 1 * (s1 - s0) = s1 := by ring
        rw [hs] at c2 ⊢
        have g : i + 1 < l.pts.length - 1 := by
          by_contra g
          have : i + 1 = l.pts.length - 1 := by omega
          have e := h.last
          rw [← this, h1] at e; cases e; exact c2 le_rfl
        have k2 : i + 1 + 1 < l.s.length := by rw [h.len]; omega
        have h3 : l.s[i + 1 + 1]? = some l.s[i + 1 + 1] := List.getElem?_eq_getElem (by rw [h.len]; omega)
        have hp3 : l.pts[i + 1 + 1]? = some l.pts[i + 1 + 1] := List.getElem?_eq_getElem (by omega)
        have hlt3 := proper_lt h h1 h3 (Nat.lt_succ_self _)
        have hu := upper_at h.inc h1 h3 le_rfl hlt3
        have he : segmentEndIdx l s1 = ((i + 1 + 1 : Nat) : Int) := by
          unfold segmentEndIdx; rw [hu, if_pos (by rw [h.len]; omega)]
        rw [he]
        dsimp only
        rw [show (((i + 1 + 1 : Nat) : Int) - 1) = ((i + 1 : Nat) : Int) by omega, at'_nat h1, at'_nat h3, at'_nat hq, at'_nat hp3]
        simp only [Res.ok_bind]
        rw [if_neg (by linarith), sub_self, zero_div, lerp_zero, lerp_one]
      · have hx0 : s0 ≤ s0 + t * (s1 - s0) := le_add_of_nonneg_right (mul_nonneg t0 (by linarith))
        have hx1 : s0 + t * (s1 - s0) < s1 := by nlinarith
        have hu := upper_at h.inc h0 h1 hx0 hx1
        have he : segmentEndIdx l (s0 + t * (s1 - s0)) = ((i + 1 : Nat) : Int) := by
          unfold segmentEndIdx; rw [hu, if_pos (by rw [h.len]; omega)]
        rw [he]
        dsimp only
        rw [show (((i + 1 : Nat) : Int) - 1) = (i : Int) by omega, at'_nat h0, at'_nat h1, at'_nat hp, at'_nat hq]
        simp only [Res.ok_bind]
        rw [if_neg (by linarith)]
        congr 2
        field_simp
        rw [add_sub_cancel_left, mul_div_cancel_right₀ _ (sub_pos.2 hlt).ne']

/-- equal up to one repetition of `x` -/
def Same (x : Pt) (r A : List Pt) : Prop := r = A ∨ ∃ pre post, r = pre ++ x :: post ∧ A = pre ++ x :: x :: post

theorem same_unique {x : Pt} {r A : List Pt} (h : Same x r A) (u v : List Pt) : unique (u ++ (r ++ v)) = unique (u ++ (A ++ v)) := by
  rcases h with rfl | ⟨pre, post, rfl, rfl⟩
  · rfl
  · have := (unique_dup x (post ++ v) (u ++ pre)).symm
    simpa only [List.append_assoc, List.cons_append] using this

theorem interval_front {l : Line} (h : Proper l) {i : Nat} {p q : Pt} {t s0 s1 : ℝ} (hp : l.pts[i]? = some p)
    (hq : l.pts[i + 1]? = some q) (h0 : l.s[i]? = some s0) (h1 : l.s[i + 1]? = some s1) (t0 : 0 ≤ t) (t1 : t ≤ 1)
    (hpos : 0 < (1 - t) * s0 + t * s1) :
    ∃ r, lineFromSInterval l 0 ((1 - t) * s0 + t * s1) = .ok r ∧
      Same (lerp p q t) r.pts (l.pts.take (i + 1) ++ [lerp p q t]) := by
  have h2 := h.two
  have hlt := proper_lt h h0 h1 (Nat.lt_succ_self i)
  have hx := pointAtS_on h hp hq h0 h1 t0 t1
  cases hpts : l.pts with
  | nil => rw [hpts] at h2; simp at h2
  | cons a rest =>
    have ha : pointAtS l 0 = .ok a := by
      unfold pointAtS
      rw [if_neg (by omega), if_pos le_rfl]
      rw [hpts]; rfl
    have hin := (List.getElem?_eq_some_iff.1 hq).1
    have k2 : 1 < l.s.length := by rw [h.len]; omega
    have g1 : l.s[0 + 1]? = some l.s[1] := List.getElem?_eq_getElem k2
    have hbi := upper_at h.inc h.first g1 le_rfl (proper_lt h h.first g1 (by omega))
    have e0 : (1 - t) * s0 + t * s1 = s0 + t * (s1 - s0) := by ring
    have fin : ∀ k, lowerBound l.s ((1 - t) * s0 + t * s1) = k + 1 → 
        ∃ r, lineFromSInterval l 0 ((1 - t) * s0 + t * s1) = .ok r ∧ r.pts = l.pts.take (k + 1) ++ [lerp p q t] := by
      intro k hk
      unfold lineFromSInterval pointsInSInterval
      rw [ha, hx]
      dsimp only
      rw [hbi, hk, if_neg (by omega)]
      simp only [Res.ok_bind]
      refine ⟨_, rfl, ?_⟩
      show ((List.foldl addPoint (addPoint empty a) _).pts ++ [lerp p q t]) = _
      rw [foldl_addPoint]
      show [a] ++ _ ++ _ = _
      rw [hpts]
      simp
    rw [← hpts]
    rcases eq_or_lt_of_le t0 with ht | ht
    · subst ht
      have hi : 0 < i := by
        rcases Nat.eq_zero_or_pos i with g | g
        · subst g
          have := h.first
          rw [h0] at this; cases this; simp at hpos
        · exact g
      obtain ⟨k, rfl⟩ : ∃ k, i = k + 1 := ⟨i - 1, by omega⟩
      have k3 : k < l.s.length := by rw [h.len]; omega
      have hk : l.s[k]? = some l.s[k] := List.getElem?_eq_getElem k3
      obtain ⟨r, hr, hr'⟩ := fin k (lower_at h.inc hk h0 (by have := proper_lt h hk h0 (by omega); linarith) (by linarith))
      refine ⟨r, hr, Or.inr ?_⟩
      refine ⟨l.pts.take (k + 1), [], hr', ?_⟩
      rw [lerp_zero]
      have : l.pts.take (k + 1 + 1) = l.pts.take (k + 1) ++ [p] := by
        rw [List.take_add_one, hp]; rfl
      rw [this, List.append_assoc]; rfl
    · obtain ⟨r, hr, hr'⟩ := fin i (lower_at h.inc h0 h1 (by rw [e0]; have := mul_pos ht (show 0 < s1 - s0 by linarith); linarith)
        (by rw [e0]; have := mul_le_mul_of_nonneg_right t1 (show 0 ≤ s1 - s0 by linarith); linarith))
      exact ⟨r, hr, Or.inl hr'⟩

theorem interval_back {l : Line} (h : Proper l) {i : Nat} {p q : Pt} {t s0 s1 : ℝ} (hp : l.pts[i]? = some p)
    (hq : l.pts[i + 1]? = some q) (h0 : l.s[i]? = some s0) (h1 : l.s[i + 1]? = some s1) (t0 : 0 ≤ t) (t1 : t ≤ 1)
    (hpos : (1 - t) * s0 + t * s1 < Ln.length l.pts) :
    ∃ r, lineFromSInterval l ((1 - t) * s0 + t * s1) (Ln.length l.pts) = .ok r ∧
      Same (lerp p q t) r.pts (lerp p q t :: l.pts.drop (i + 1)) := by
  have h2 := h.two
  have hlt := proper_lt h h0 h1 (Nat.lt_succ_self i)
  have hx := pointAtS_on h hp hq h0 h1 t0 t1
  have hin := (List.getElem?_eq_some_iff.1 hq).1
  have hL : l.pts[l.pts.length - 1]? = some l.pts[l.pts.length - 1] := List.getElem?_eq_getElem (by omega)
  have hpl : 0 < Ln.length l.pts := proper_lt h h.first h.last (by omega)
  have hend : pointAtS l (Ln.length l.pts) = .ok l.pts[l.pts.length - 1] := by
    have hb : back l.s = .ok (Ln.length l.pts) := by
      unfold back
      rw [List.getLast?_eq_getElem?, h.len, h.last]
    unfold pointAtS
    rw [if_neg (by omega), if_neg (not_le.2 hpl), hb, Res.ok_bind, if_pos le_rfl,
      show ((l.pts.length : Int) - 1) = ((l.pts.length - 1 : Nat) : Int) by omega, at'_nat hL]
  have k2 : l.pts.length - 2 < l.s.length := by rw [h.len]; omega
  have g1 : l.s[l.pts.length - 2]? = some l.s[l.pts.length - 2] := List.getElem?_eq_getElem k2
  have g2 : l.s[l.pts.length - 2 + 1]? = some (Ln.length l.pts) := by
    rw [show l.pts.length - 2 + 1 = l.pts.length - 1 by omega]; exact h.last
  have hei := lower_at h.inc g1 g2 (proper_lt h g1 g2 (by omega)) le_rfl
  have e0 : (1 - t) * s0 + t * s1 = s0 + t * (s1 - s0) := by ring
  have fin : ∀ k, k + 1 < l.pts.length → upperBound l.s ((1 - t) * s0 + t * s1) = k + 1 →
      ∃ r, lineFromSInterval l ((1 - t) * s0 + t * s1) (Ln.length l.pts) = .ok r ∧ r.pts = lerp p q t :: l.pts.drop (k + 1) := by
    intro k hk' hk
    unfold lineFromSInterval pointsInSInterval
    rw [hx, hend]
    dsimp only
    rw [hei, hk, if_neg (by omega)]
    simp only [Res.ok_bind]
    refine ⟨_, rfl, ?_⟩
    show ((List.foldl addPoint (addPoint empty (lerp p q t)) _).pts ++ [l.pts[l.pts.length - 1]]) = _
    rw [foldl_addPoint]
    show [lerp p q t] ++ _ ++ _ = _
    rw [List.append_assoc, List.singleton_append]
    congr 1
    have e1 : l.pts.length - 2 + 1 - (k + 1) = (l.pts.drop (k + 1)).length - 1 := by rw [List.length_drop]; omega
    have hne : l.pts.drop (k + 1) ≠ [] := by rw [← List.length_pos_iff, List.length_drop]; omega
    rw [e1, ← List.dropLast_eq_take]
    conv_rhs => rw [← List.dropLast_append_getLast hne]
    congr 2
    rw [List.getLast_eq_getElem, List.getElem_drop]
    congr 1
    rw [List.length_drop]; omega
  rcases eq_or_lt_of_le t1 with ht | ht
  · subst ht
    have hs : (1 - 1) * s0 + 1 * s1 = s1 := by ring
    have hi : i + 1 + 1 < l.pts.length := by
      by_contra g
      have e : i + 1 = l.pts.length - 1 := by omega
      have := h.last
      rw [← e, h1] at this; cases this
      rw [hs] at hpos; exact lt_irrefl _ hpos
    have k3 : i + 1 + 1 < l.s.length := by rw [h.len]; omega
    have hk : l.s[i + 1 + 1]? = some l.s[i + 1 + 1] := List.getElem?_eq_getElem k3
    obtain ⟨r, hr, hr'⟩ := fin (i + 1) hi (upper_at h.inc h1 hk (by rw [hs]) (by rw [hs]; exact proper_lt h h1 hk (by omega)))
    refine ⟨r, hr, Or.inr ?_⟩
    refine ⟨[], l.pts.drop (i + 1 + 1), hr', ?_⟩
    rw [lerp_one]
    show _ = q :: q :: _
    congr 1
    rw [List.drop_eq_getElem_cons hin, (List.getElem?_eq_some_iff.1 hq).2]
  · obtain ⟨r, hr, hr'⟩ := fin i hin (upper_at h.inc h0 h1 (by rw [e0]; exact le_add_of_nonneg_right (mul_nonneg t0 (by linarith)))
        (by rw [e0]; nlinarith))
    exact ⟨r, hr, Or.inl hr'⟩

theorem kept_spec {l : Line} (h : Proper l) {x : Pt} (hx : OnLine l.pts x) :
    ∃ (i : Nat) (p q : Pt) (t s0 s1 s : ℝ) (r : Line) (A : List Pt), l.pts[i]? = some p ∧ l.pts[i + 1]? = some q ∧
      l.s[i]? = some s0 ∧ l.s[i + 1]? = some s1 ∧ 0 ≤ t ∧ t ≤ 1 ∧ x = lerp p q t ∧ s = (1 - t) * s0 + t * s1 ∧
      nearestS l x = .ok s ∧ keptPart l s = .ok r ∧ Same x r.pts A ∧
      (10 * s < 3 * Ln.length l.pts → A = x :: l.pts.drop (i + 1)) ∧
      (10 * s > 7 * Ln.length l.pts → A = l.pts.take (i + 1) ++ [x]) ∧
      (3 * Ln.length l.pts ≤ 10 * s → 10 * s ≤ 7 * Ln.length l.pts → A = l.pts) := by
  have hpl : 0 < Ln.length l.pts := proper_lt h h.first h.last (by have := h.two; omega)
  obtain ⟨i, p, q, t, s0, s1, hp, hq, h0, h1, t0, t1, hxt, hs⟩ := nearestS_on h hx
  rcases lt_or_ge (10 * ((1 - t) * s0 + t * s1)) (3 * Ln.length l.pts) with g | g
  · obtain ⟨r, hr, hr'⟩ := interval_back h hp hq h0 h1 t0 t1 (by linarith)
    refine ⟨i, p, q, t, s0, s1, _, r, x :: l.pts.drop (i + 1), hp, hq, h0, h1, t0, t1, hxt, rfl, hs, ?_, by rw [hxt]; exact hr',
      fun _ => rfl, fun e => absurd g (by linarith), fun e => absurd g (not_lt.2 e)⟩
    unfold keptPart
    rw [if_pos (by rw [div_lt_iff₀ hpl]; linarith), hr]
  · rcases lt_or_ge (7 * Ln.length l.pts) (10 * ((1 - t) * s0 + t * s1)) with g' | g'
    · obtain ⟨r, hr, hr'⟩ := interval_front h hp hq h0 h1 t0 t1 (by linarith)
      refine ⟨i, p, q, t, s0, s1, _, r, l.pts.take (i + 1) ++ [x], hp, hq, h0, h1, t0, t1, hxt, rfl, hs, ?_, by rw [hxt]; exact hr',
        fun e => absurd g (not_le.2 e), fun _ => rfl, fun _ e => absurd g' (not_lt.2 e)⟩
      unfold keptPart
      rw [if_neg (by rw [div_lt_iff₀ hpl]; linarith), if_pos (by rw [gt_iff_lt, lt_div_iff₀ hpl]; linarith), hr]
    · refine ⟨i, p, q, t, s0, s1, _, l, l.pts, hp, hq, h0, h1, t0, t1, hxt, rfl, hs, ?_, Or.inl rfl,
        fun e => absurd g (not_le.2 e), fun e => absurd g' (not_le.2 e), fun _ _ => rfl⟩
      unfold keptPart
      rw [if_neg (by rw [div_lt_iff₀ hpl]; linarith), if_neg (by rw [gt_iff_lt, lt_div_iff₀ hpl]; linarith)]

theorem append_cross (inter : List Pt → List Pt → List Pt) (selfX : List Pt → Bool) (simp : List Pt → List Pt)
    {a b : Line} {x : Pt} {s1 s2 : ℝ} {r1 r2 : Line} {A B : List Pt} (hi : inter a.pts b.pts = [x])
    (h1 : nearestS a x = .ok s1) (h2 : nearestS b x = .ok s2) (k1 : keptPart a s1 = .ok r1) (k2 : keptPart b s2 = .ok r2)
    (e1 : Same x r1.pts A) (e2 : Same x r2.pts B) (hX : selfX (unique (A ++ B)) = false) :
    ∃ r, appendNoIntersect inter selfX simp a b = .ok r ∧ r.pts = unique (A ++ B) ∧ TableRight r := by
  have hu : unique (r1.pts ++ r2.pts) = unique (A ++ B) := by
    have u1 := same_unique e1 [] r2.pts
    have u2 := same_unique e2 A []
    simp only [List.nil_append, List.append_nil] at u1 u2
    rw [u1, u2]
  refine ⟨removeDuplicates (appendLinestring r1 r2), ?_, hu, tableRight_recompute _⟩
  unfold appendNoIntersect joined
  rw [hi]
  simp only [h1, h2, k1, k2, Res.ok_bind]
  have : (removeDuplicates (appendLinestring r1 r2)).pts = unique (A ++ B) := hu
  rw [this, hX]
  rfl

/-- **C79, lines that cross.** If the end of `l` and the start of `m` are strictly the closest pair of end points and the
lines meet in a single point `x`, each line is cut at `x` as in `Shortened` (the part outside of `x` is dropped if `x` is
in the first or last 30%), and the result consists of what is left of `l` followed by what is left of `m`, with repeated
neighbours dropped and a right table, unless that crosses itself. -/
theorem C79_crossing (inter : List Pt → List Pt → List Pt) (selfX : List Pt → Bool) (simp : List Pt → List Pt)
    {l m : Line} (hl : TableRight l) (hm : TableRight m) (l2 : 2 ≤ l.pts.length) (m2 : 2 ≤ m.pts.length)
    (ln : NoDup l.pts) (mn : NoDup m.pts) {f e f' e' x : Pt} (hf : l.pts.head? = some f) (he : l.pts.getLast? = some e)
    (hf' : m.pts.head? = some f') (he' : m.pts.getLast? = some e') (c1 : pdist e f' < pdist f f')
    (c2 : pdist e f' < pdist f e') (c3 : pdist e f' < pdist e e') (hi : inter l.pts m.pts = [x])
    (hxl : OnLine l.pts x) (hxm : OnLine m.pts x) :
    ∃ A B, Shortened l.pts x A ∧ Shortened m.pts x B ∧ (selfX (unique (A ++ B)) = false →
      ∃ r, concatenate inter selfX simp l m = .ok r ∧ r.pts = unique (A ++ B) ∧ TableRight r) := by
  obtain ⟨i, p, q, t, s0, s1, s, r, A, hp, hq, h0, h1, t0, t1, hxt, hs, hn, hk, hsame, ha, hb, hc⟩ :=
    kept_spec (proper_of_table hl l2 ln) hxl
  obtain ⟨i', p', q', t', s0', s1', s', r', A', hp', hq', h0', h1', t0', t1', hxt', hs', hn', hk', hsame', ha', hb', hc'⟩ :=
    kept_spec (proper_of_table hm m2 mn) hxm
  have arc : ∀ {l : Line} {i : Nat} {p q : Pt} {t s0 s1 s : ℝ}, TableRight l → l.pts[i]? = some p → l.pts[i + 1]? = some q →
      l.s[i]? = some s0 → l.s[i + 1]? = some s1 → s = (1 - t) * s0 + t * s1 →
      s = Ln.length (l.pts.take (i + 1)) + t * pdist p q := by
    intro l i p q t s0 s1 s hl hp hq h0 h1 hs
    rw [table_at hl hp] at h0
    rw [table_at hl hq, arc_step _ _ _ _ hp hq] at h1
    cases h0; cases h1
    rw [hs]; ring
  refine ⟨A, A', ⟨i, p, q, t, s, hp, hq, t0, t1, hxt, arc hl hp hq h0 h1 hs, ha, hb, hc⟩,
    ⟨i', p', q', t', s', hp', hq', t0', t1', hxt', arc hm hp' hq' h0' h1' hs', ha', hb', hc'⟩, fun hX => ?_⟩
  obtain ⟨a, b, ho, -, -, -, -, hdir⟩ := C79_concatenate inter selfX simp hf he hf' he'
  obtain ⟨rfl, rfl⟩ := hdir c1 c2 c3
  unfold concatenate
  rw [ho, Res.ok_bind]
  exact append_cross inter selfX simp hi hn hn' hk hk' hsame hsame' hX

theorem orient_reversed {l m a b : Line} (ho : concatOrient l m = .ok (a, b)) :
    (a = l ∨ a = reverse l) ∧ (b = m ∨ b = reverse m) := by
  unfold concatOrient at ho
  split at ho
  · dsimp only at ho
    split_ifs at ho <;> · cases ho; simp
  · cases ho

/-- **C79, lines that touch at their ends.** If of the lines, oriented so that the closest ends are joined, the first
ends where the second starts and they meet nowhere else (nor pass there before or after), the result consists of all
points of the first and then all points of the second, the common point once. -/
theorem C79_touching (inter : List Pt → List Pt → List Pt) (selfX : List Pt → Bool) (simp : List Pt → List Pt)
    {l m a b : Line} (hl : TableRight l) (hm : TableRight m) (l2 : 2 ≤ l.pts.length) (m2 : 2 ≤ m.pts.length)
    (ln : NoDup l.pts) (mn : NoDup m.pts) (ho : concatOrient l m = .ok (a, b)) {x : Pt} (hi : inter a.pts b.pts = [x])
    (hxa : a.pts.getLast? = some x) (hxb : b.pts.head? = some x) (ua : ∀ i, OnSeg a.pts i x → i + 2 = a.pts.length)
    (ub : ∀ i, OnSeg b.pts i x → i = 0) (hX : selfX (a.pts ++ b.pts.tail) = false) :
    ∃ r, concatenate inter selfX simp l m = .ok r ∧ r.pts = a.pts ++ b.pts.tail ∧ TableRight r := by
  have pa : Proper a := by
    rcases (orient_reversed ho).1 with rfl | rfl
    · exact proper_of_table hl l2 ln
    · exact proper_reverse (proper_of_table hl l2 ln)
  have pb : Proper b := by
    rcases (orient_reversed ho).2 with rfl | rfl
    · exact proper_of_table hm m2 mn
    · exact proper_reverse (proper_of_table hm m2 mn)
  have a2 := pa.two
  have b2 := pb.two
  have hpa : 0 < Ln.length a.pts := proper_lt pa pa.first pa.last (by omega)
  have hpb : 0 < Ln.length b.pts := proper_lt pb pb.first pb.last (by omega)
  rw [List.getLast?_eq_getElem?] at hxa
  rw [List.head?_eq_getElem?] at hxb
  have ga : a.pts[a.pts.length - 2]? = some a.pts[a.pts.length - 2] := List.getElem?_eq_getElem (by omega)
  have gb : b.pts[1]? = some b.pts[1] := List.getElem?_eq_getElem (by omega)
  obtain ⟨i, p, q, t, s0, s1, s, r, A, hp, hq, h0, h1, t0, t1, hxt, hs, hn, hk, hsame, -, ha, -⟩ :=
    kept_spec pa (x := x) ⟨a.pts.length - 2, _, x, 1, ga, by rw [show a.pts.length - 2 + 1 = a.pts.length - 1 by omega]; exact hxa,
      zero_le_one, le_rfl, by rw [lerp_one]⟩
  obtain ⟨i', p', q', t', s0', s1', s', r', A', hp', hq', h0', h1', t0', t1', hxt', hs', hn', hk', hsame', hb, -, -⟩ :=
    kept_spec pb (x := x) ⟨0, x, _, 0, hxb, gb, le_rfl, zero_le_one, by rw [lerp_zero]⟩
  have ei := ua i ⟨p, q, t, hp, hq, t0, t1, hxt⟩
  have ei' := ub i' ⟨p', q', t', hp', hq', t0', t1', hxt'⟩
  subst ei'
  have hqx : q = x := by
    rw [show i + 1 = a.pts.length - 1 by omega, hxa] at hq; exact (Option.some.inj hq).symm
  have hpx : p' = x := by rw [hxb] at hp'; exact (Option.some.inj hp').symm
  have ht : t = 1 := lerp_mem (noDup_seg pa.nd hp hq) (by rw [← hxt, lerp_one, hqx])
  have ht' : t' = 0 := lerp_mem (noDup_seg pb.nd hp' hq') (by rw [← hxt', lerp_zero, hpx])
  have es : s = Ln.length a.pts := by
    have := pa.last
    rw [show a.pts.length - 1 = i + 1 by omega, h1] at this
    cases this
    rw [hs, ht]; ring
  have es' : s' = 0 := by
    have := pb.first
    rw [h0'] at this
    cases this
    rw [hs', ht']; ring
  have hA : A = a.pts ++ [] ++ [] := by
    rw [ha (by rw [es]; linarith)]
    have : a.pts = a.pts.take (i + 1) ++ [x] := by
      conv_lhs => rw [← List.take_append_drop (i + 1) a.pts]
      congr 1
      have hlt : i + 1 < a.pts.length := by omega
      rw [List.drop_eq_getElem_cons hlt, (List.getElem?_eq_some_iff.1 hq).2, hqx, List.drop_of_length_le (by omega)]
    rw [← this]; simp
  have hB : A' = b.pts := by
    rw [hb (by rw [es']; linarith)]
    cases hbp : b.pts with
    | nil => rw [hbp] at b2; simp at b2
    | cons y tl => rw [hbp] at hxb; cases hxb; rfl
  simp only [List.append_nil] at hA
  have hU : unique (A ++ A') = a.pts ++ b.pts.tail := by
    rw [hA, hB]
    cases hbp : b.pts with
    | nil => rw [hbp] at b2; simp at b2
    | cons y tl =>
      rw [hbp] at hxb
      cases hxb
      obtain ⟨pre, hpre⟩ : ∃ pre, a.pts = pre ++ [x] := by
        rw [← List.getLast?_eq_getElem?, List.getLast?_eq_some_iff] at hxa; exact hxa
      rw [hpre, List.append_assoc]
      show unique (pre ++ x :: x :: tl) = _
      rw [unique_dup]
      show _ = pre ++ [x] ++ tl
      rw [List.append_assoc]
      refine unique_id ?_
      show NoDup (pre ++ x :: tl)
      have n1 := pa.nd
      have n2 := pb.nd
      rw [hpre] at n1
      rw [hbp] at n2
      unfold NoDup at *
      rw [List.isChain_split]
      exact ⟨n1, n2⟩
  unfold concatenate
  rw [ho, Res.ok_bind]
  obtain ⟨r, hr, hr', hr''⟩ := append_cross inter selfX simp hi hn hn' hk hk' hsame hsame' (by rw [hU]; exact hX)
  exact ⟨r, hr, by rw [hr', hU], hr''⟩

theorem noDup2 {a b : Pt} (h : a ≠ b) : NoDup [a, b] := List.isChain_cons_cons.2 ⟨h, List.IsChain.singleton _⟩

theorem pt_ne {a b c d : ℝ} (h : a ≠ c ∨ b ≠ d) : ((a, b) : Pt) ≠ (c, d) := by
  intro e
  rcases h with h | h
  · exact h (congrArg Prod.fst e)
  · exact h (congrArg Prod.snd e)

theorem pdist_lt {a b c d : Pt} (h : (a.1 - b.1) ^ 2 + (a.2 - b.2) ^ 2 < (c.1 - d.1) ^ 2 + (c.2 - d.2) ^ 2) : pdist a b < pdist c d := by
  unfold pdist
  refine Real.sqrt_lt_sqrt ?_ ?_
  · nlinarith [sq_nonneg (a.1 - b.1), sq_nonneg (a.2 - b.2)]
  · nlinarith [h]

theorem onSeg2 {a b x : Pt} {i : Nat} (h : OnSeg [a, b] i x) : i = 0 := by
  obtain ⟨p, q, t, -, hq, -⟩ := h
  have := (List.getElem?_eq_some_iff.1 hq).1
  simp at this; omega

/-- two lines crossing close to the end of the first and the start of the second -/
example (selfX : List Pt → Bool) (simp : List Pt → List Pt) :=
  C79_crossing (fun _ _ => [(9, 0)]) selfX simp (l := ofArray [(0, 0), (10, 0)]) (m := ofArray [(9, -1), (9, 10)]) (x := (9, 0))
    (tableRight_recompute _) (tableRight_recompute _) le_rfl le_rfl
    (noDup2 (pt_ne (Or.inl (by norm_num)))) (noDup2 (pt_ne (Or.inr (by norm_num)))) rfl rfl rfl rfl
    (pdist_lt (by norm_num)) (pdist_lt (by norm_num)) (pdist_lt (by norm_num)) rfl
    ⟨0, (0, 0), (10, 0), 9 / 10, rfl, rfl, by norm_num, by norm_num, by unfold lerp; norm_num⟩
    ⟨0, (9, -1), (9, 10), 1 / 11, rfl, rfl, by norm_num, by norm_num, by unfold lerp; norm_num⟩

/-- two lines starting at the same point: the first one is reversed -/
example (simp : List Pt → List Pt) : ∃ r, concatenate (fun _ _ => [((0 : ℝ), (0 : ℝ))]) (fun _ => false) simp
    (ofArray [(0, 0), (1, 0)]) (ofArray [(0, 0), (0, 2)]) = .ok r ∧ r.pts = [(1, 0), (0, 0), (0, 2)] := by
  have ho : concatOrient (ofArray [(0, 0), (1, 0)]) (ofArray [(0, 0), (0, 2)]) =
      .ok (reverse (ofArray [(0, 0), (1, 0)]), ofArray [(0, 0), (0, 2)]) := by
    show Except.ok (if pdist (0, 0) (0, 0) ≤ _ then _ else _) = _
    rw [if_pos]
    rw [pdist_self]
    exact le_min (pdist_nonneg _ _) (le_min (pdist_nonneg _ _) (pdist_nonneg _ _))
  obtain ⟨r, h1, h2, -⟩ := C79_touching (fun _ _ => [((0 : ℝ), (0 : ℝ))]) (fun _ => false) simp
    (l := ofArray [(0, 0), (1, 0)]) (m := ofArray [(0, 0), (0, 2)]) (tableRight_recompute _) (tableRight_recompute _) le_rfl le_rfl
    (noDup2 (pt_ne (Or.inl (by norm_num)))) (noDup2 (pt_ne (Or.inr (by norm_num)))) ho (x := (0, 0)) rfl rfl rfl
    (fun i h => by rw [onSeg2 (a := (1, 0)) (b := (0, 0)) h]; rfl) (fun i h => onSeg2 (a := (0, 0)) (b := (0, 2)) h) rfl
  exact ⟨r, h1, h2⟩

end Bark.Ln
