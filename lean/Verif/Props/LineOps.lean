import Verif.Model.LineOps
import Verif.Props.GoalLimits

/-! C77 (center line of two lines), C78 (signed distance), C79 (concatenation). -/
namespace Bark.Ln
open Bark Bark.Ln.Spec Real

/-- **C77.** For two lines of at least two points with right tables and no coinciding neighbours, the center
line has as many points as the longer list, its table is right, and each of its points is the middle between a
vertex `p` of the line with more points (the outer one on a tie) and a point `q` of the other line nearest to `p`. -/
theorem C77_center_line {o i : Line} (ho : TableRight o) (hi : TableRight i) (ho2 : 2 ≤ o.pts.length)
    (hi2 : 2 ≤ i.pts.length) (hon : NoDup o.pts) (hin : NoDup i.pts) :
    ∃ c more less : Line, computeCenterLine o i = .ok c ∧ TableRight c ∧
      (more = o ∧ less = i ∧ i.pts.length ≤ o.pts.length ∨ more = i ∧ less = o ∧ o.pts.length < i.pts.length) ∧
      c.pts.length = max o.pts.length i.pts.length ∧
      ∀ (k : Nat) p m, more.pts[k]? = some p → c.pts[k]? = some m → ∃ q, OnLine less.pts q ∧
        (∀ q', OnLine less.pts q' → dist2 p q ≤ dist2 p q') ∧ m = lerp p q (1 / 2) := by
  have key : ∀ more less : Line, TableRight less → 2 ≤ less.pts.length → NoDup less.pts → 2 ≤ more.pts.length →
      ∃ ps, more.pts.mapM (middle less) = .ok ps ∧ ps.length = more.pts.length ∧
        TableRight (ps.foldl addPoint empty) ∧
        ∀ (k : Nat) p m, more.pts[k]? = some p → ps[k]? = some m → ∃ q, OnLine less.pts q ∧
          (∀ q', OnLine less.pts q' → dist2 p q ≤ dist2 p q') ∧ m = lerp p q (1 / 2) := by
    intro more less h1 h2 h3 h4
    have each : ∀ p : Pt, ∃ q, middle less p = .ok ((p.1 + q.1) / 2, (p.2 + q.2) / 2) ∧ OnLine less.pts q ∧
        ∀ q', OnLine less.pts q' → dist2 p q ≤ dist2 p q' := by
      intro p
      obtain ⟨q, s, j, hn, ⟨k, a, b, t, e1, e2, e3, e4, e5, -⟩, hmin⟩ := C30_nearest_point h1 h2 h3 p
      refine ⟨q, ?_, ⟨k, a, b, t, e1, e2, e3, e4, e5⟩, hmin⟩
      unfold middle nearestPoint
      simp only [hn, Res.ok_bind]
    obtain ⟨ps, hps, hf⟩ := Goal.mapM_all (middle less) more.pts (fun p _ => by
      obtain ⟨q, hq, -⟩ := each p
      exact ⟨_, hq⟩)
    refine ⟨ps, hps, hf.length_eq.symm, ?_, ?_⟩
    · have hne : ps ≠ [] := by
        intro e
        have := hf.length_eq
        rw [e] at this
        simp at this
        rw [this] at h4
        simp at h4
      rw [← List.dropLast_append_getLast hne, List.foldl_append]
      exact tableRight_recompute _
    · intro k p m hp hm
      obtain ⟨q, hq, hon, hmin⟩ := each p
      refine ⟨q, hon, hmin, ?_⟩
      obtain ⟨k1, e1⟩ := List.getElem?_eq_some_iff.1 hp
      obtain ⟨k2, e2⟩ := List.getElem?_eq_some_iff.1 hm
      have := (List.forall₂_iff_get.1 hf).2 k k1 k2
      simp only [List.get_eq_getElem, e1, e2, hq] at this
      rw [← Except.ok.inj this]
      unfold lerp
      ext
      · simp only; ring
      · simp only; ring
  unfold computeCenterLine
  by_cases hlt : o.pts.length < i.pts.length
  · obtain ⟨ps, h1, h2, h3, h4⟩ := key i o ho ho2 hon hi2
    have hpts : (ps.foldl addPoint empty).pts = ps := by rw [foldl_addPoint]; rfl
    refine ⟨ps.foldl addPoint empty, i, o, ?_, h3, Or.inr ⟨rfl, rfl, hlt⟩, ?_, ?_⟩
    · simp only [if_pos hlt, h1, Res.ok_bind]
    · rw [hpts, h2, max_eq_right hlt.le]
    · rw [hpts]; exact h4
  · obtain ⟨ps, h1, h2, h3, h4⟩ := key o i hi hi2 hin ho2
    have hpts : (ps.foldl addPoint empty).pts = ps := by rw [foldl_addPoint]; rfl
    refine ⟨ps.foldl addPoint empty, o, i, ?_, h3, Or.inl ⟨rfl, rfl, not_lt.1 hlt⟩, ?_, ?_⟩
    · simp only [if_neg hlt, h1, Res.ok_bind]
    · rw [hpts, h2, max_eq_left (not_lt.1 hlt)]
    · rw [hpts]; exact h4

theorem onLine_cons {a : Pt} {l : List Pt} {q : Pt} (h : OnLine l q) : OnLine (a :: l) q := by
  obtain ⟨i, x, y, t, h1, h2, h3⟩ := h
  exact ⟨i + 1, x, y, t, by simpa using h1, by simpa using h2, h3⟩

theorem segDist2_attained (a b p : Pt) : ∃ t, 0 ≤ t ∧ t ≤ 1 ∧ segDist2 a b p = dist2 p (lerp a b t) := by
  unfold segDist2
  by_cases h1 : dot a b p ≤ 0
  · rw [if_pos h1]
    exact ⟨0, le_rfl, zero_le_one, by rw [lerp_zero]⟩
  · rw [if_neg h1]
    by_cases h2 : len2 a b ≤ dot a b p
    · rw [if_pos h2]
      exact ⟨1, zero_le_one, le_rfl, by rw [lerp_one]⟩
    · rw [if_neg h2]
      have hl : 0 < len2 a b := by linarith
      refine ⟨dot a b p / len2 a b, (div_pos (not_le.1 h1) hl).le, ?_, rfl⟩
      rw [div_le_one hl]; linarith

/-- `lineDist2` is the minimum of the squared distances to points of the line -/
theorem lineDist2_spec (p : Pt) : ∀ l : List Pt, 2 ≤ l.length →
    (∃ q, OnLine l q ∧ lineDist2 l p = dist2 p q) ∧ ∀ q, OnLine l q → lineDist2 l p ≤ dist2 p q
  | [], h => by simp at h
  | [_], h => by simp at h
  | [a, b], _ => by
    constructor
    · obtain ⟨t, h0, h1, e⟩ := segDist2_attained a b p
      exact ⟨_, ⟨0, a, b, t, rfl, rfl, h0, h1, rfl⟩, e⟩
    · rintro q ⟨i, x, y, t, hx, hy, h0, h1, rfl⟩
      have hi : i = 0 := by
        have := (List.getElem?_eq_some_iff.1 hy).1
        simp at this; omega
      subst hi
      simp at hx hy
      subst hx; subst hy
      exact segDist2_le _ _ _ h0 h1
  | a :: b :: c :: l, _ => by
    obtain ⟨⟨q, hq, he⟩, hmin⟩ := lineDist2_spec p (b :: c :: l) (by simp)
    have hdef : lineDist2 (a :: b :: c :: l) p = min (segDist2 a b p) (lineDist2 (b :: c :: l) p) := rfl
    constructor
    · rw [hdef]
      rcases le_total (segDist2 a b p) (lineDist2 (b :: c :: l) p) with h | h
      · rw [min_eq_left h]
        obtain ⟨t, h0, h1, e⟩ := segDist2_attained a b p
        exact ⟨_, ⟨0, a, b, t, rfl, rfl, h0, h1, rfl⟩, e⟩
      · rw [min_eq_right h]
        exact ⟨q, onLine_cons hq, he⟩
    · rintro q' ⟨i, x, y, t, hx, hy, h0, h1, rfl⟩
      rw [hdef]
      cases i with
      | zero =>
        simp at hx hy
        subst hx; subst hy
        exact (min_le_left _ _).trans (segDist2_le _ _ _ h0 h1)
      | succ i =>
        exact (min_le_right _ _).trans (hmin _ ⟨i, x, y, t, by simpa using hx, by simpa using hy, h0, h1, rfl⟩)

/-- **C78.** For a line of at least two points with a right table and no coinciding neighbours, the absolute value
of `SignedDistance` is the distance from `p` to a nearest point `q` of the line; it is positive iff `q` lies strictly to
the right of the viewing direction, negative if strictly to the left; ahead it is 0 and behind it is negative. -/
theorem C78_signed_distance {l : Line} (h : TableRight l) (h2 : 2 ≤ l.pts.length) (hnd : NoDup l.pts) (p : Pt) (θ : ℝ) :
    ∃ q r, OnLine l.pts q ∧ (∀ q', OnLine l.pts q' → dist2 p q ≤ dist2 p q') ∧ signedDistance id l p θ = .ok r ∧
      (q ≠ p → (0 < r ↔ 0 < sin θ * (q.1 - p.1) - cos θ * (q.2 - p.2))) ∧
      (0 > sin θ * (q.1 - p.1) - cos θ * (q.2 - p.2) → r < 0) ∧
      (r ≠ 0 → |r| = pdist p q) ∧ (q = p → r = 0) ∧
      (r = 0 → q = p ∨ HasDir (vec p q) θ) ∧
      (q ≠ p → sin θ * (q.1 - p.1) - cos θ * (q.2 - p.2) = 0 → ¬ HasDir (vec p q) θ → r = - pdist p q) := by
  obtain ⟨q, s, j, hn, ⟨k, a, b, t, e1, e2, e3, e4, e5, -⟩, hmin⟩ := C30_nearest_point h h2 hnd p
  have hon : OnLine l.pts q := ⟨k, a, b, t, e1, e2, e3, e4, e5⟩
  obtain ⟨⟨q0, hq0, he0⟩, hmin0⟩ := lineDist2_spec p l.pts h2
  have hd : lineDist2 l.pts p = dist2 p q := le_antisymm (hmin0 q hon) (he0 ▸ hmin q0 hq0)
  have hpd : Real.sqrt (lineDist2 l.pts p) = pdist p q := by rw [hd]; rfl
  have hcal : signedDistance id l p θ = .ok (pdist p q * (if Angle.signedAngleDiff id θ (Dyn.atan2 (q.2 - p.2) (q.1 - p.1)) > 0 then 1
      else if Angle.signedAngleDiff id θ (Dyn.atan2 (q.2 - p.2) (q.1 - p.1)) < 0 then -1 else 0)) := by
    unfold signedDistance nearestPoint
    simp only [hn, Res.ok_bind, hpd]
  refine ⟨q, _, hon, hmin, hcal, ?_⟩
  by_cases hqp : q = p
  · subst hqp
    simp [pdist_self]
  have hpos : 0 < pdist p q := lt_of_le_of_ne (pdist_nonneg _ _) (fun e => hqp (pdist_eq_zero.1 e.symm).symm)
  -- the angle between the viewing direction and the direction to `q`
  have hdir : HasDir (vec p q) (Dyn.atan2 (q.2 - p.2) (q.1 - p.1)) :=
    atan2_dir (q.1 - p.1) (q.2 - p.2) (fun e => hqp (by
      have c1 := congrArg Prod.fst e
      have c2 := congrArg Prod.snd e
      simp only at c1 c2
      exact Prod.ext (by linarith) (by linarith)))
  obtain ⟨c, hc, hv⟩ := hdir
  have v1 : q.1 - p.1 = c * cos (Dyn.atan2 (q.2 - p.2) (q.1 - p.1)) := congrArg Prod.fst hv
  have v2 : q.2 - p.2 = c * sin (Dyn.atan2 (q.2 - p.2) (q.1 - p.1)) := congrArg Prod.snd hv
  obtain ⟨b1, b2, ⟨m, hm⟩, -⟩ := Angle.C31_signed_difference θ (Dyn.atan2 (q.2 - p.2) (q.1 - p.1))
  set φ := Dyn.atan2 (q.2 - p.2) (q.1 - p.1)
  set δ := Angle.signedAngleDiff id θ φ
  have hsin : sin θ * (q.1 - p.1) - cos θ * (q.2 - p.2) = c * sin δ := by
    rw [v1, v2, hm, show θ - φ + 2 * π * (m : ℝ) = θ - φ + m * (2 * π) by ring, sin_add_int_mul_two_pi, sin_sub]
    ring
  have hahead : HasDir (vec p q) θ ↔ δ = 0 := by
    constructor
    · rintro ⟨c', hc', hv'⟩
      have w1 : q.1 - p.1 = c' * cos θ := congrArg Prod.fst hv'
      have w2 : q.2 - p.2 = c' * sin θ := congrArg Prod.snd hv'
      have hs0 : sin δ = 0 := by
        have : c * sin δ = 0 := by rw [← hsin, w1, w2]; ring
        rcases mul_eq_zero.1 this with h | h
        · exact absurd h hc.ne'
        · exact h
      by_contra hne
      have hδ : δ = -π := by
        by_contra hne2
        rcases lt_or_gt_of_ne hne with h | h
        · have : -π < δ := lt_of_le_of_ne b1 (Ne.symm hne2)
          exact absurd hs0 (sin_neg_of_neg_of_neg_pi_lt h this).ne
        · exact absurd hs0 (sin_pos_of_pos_of_lt_pi h b2).ne'
      -- then the direction to `q` is opposite
      have hcos : cos δ = -1 := by rw [hδ, cos_neg, cos_pi]
      have h3 : cos θ * (q.1 - p.1) + sin θ * (q.2 - p.2) = c * cos δ := by
        rw [v1, v2, hm, show θ - φ + 2 * π * (m : ℝ) = θ - φ + m * (2 * π) by ring, cos_add_int_mul_two_pi, cos_sub]
        ring
      rw [w1, w2, hcos] at h3
      have := sin_sq_add_cos_sq θ
      have : c' = -c := by linear_combination h3 - c' * this
      linarith
    · intro h0
      refine ⟨c, hc, ?_⟩
      have hφ : φ = θ + m * (2 * π) := by
        rw [h0] at hm; linarith
      refine Prod.ext ?_ ?_
      · show q.1 - p.1 = c * cos θ
        rw [v1, hφ, cos_add_int_mul_two_pi]
      · show q.2 - p.2 = c * sin θ
        rw [v2, hφ, sin_add_int_mul_two_pi]
  rw [hahead, hsin]
  have s1 : 0 < δ → 0 < sin δ := fun h => sin_pos_of_pos_of_lt_pi h b2
  have s2 : δ < 0 → sin δ ≤ 0 := fun h => sin_nonpos_of_nonpos_of_neg_pi_le h.le b1
  rcases lt_trichotomy δ 0 with hlt | h0 | hgt
  · rw [if_neg (by linarith), if_pos hlt]
    have hs := s2 hlt
    refine ⟨fun _ => ⟨fun hh => by linarith, fun hh => ?_⟩, fun _ => by linarith, fun _ => ?_, fun e => absurd e hqp, fun e => ?_, fun _ _ _ => by ring⟩
    · have := mul_nonpos_of_nonneg_of_nonpos hc.le hs
      linarith
    · rw [mul_neg_one, abs_neg, abs_of_pos hpos]
    · linarith
  · rw [h0]
    simp
  · rw [if_pos hgt]
    have hs := s1 hgt
    have hcs := mul_pos hc hs
    refine ⟨fun _ => ⟨fun _ => hcs, fun _ => by linarith⟩, fun h => by linarith, fun _ => ?_, fun e => absurd e hqp, fun e => ?_, fun _ h => by linarith⟩
    · rw [mul_one, abs_of_pos hpos]
    · linarith


/-! ### concatenation -/

theorem reverse_ends (l : Line) : (reverse l).pts.head? = l.pts.getLast? ∧ (reverse l).pts.getLast? = l.pts.head? := by
  unfold reverse
  constructor
  · rw [List.head?_reverse]
  · rw [List.getLast?_reverse]

/-- **C79.** Concatenating two non-empty lines takes each line as it is or reversed, so that the end of
the first and the start of the second are a closest pair among the four pairs of end points; if the lines do not cross
in exactly one point and the result does not cross itself, the result consists of all points of the first and then all
points of the second (repeated neighbours dropped) and its table is right; and if end of `l` to start of `m` is
strictly the closest pair, nothing is reversed. -/
theorem C79_concatenate (inter : List Pt → List Pt → List Pt) (selfX : List Pt → Bool) (simp : List Pt → List Pt)
    {l m : Line} {f e f' e' : Pt} (hf : l.pts.head? = some f) (he : l.pts.getLast? = some e)
    (hf' : m.pts.head? = some f') (he' : m.pts.getLast? = some e') :
    ∃ a b : Line, concatOrient l m = .ok (a, b) ∧ (a.pts = l.pts ∨ a.pts = l.pts.reverse) ∧
      (b.pts = m.pts ∨ b.pts = m.pts.reverse) ∧
      (∃ x y, a.pts.getLast? = some x ∧ b.pts.head? = some y ∧ pdist x y ≤ pdist f f' ∧ pdist x y ≤ pdist f e' ∧
        pdist x y ≤ pdist e f' ∧ pdist x y ≤ pdist e e') ∧
      ((inter a.pts b.pts).length ≠ 1 → selfX (unique (a.pts ++ b.pts)) = false →
        ∃ r, concatenate inter selfX simp l m = .ok r ∧ r.pts = unique (a.pts ++ b.pts) ∧ TableRight r) ∧
      (pdist e f' < pdist f f' → pdist e f' < pdist f e' → pdist e f' < pdist e e' → a = l ∧ b = m) := by
  have hfin : ∀ a b : Line, concatOrient l m = .ok (a, b) → (inter a.pts b.pts).length ≠ 1 →
      selfX (unique (a.pts ++ b.pts)) = false →
      ∃ r, concatenate inter selfX simp l m = .ok r ∧ r.pts = unique (a.pts ++ b.pts) ∧ TableRight r := by
    intro a b ho hx hs
    have hj : joined inter a b = .ok (appendLinestring a b) := by
      unfold joined
      split
      · next h => rw [h] at hx; exact absurd rfl hx
      · rfl
    refine ⟨removeDuplicates (appendLinestring a b), ?_, rfl, tableRight_recompute _⟩
    unfold concatenate appendNoIntersect
    simp only [ho, hj, Res.ok_bind]
    have : selfX (removeDuplicates (appendLinestring a b)).pts = false := hs
    rw [this]; simp
  obtain ⟨r1, r2⟩ := reverse_ends l
  obtain ⟨s1, s2⟩ := reverse_ends m
  have hor : concatOrient l m = .ok (if pdist f f' ≤ min (pdist f e') (min (pdist e f') (pdist e e')) then (reverse l, m)
      else if pdist f e' ≤ min (pdist f f') (min (pdist e f') (pdist e e')) then (reverse l, reverse m)
      else if pdist e f' ≤ min (pdist f f') (min (pdist f e') (pdist e e')) then (l, m)
      else (l, reverse m)) := by
    unfold concatOrient
    rw [hf, he, hf', he']
  rw [hor]
  rw [hor] at hfin
  by_cases c1 : pdist f f' ≤ min (pdist f e') (min (pdist e f') (pdist e e'))
  · rw [if_pos c1] at hfin ⊢
    simp only [le_min_iff] at c1
    refine ⟨_, _, rfl, Or.inr rfl, Or.inl rfl, ⟨f, f', by rw [r2, hf], hf', le_rfl, c1.1, c1.2.1, c1.2.2⟩, hfin _ _ rfl, ?_⟩
    intro h1 _ _; linarith [c1.2.1]
  · rw [if_neg c1] at hfin ⊢
    by_cases c2 : pdist f e' ≤ min (pdist f f') (min (pdist e f') (pdist e e'))
    · rw [if_pos c2] at hfin ⊢
      simp only [le_min_iff] at c2
      refine ⟨_, _, rfl, Or.inr rfl, Or.inr rfl, ⟨f, e', by rw [r2, hf], by rw [s1, he'], c2.1, le_rfl, c2.2.1, c2.2.2⟩, hfin _ _ rfl, ?_⟩
      intro _ h1 _; linarith [c2.2.1]
    · rw [if_neg c2] at hfin ⊢
      by_cases c3 : pdist e f' ≤ min (pdist f f') (min (pdist f e') (pdist e e'))
      · rw [if_pos c3] at hfin ⊢
        simp only [le_min_iff] at c3
        exact ⟨_, _, rfl, Or.inl rfl, Or.inl rfl, ⟨e, f', he, hf', c3.1, c3.2.1, le_rfl, c3.2.2⟩, hfin _ _ rfl, fun _ _ _ => ⟨rfl, rfl⟩⟩
      · rw [if_neg c3] at hfin ⊢
        simp only [le_min_iff, not_and_or, not_le] at c1 c2 c3
        have hmin : pdist e e' ≤ pdist f f' ∧ pdist e e' ≤ pdist f e' ∧ pdist e e' ≤ pdist e f' := by
          rcases c1 with c1 | c1 | c1 <;> rcases c2 with c2 | c2 | c2 <;> rcases c3 with c3 | c3 | c3 <;>
            refine ⟨?_, ?_, ?_⟩ <;> linarith
        refine ⟨_, _, rfl, Or.inl rfl, Or.inr rfl, ⟨e, e', he, by rw [s1, he'], hmin.1, hmin.2.1, hmin.2.2, le_rfl⟩, hfin _ _ rfl, ?_⟩
        intro _ _ h; linarith [hmin.2.2]

/-- **C79 violated on a ring**: if `l` leads from `x` to `y` and `m` from `y` back to `x`, both lines are reversed, so
that the concatenation runs against the direction of both. -/
theorem C79_ring_violated {l m : Line} {x y : Pt} (hxy : x ≠ y) (hf : l.pts.head? = some x) (he : l.pts.getLast? = some y)
    (hf' : m.pts.head? = some y) (he' : m.pts.getLast? = some x) :
    concatOrient l m = .ok (reverse l, reverse m) := by
  have hp : 0 < pdist x y := lt_of_le_of_ne (pdist_nonneg _ _) (fun e => hxy (pdist_eq_zero.1 e.symm))
  have hp' : 0 < pdist y x := by rw [pdist_comm]; exact hp
  unfold concatOrient
  rw [hf, he, hf', he']
  simp only [pdist_self]
  congr 1
  rw [if_neg, if_pos]
  · simp [hp.le, hp'.le]
  · simp only [le_min_iff, not_and_or, not_le]
    exact Or.inl hp

example : concatOrient (ofArray [(0, 0), (1, 1), (2, 0)]) (ofArray [(2, 0), (1, -1), (0, 0)]) =
    .ok (reverse (ofArray [(0, 0), (1, 1), (2, 0)]), reverse (ofArray [(2, 0), (1, -1), (0, 0)])) :=
  C79_ring_violated (x := (0, 0)) (y := (2, 0)) (by intro e; have := congrArg Prod.fst e; norm_num at this) rfl rfl rfl rfl

/-- **C79**: an empty line is undefined behaviour. -/
theorem C79_empty (inter : List Pt → List Pt → List Pt) (selfX : List Pt → Bool) (simp : List Pt → List Pt)
    (l m : Line) (h : l.pts = [] ∨ m.pts = []) : concatenate inter selfX simp l m = .error .ub := by
  unfold concatenate concatOrient
  rcases h with h | h
  · rw [h]; rfl
  · rw [h]
    cases l.pts.head? <;> cases l.pts.getLast? <;> rfl

end Bark.Ln
