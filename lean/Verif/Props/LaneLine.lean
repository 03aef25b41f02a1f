import Verif.Spec.LaneLine
import Verif.Props.Line
import Verif.Props.PlanView
import Mathlib.Data.List.Forall2

/-!
C157: boundaries of lanes.
-/
namespace Bark.LaneLine
open Real Bark.Ln Bark.PV Bark.Ln.Spec

theorem arcsin_one_eq : arcsin 1 = π / 2 := arcsin_one

theorem sign_eq (id : Int) : -sign id = Spec.outward id := by
  unfold sign Spec.outward
  split_ifs <;> simp

theorem polynom_eq (x : ℝ) (o : Cubic) : polynom x o = Spec.widthAt o x := by
  unfold polynom Spec.widthAt; ring

theorem moved_segNormal {a b : Pt} (h : a ≠ b) (v : Pt) (k : ℝ) : Spec.BesideSegment a b v k (moved v (segNormal a b) k) := by
  obtain ⟨h1, h2⟩ := segAngle_unit h
  unfold Spec.BesideSegment moved segNormal
  rw [arcsin_one_eq, cos_add_pi_div_two, sin_add_pi_div_two, h1, h2]
  ext <;> simp; ring

theorem movedAfter_spec (k : ℝ) : ∀ (ps : List Pt), NoDup ps →
    (movedAfter k ps).length = ps.length - 1 ∧
    ∀ (i : Nat) (a b : Pt), ps[i]? = some a → ps[i + 1]? = some b →
      ∃ q, (movedAfter k ps)[i]? = some q ∧ Spec.BesideSegment a b b k q := by
  intro ps
  induction ps with
  | nil => intro _; simp [movedAfter]
  | cons p ps ih =>
    intro hnd
    cases ps with
    | nil => simp [movedAfter]
    | cons q ps =>
      have hnd' : NoDup (q :: ps) := by
        unfold NoDup at hnd ⊢; exact (List.isChain_cons_cons.1 hnd).2
      have hpq : p ≠ q := (List.isChain_cons_cons.1 hnd).1
      obtain ⟨h1, h2⟩ := ih hnd'
      constructor
      · simp only [movedAfter, List.length_cons] at h1 ⊢
        omega
      · intro i a b ha hb
        cases i with
        | zero =>
          simp only [List.getElem?_cons_zero, Option.some.injEq, List.getElem?_cons_succ] at ha hb
          subst ha; subst hb
          exact ⟨_, rfl, moved_segNormal hpq _ _⟩
        | succ i =>
          simp only [List.getElem?_cons_succ] at ha hb
          obtain ⟨x, hx, hB⟩ := h2 i a b ha (by simpa using hb)
          exact ⟨x, by simp only [movedAfter, List.getElem?_cons_succ]; exact hx, hB⟩

/-- C157: with a constant width from the beginning to (about) the end of the inner line, the lane's line has a point for
every point of the inner line, outwards at the width, perpendicular to the segment that leads there (for the first point:
that leads away) -/
theorem C157_constant (fuel : ℕ) (l : Line) (hnd : NoDup l.pts) (id : Int) (w : Width) (sInc : ℝ)
    (hb : w.off.b = 0) (hc : w.off.c = 0) (hd : w.off.d = 0) (h2 : 1 < l.pts.length) (h0 : w.s0 = 0)
    (h1 : Ln.length l.pts - 1 < w.s1) :
    ∃ qs, offsetPoints fuel l id w sInc = .ok qs ∧ qs.length = l.pts.length ∧
      (∀ a b, l.pts[0]? = some a → l.pts[1]? = some b →
        ∃ q, qs[0]? = some q ∧ Spec.BesideSegment a b a (Spec.outward id * w.off.a) q) ∧
      ∀ (i : Nat) (a b : Pt), l.pts[i]? = some a → l.pts[i + 1]? = some b →
        ∃ q, qs[i + 1]? = some q ∧ Spec.BesideSegment a b b (Spec.outward id * w.off.a) q := by
  have hend : |endOf l w - w.s0 - Ln.length l.pts| < 1 := by
    unfold endOf
    rw [h0]
    split_ifs with h
    · simp
    · rw [abs_lt]; constructor <;> linarith
  refine ⟨constantLine (-sign id * w.off.a) l.pts, ?_, ?_⟩
  · unfold offsetPoints
    rw [if_pos ⟨hb, hc, hd, h2, h0, hend⟩]
  · rw [sign_eq]
    obtain ⟨m1, m2⟩ := movedAfter_spec (Spec.outward id * w.off.a) l.pts hnd
    generalize l.pts = ps at *
    match ps, h2 with
    | p :: q :: ps, _ =>
      have hpq : p ≠ q := (List.isChain_cons_cons.1 hnd).1
      refine ⟨?_, ?_, ?_⟩
      · simp only [constantLine, List.length_cons] at m1 ⊢
        omega
      · intro a b ha hb'
        simp only [List.getElem?_cons_zero, Option.some.injEq, List.getElem?_cons_succ] at ha hb'
        subst ha; subst hb'
        exact ⟨_, rfl, moved_segNormal hpq _ _⟩
      · intro i a b ha hb'
        obtain ⟨x, hx, hB⟩ := m2 i a b ha hb'
        exact ⟨x, by simp only [constantLine, List.getElem?_cons_succ]; exact hx, hB⟩

/-- the distance of a point beside a line to the point of the line is the width -/
theorem beside_dist (l : Line) (s d : ℝ) (q : Pt) (h : Spec.BesideAt l s d q) :
    ∃ p, AtArc l.pts s p ∧ pdist p q = |d| := by
  obtain ⟨p, θ, hp, -, rfl⟩ := h
  refine ⟨p, hp, ?_⟩
  unfold pdist
  rw [← Real.sqrt_sq_eq_abs]
  congr 1
  have := sin_sq_add_cos_sq θ
  simp only
  linear_combination d ^ 2 * this

theorem samplePoint_spec {l : Line} (h : TableRight l) (h2 : 2 ≤ l.pts.length) (hnd : NoDup l.pts) (id : Int) (w : Width)
    {s : ℝ} (h0 : 0 ≤ s) (hL : s ≤ Ln.length l.pts) :
    ∃ q, samplePoint l id w s = .ok q ∧ Spec.BesideAt l s (Spec.outward id * Spec.widthAt w.off (s - w.s0)) q := by
  obtain ⟨p, hp, hA⟩ := pointAtS_atArc h h2 h0 hL
  obtain ⟨θ, hθ, -⟩ := C61_tangent h h2 hnd s
  have hn : Goal.normalAtS l s = .ok (-sin θ, cos θ) := by
    unfold Goal.normalAtS
    rw [hθ]
    show Except.ok (cos (θ + π / 2), sin (θ + π / 2)) = _
    rw [cos_add_pi_div_two, sin_add_pi_div_two]
  refine ⟨_, ?_, p, θ, hA, hθ, rfl⟩
  unfold samplePoint
  rw [hp, hn]
  show Except.ok (moved p (-sin θ, cos θ) (-sign id * polynom (s - w.s0) w.off)) = _
  rw [sign_eq, polynom_eq]
  unfold moved
  simp only
  congr 2
  ring

theorem mapM_forall₂ {α β : Type} (f : α → Res β) (R : α → β → Prop) :
    ∀ (l : List α), (∀ a ∈ l, ∃ b, f a = .ok b ∧ R a b) → ∃ bs, l.mapM f = .ok bs ∧ List.Forall₂ R l bs := by
  intro l
  induction l with
  | nil => intro _; exact ⟨[], rfl, .nil⟩
  | cons a l ih =>
    intro h
    obtain ⟨b, hb, hR⟩ := h a List.mem_cons_self
    obtain ⟨bs, hbs, hRs⟩ := ih fun x hx => h x (List.mem_cons_of_mem _ hx)
    refine ⟨b :: bs, ?_, .cons hR hRs⟩
    rw [List.mapM_cons, hb, hbs]; rfl

theorem covers_range {a b inc : ℝ} {ss : List ℝ} (h : Spec.Covers a b inc ss) : ∀ s ∈ ss, a ≤ s ∧ s ≤ b := by
  obtain ⟨h1, h2, h3⟩ := h
  have up : ∀ (i j : Nat) (x y : ℝ), i ≤ j → ss[i]? = some x → ss[j]? = some y → x ≤ y := by
    intro i j
    induction j with
    | zero =>
      intro x y hij hx hy
      obtain rfl : i = 0 := by omega
      rw [hx] at hy; cases hy; exact le_rfl
    | succ j ih =>
      intro x y hij hx hy
      rcases Nat.lt_or_ge i (j + 1) with g | g
      · have hj : j < ss.length := by
          have := (List.getElem?_eq_some_iff.1 hy).1; omega
        have e := List.getElem?_eq_getElem hj
        have := ih x _ (by omega) hx e
        have := (h3 j _ _ e hy).1
        linarith
      · obtain rfl : i = j + 1 := by omega
        rw [hx] at hy; cases hy; exact le_rfl
  intro s hs
  obtain ⟨i, hi, rfl⟩ := List.getElem_of_mem hs
  have e := List.getElem?_eq_getElem hi
  rw [List.head?_eq_getElem?] at h1
  rw [List.getLast?_eq_getElem?] at h2
  exact ⟨up 0 i _ _ (by omega) h1 e, up i _ _ _ (by omega) e h2⟩

open Classical in
/-- C157: in all other cases the lane's line has points outwards of the inner line at the width that the polynomial gives
at the distance from the beginning of the record, from the beginning to the end of the record (or of the inner line), in
steps of at most the given size -/
theorem C157_sampled (l : Line) (h : TableRight l) (h2 : 2 ≤ l.pts.length) (hnd : NoDup l.pts) (id : Int) (w : Width)
    (sInc : ℝ) (hi : 0 < sInc) (h0 : 0 ≤ w.s0) (hs : w.s0 ≤ min w.s1 (Ln.length l.pts))
    (hcase : w.off.b ≠ 0 ∨ w.off.c ≠ 0 ∨ w.off.d ≠ 0 ∨ w.s0 ≠ 0 ∨ w.s1 ≤ Ln.length l.pts - 1) :
    ∃ n, ∀ fuel, n ≤ fuel → ∃ ss qs, offsetPoints fuel l id w sInc = .ok qs ∧
      Spec.Covers w.s0 (min w.s1 (Ln.length l.pts)) sInc ss ∧
      List.Forall₂ (fun s q => Spec.BesideAt l s (Spec.outward id * Spec.widthAt w.off (s - w.s0)) q) ss qs := by
  have he : endOf l w = min w.s1 (Ln.length l.pts) := by
    unfold endOf
    split_ifs with g
    · rw [min_eq_right (le_of_lt g)]
    · rw [min_eq_left (not_lt.1 g)]
  obtain ⟨k, hk⟩ := exists_nat_gt ((min w.s1 (Ln.length l.pts) - w.s0) / sInc)
  have hk' : min w.s1 (Ln.length l.pts) - w.s0 ≤ k * sInc := by
    rw [div_lt_iff₀ hi] at hk
    exact hk.le
  obtain ⟨n, ss, g1, g2, g3, g4⟩ := sampleLoop_ok k w.s0 sInc hi hs hk'
  have hcov : Spec.Covers w.s0 (min w.s1 (Ln.length l.pts)) sInc ss := ⟨g2, g3, g4⟩
  refine ⟨n, fun fuel hf => ?_⟩
  obtain ⟨qs, e1, e2⟩ := mapM_forall₂ (samplePoint l id w)
    (fun s q => Spec.BesideAt l s (Spec.outward id * Spec.widthAt w.off (s - w.s0)) q) ss (fun s hs' => by
      obtain ⟨a, b⟩ := covers_range hcov s hs'
      exact samplePoint_spec h h2 hnd id w (h0.trans a) (b.trans (min_le_right _ _)))
  refine ⟨ss, qs, ?_, hcov, e2⟩
  unfold offsetPoints
  rw [if_neg, he, sampleLoop_fuel n w.s0 sInc ss g1 fuel hf]
  · exact e1
  · rintro ⟨c1, c2, c3, -, c5, c6⟩
    rcases hcase with g | g | g | g | g
    · exact g c1
    · exact g c2
    · exact g c3
    · exact g c5
    · rw [he, c5, min_eq_left (by linarith)] at c6
      have := (abs_lt.1 c6).1
      linarith

/-- C157: the line appended to the lane: the inner line is simplified without duplicates first, and so is the new line -/
theorem C157_append (simp : List Pt → List Pt) (fuel : ℕ) (line prev : Line) (id : Int) (w : Width) (sInc : ℝ) (m : Line)
    (h : append simp fuel line prev id w sInc = .ok m) :
    ∃ l qs, TableRight l ∧ l.pts = simp (unique prev.pts) ∧ offsetPoints fuel l id w sInc = .ok qs ∧
      m.pts = line.pts ++ simp qs ∧ TableRight m := by
  unfold append offsetLine at h
  cases hq : offsetPoints fuel (simplify simp { prev with pts := unique prev.pts }) id w sInc with
  | error e => rw [hq] at h; cases h
  | ok qs =>
    rw [hq] at h
    have h' : appendLinestring line (simplify simp (qs.foldl addPoint Ln.empty)) = m := by
      injection h
    refine ⟨_, qs, tableRight_recompute _, rfl, hq, ?_, ?_⟩
    · rw [← h']
      show line.pts ++ simp (qs.foldl addPoint Ln.empty).pts = _
      rw [foldl_addPoint]; rfl
    · rw [← h']; exact tableRight_recompute _

/-- straight line from (0,0) to (10,0) -/
noncomputable def straight : Line := ofArray [(0, 0), (10, 0)]

theorem straight_pts : straight.pts = [(0, 0), (10, 0)] := rfl

theorem straight_length : Ln.length straight.pts = 10 := by
  rw [straight_pts]
  simp only [Ln.length, pdist]
  norm_num
  rw [show (100 : ℝ) = 10 ^ 2 by norm_num, Real.sqrt_sq (by norm_num)]

theorem straight_noDup : NoDup straight.pts := by
  rw [straight_pts]; unfold NoDup; simp

theorem unit_straight : unit (0, 0) (10, 0) = (1, 0) := by
  unfold unit
  have e : pdist (0, 0) (10, 0) = 10 := by
    unfold pdist; norm_num
    rw [show (100 : ℝ) = 10 ^ 2 by norm_num, Real.sqrt_sq (by norm_num)]
  rw [e]; norm_num

theorem constant_straight (fuel : ℕ) (id : Int) (a e : ℝ) (he : 9 < e) :
    offsetPoints fuel straight id ⟨0, e, ⟨a, 0, 0, 0⟩⟩ 0.2 =
      .ok [(0, Spec.outward id * a), (10, Spec.outward id * a)] := by
  obtain ⟨qs, h1, h2, h3, h4⟩ := C157_constant fuel straight straight_noDup id ⟨0, e, ⟨a, 0, 0, 0⟩⟩ 0.2 rfl rfl rfl
    (by rw [straight_pts]; simp) rfl (by rw [straight_length]; show (10 : ℝ) - 1 < e; linarith)
  obtain ⟨q0, e0, b0⟩ := h3 (0, 0) (10, 0) rfl rfl
  obtain ⟨q1, e1, b1⟩ := h4 0 (0, 0) (10, 0) rfl rfl
  rw [h1]
  have hl : qs.length = 2 := h2
  match qs, hl with
  | [x, y], _ =>
    simp only [List.getElem?_cons_zero, Option.some.injEq] at e0
    simp only [List.getElem?_cons_succ, List.getElem?_cons_zero, Option.some.injEq] at e1
    subst e0; subst e1
    unfold Spec.BesideSegment at b0 b1
    rw [unit_straight] at b0 b1
    rw [b0, b1]; simp

/-- C157: the first of several constant records may end up to a meter before the end of the inner line and is drawn to
that end nevertheless: a record that ends at 9.5 has its last point beside arc length 10 -/
theorem C157_overrun_violated (fuel : ℕ) :
    offsetPoints fuel straight 1 ⟨0, 9.5, ⟨3, 0, 0, 0⟩⟩ 0.2 = .ok [(0, 3), (10, 3)] := by
  rw [constant_straight fuel 1 3 9.5 (by norm_num)]
  norm_num [Spec.outward]

/-- the hypotheses of `C157_sampled` are satisfiable: a lane on the right that widens from 2 to 4 -/
example : ∃ n, ∀ fuel, n ≤ fuel → ∃ ss qs, offsetPoints fuel straight (-2) ⟨0, 10, ⟨2, 0.2, 0, 0⟩⟩ 0.2 = .ok qs ∧
    Spec.Covers 0 (min 10 (Ln.length straight.pts)) 0.2 ss ∧
    List.Forall₂ (fun s q => Spec.BesideAt straight s (Spec.outward (-2) * Spec.widthAt ⟨2, 0.2, 0, 0⟩ (s - 0)) q) ss qs :=
  C157_sampled straight (tableRight_recompute _) (by rw [straight_pts]; simp) straight_noDup (-2) ⟨0, 10, ⟨2, 0.2, 0, 0⟩⟩ 0.2
    (by norm_num) le_rfl (by rw [straight_length]; norm_num) (Or.inl (by norm_num))

end Bark.LaneLine
