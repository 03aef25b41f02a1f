import Verif.Spec.Line
import Verif.Lemmas.World
import Mathlib.Tactic.Linarith
import Mathlib.Tactic.Ring
import Mathlib.Tactic.FieldSimp
import Mathlib.Tactic.NormNum
import Mathlib.Analysis.SpecialFunctions.Complex.Arg

/-!
C28–C30, C61, C62 – polylines.
-/
namespace Bark.Ln
open Spec

theorem pdist_eq_norm (a b : Pt) : pdist a b = dist (⟨a.1, a.2⟩ : ℂ) ⟨b.1, b.2⟩ := by
  rw [Complex.dist_eq, Complex.norm_def]
  unfold pdist
  simp [Complex.normSq_apply]

theorem pdist_comm (a b : Pt) : pdist a b = pdist b a := by
  rw [pdist_eq_norm, pdist_eq_norm, dist_comm]

theorem pdist_self (a : Pt) : pdist a a = 0 := by rw [pdist_eq_norm, dist_self]

theorem pdist_nonneg (a b : Pt) : 0 ≤ pdist a b := Real.sqrt_nonneg _

theorem pdist_triangle (a b c : Pt) : pdist a c ≤ pdist a b + pdist b c := by
  rw [pdist_eq_norm, pdist_eq_norm, pdist_eq_norm]; exact dist_triangle _ _ _

theorem pdist_eq_zero {a b : Pt} : pdist a b = 0 ↔ a = b := by
  rw [pdist_eq_norm, dist_eq_zero, Complex.ext_iff, Prod.ext_iff]

theorem pdist_lerp (a b : Pt) (t u : ℝ) : pdist (lerp a b t) (lerp a b u) = |t - u| * pdist a b := by
  unfold pdist lerp
  rw [← Real.sqrt_sq_eq_abs, ← Real.sqrt_mul (sq_nonneg _)]
  congr 1
  ring

theorem lerp_zero (a b : Pt) : lerp a b 0 = a := by simp [lerp]
theorem lerp_one (a b : Pt) : lerp a b 1 = b := by simp [lerp]

theorem length_cons_cons (a b : Pt) (l : List Pt) : length (a :: b :: l) = pdist a b + length (b :: l) := rfl

theorem length_nonneg : ∀ l : List Pt, 0 ≤ length l
  | [] => le_rfl
  | [_] => le_rfl
  | a :: b :: l => add_nonneg (pdist_nonneg a b) (length_nonneg (b :: l))

theorem arc_zero (a : Pt) (l : List Pt) : length ((a :: l).take 1) = 0 := rfl

theorem arc_succ (a b : Pt) (l : List Pt) (i : Nat) :
    length ((a :: b :: l).take (i + 2)) = pdist a b + length ((b :: l).take (i + 1)) := rfl

/-- adding the next segment -/
theorem arc_step : ∀ (l : List Pt) (i : Nat) (a b : Pt), l[i]? = some a → l[i + 1]? = some b →
    length (l.take (i + 2)) = length (l.take (i + 1)) + pdist a b := by
  intro l
  induction l with
  | nil => intro i a b h; simp at h
  | cons x l ih =>
    intro i a b ha hb
    cases l with
    | nil => simp at hb
    | cons y l =>
      cases i with
      | zero =>
        simp at ha hb
        subst ha; subst hb
        show length [x, y] = length [x] + _
        simp [length]
      | succ i =>
        rw [arc_succ, arc_succ]
        have := ih i a b (by simpa using ha) (by simpa using hb)
        rw [this, add_assoc]

theorem arc_mono (l : List Pt) : ∀ {i j : Nat}, i ≤ j → length (l.take (i + 1)) ≤ length (l.take (j + 1)) := by
  induction l with
  | nil => intro i j _; simp [length]
  | cons a l ih =>
    intro i j hij
    cases l with
    | nil => simp [length]
    | cons b l =>
      cases i with
      | zero => rw [arc_zero]; exact length_nonneg _
      | succ i =>
        cases j with
        | zero => omega
        | succ j => rw [arc_succ, arc_succ]; linarith [ih (i := i) (j := j) (by omega)]

theorem sLoop_spec : ∀ (l : List Pt) (last : Pt) (acc : ℝ), (sLoop last acc l).length = l.length ∧
    ∀ i (h : i < (sLoop last acc l).length) q, l.head? = some q →
      (sLoop last acc l)[i] = acc + pdist q last + length (l.take (i + 1)) := by
  intro l
  induction l with
  | nil => intro last acc; simp [sLoop]
  | cons a l ih =>
    intro last acc
    obtain ⟨h1, h2⟩ := ih a (acc + pdist a last)
    refine ⟨by simp [sLoop, h1], ?_⟩
    intro i hi q hq
    simp only [List.head?_cons, Option.some.injEq] at hq
    subst hq
    cases i with
    | zero => simp [sLoop, length]
    | succ i =>
      cases l with
      | nil => simp [sLoop] at hi
      | cons b l =>
        have hi' : i < (sLoop a (acc + pdist a last) (b :: l)).length := by
          simpa [sLoop] using hi
        have := h2 i hi' b rfl
        simp only [sLoop, List.getElem_cons_succ] at this ⊢
        rw [this, arc_succ, pdist_comm b a]
        ring

theorem table_spec (l : List Pt) : (table l).length = l.length ∧
    ∀ i (h : i < (table l).length), (table l)[i] = length (l.take (i + 1)) := by
  match l with
  | [] => simp [table]
  | [a] =>
    refine ⟨rfl, ?_⟩
    intro i hi
    have : i = 0 := by simp [table] at hi; exact hi
    subst this
    rfl
  | a :: b :: l =>
    obtain ⟨h1, h2⟩ := sLoop_spec (a :: b :: l) a 0
    refine ⟨h1, ?_⟩
    intro i hi
    have := h2 i hi a rfl
    rw [pdist_self, zero_add, zero_add] at this
    exact this

theorem tableRight_recompute (l : Line) : TableRight (recomputeS l) := table_spec l.pts

/-! ### C28 -/

/-- the two operations that do not rebuild the table -/
def Op.Keeps : Op → Prop
  | .reverse => False
  | .translate _ _ => False
  | _ => True

theorem tableRight_apply (l : Line) {op : Op} (h : op.Keeps) : TableRight (apply l op) := by
  cases op with
  | reverse => exact absurd h id
  | translate => exact absurd h id
  | _ => exact tableRight_recompute _

theorem addPoints_fold (ps : List Pt) : ∀ l : Line,
    (ps.foldl (fun l p => { l with pts := l.pts ++ [p] }) l).pts = l.pts ++ ps := by
  induction ps with
  | nil => simp
  | cons p ps ih => intro l; rw [List.foldl_cons, ih]; simp

/-- **C28, contents.** What the operations do to the points. -/
theorem C28_points (l : Line) :
    (∀ p, (apply l (.addPoint p)).pts = l.pts ++ [p]) ∧ (∀ ps, (apply l (.addPoints ps)).pts = l.pts ++ ps) ∧
    (∀ m, (apply l (.append m)).pts = l.pts ++ m.pts) ∧ (apply l .reverse).pts = l.pts.reverse := by
  refine ⟨fun p => rfl, fun ps => ?_, fun m => rfl, rfl⟩
  exact addPoints_fold ps l

/-- **C28.** However a line was produced – by any sequence of adding points, appending lines, removing duplicates,
rotating, simplifying, and also reversing and translating – its arc length table is right as long as the last operation
was not a reversal or a translation. -/
theorem C28_table (l : Line) (ops : List Op) {op : Op} (h : op.Keeps) : TableRight (run l (ops ++ [op])) := by
  unfold run
  rw [List.foldl_append]
  exact tableRight_apply _ h

/-- **C28, construction.** The empty line and a line constructed from an array have a right table. -/
theorem C28_constructed (ps : List Pt) : TableRight empty ∧ TableRight (ofArray ps) :=
  ⟨⟨rfl, fun i h => by simp [empty] at h⟩, tableRight_recompute _⟩

/-- **C28, shape of the table**: a right table starts at 0, never decreases, and ends at the length of the line. -/
theorem C28_table_shape {l : Line} (h : TableRight l) (hne : l.pts ≠ []) :
    l.s.length = l.pts.length ∧ l.s.head? = some 0 ∧ l.s.Pairwise (· ≤ ·) ∧ l.s.getLast? = some (length l.pts) := by
  have hlen : 0 < l.s.length := by rw [h.1]; exact List.length_pos_iff.2 hne
  have hsz := h.1
  obtain ⟨a, t, ht⟩ : ∃ a t, l.pts = a :: t := by
    cases hp : l.pts with
    | nil => exact absurd hp hne
    | cons a t => exact ⟨a, t, rfl⟩
  refine ⟨h.1, ?_, ?_, ?_⟩
  · rw [List.head?_eq_getElem?, List.getElem?_eq_getElem hlen, h.2 0 hlen, ht]
    rfl
  · rw [List.pairwise_iff_getElem]
    intro i j hi hj hij
    rw [h.2 i hi, h.2 j hj]
    exact arc_mono _ hij.le
  · rw [List.getLast?_eq_getElem?, List.getElem?_eq_getElem (by omega), h.2 _ (by omega)]
    congr 2
    rw [List.take_of_length_le]
    omega

/-- **C28 violated by Reverse**: the table of the unreversed line is kept. -/
theorem C28_reverse_violated : TableRight (ofArray [(0, 0), (1, 0), (3, 0)]) ∧
    ¬ TableRight (reverse (ofArray [(0, 0), (1, 0), (3, 0)])) := by
  refine ⟨tableRight_recompute _, ?_⟩
  intro h
  have h1 := h.2 1 (by decide)
  have e1 : pdist ((1 : ℝ), (0 : ℝ)) (0, 0) = 1 := by norm_num [pdist]
  have e2 : pdist ((3 : ℝ), (0 : ℝ)) (1, 0) = 2 := by
    unfold pdist
    norm_num
    rw [show (4 : ℝ) = 2 * 2 by norm_num]
    exact Real.sqrt_mul_self (by norm_num)
  simp [reverse, ofArray, recomputeS, table, sLoop, length, pdist_self, e1, e2] at h1

/-- **C28 violated by Translate**: the table of the result is empty; asking such a line for a point is undefined
behaviour. -/
theorem C28_translate_violated (l : Line) (x y s : ℝ) (h : 2 ≤ l.pts.length) (hs : 0 < s) :
    ¬ TableRight (translate l x y) ∧ pointAtS (translate l x y) s = .error .ub := by
  constructor
  · intro ht
    have := ht.1
    simp [translate] at this
    omega
  · unfold pointAtS
    rw [if_neg (by simp [translate]; omega), if_neg (not_le.2 hs)]
    rfl

/-! ### C64 -/

theorem length_map (f : Pt → Pt) (h : ∀ a b, pdist (f a) (f b) = pdist a b) : ∀ l : List Pt, length (l.map f) = length l
  | [] => rfl
  | [_] => rfl
  | a :: b :: l => by
    rw [List.map_cons, List.map_cons, length_cons_cons, length_cons_cons, h, ← List.map_cons, length_map f h (b :: l)]

theorem rotate_pdist (h : ℝ) (p q : Pt) :
    pdist (Real.cos h * p.1 + Real.sin h * p.2, -Real.sin h * p.1 + Real.cos h * p.2)
      (Real.cos h * q.1 + Real.sin h * q.2, -Real.sin h * q.1 + Real.cos h * q.2) = pdist p q := by
  unfold pdist
  congr 1
  have := Real.sin_sq_add_cos_sq h
  linear_combination ((p.1 - q.1) ^ 2 + (p.2 - q.2) ^ 2) * this

/-- **C64, rotation.** Rotating a line turns every point clockwise by the angle about the origin (a point at distance `r` in
direction `φ` goes to direction `φ - h`) and keeps the length. -/
theorem C64_rotate (l : Line) (h : ℝ) :
    (∀ (i : Nat) (r φ : ℝ), l.pts[i]? = some (r * Real.cos φ, r * Real.sin φ) →
      (rotate l h).pts[i]? = some (r * Real.cos (φ - h), r * Real.sin (φ - h))) ∧
    (rotate l h).pts.length = l.pts.length ∧ length (rotate l h).pts = length l.pts := by
  refine ⟨?_, by simp [rotate, recomputeS], ?_⟩
  · intro i r φ hi
    show (l.pts.map _)[i]? = _
    rw [List.getElem?_map, hi, Option.map_some, Real.cos_sub, Real.sin_sub]
    congr 2 <;> ring
  · exact length_map _ (rotate_pdist h) l.pts

/-- **C64, translation.** -/
theorem C64_translate (l : Line) (x y : ℝ) :
    (∀ (i : Nat) (p : Pt), l.pts[i]? = some p → (translate l x y).pts[i]? = some (p.1 + x, p.2 + y)) ∧
    (translate l x y).pts.length = l.pts.length ∧ length (translate l x y).pts = length l.pts := by
  refine ⟨?_, by simp [translate], ?_⟩
  · intro i p hi
    show (l.pts.map _)[i]? = _
    rw [List.getElem?_map, hi]; rfl
  · apply length_map
    intro a b
    unfold pdist
    congr 1
    dsimp only
    ring

theorem unique_cons (a : Pt) (l : List Pt) : ∃ t, unique (a :: l) = a :: t := by
  induction l generalizing a with
  | nil => exact ⟨[], rfl⟩
  | cons b l ih =>
    unfold unique
    split_ifs with h
    · subst h; exact ih a
    · exact ⟨_, rfl⟩

theorem unique_spec : ∀ l : List Pt, NoDup (unique l) ∧ (unique l).Sublist l ∧ (∀ p, p ∈ unique l ↔ p ∈ l) ∧
    length (unique l) = length l
  | [] => ⟨List.IsChain.nil, List.Sublist.refl _, fun _ => Iff.rfl, rfl⟩
  | [a] => ⟨List.IsChain.singleton a, List.Sublist.refl _, fun _ => Iff.rfl, rfl⟩
  | a :: b :: l => by
    obtain ⟨h1, h2, h3, h4⟩ := unique_spec (b :: l)
    unfold unique
    split_ifs with h
    · subst h
      refine ⟨h1, h2.trans (List.sublist_cons_self _ _), ?_, ?_⟩
      · intro p; rw [h3]; simp
      · rw [h4, length_cons_cons, pdist_self, zero_add]
    · obtain ⟨t, ht⟩ := unique_cons b l
      rw [ht] at h1 h2 h3 h4 ⊢
      refine ⟨List.isChain_cons_cons.2 ⟨h, h1⟩, h2.cons_cons a, ?_, ?_⟩
      · intro p; rw [List.mem_cons, h3, List.mem_cons (a := p) (b := a)]
      · rw [length_cons_cons, h4, length_cons_cons]

/-- **C64, removing duplicates.** The result is a subsequence of the line's points with the same points and the same length,
and no two consecutive points coincide. -/
theorem C64_remove_duplicates (l : Line) :
    NoDup (removeDuplicates l).pts ∧ (removeDuplicates l).pts.Sublist l.pts ∧
    (∀ p, p ∈ (removeDuplicates l).pts ↔ p ∈ l.pts) ∧ length (removeDuplicates l).pts = length l.pts :=
  unique_spec l.pts

/-! ### C29 -/

theorem at'_nat {α : Type} {l : List α} {i : Nat} {x : α} (h : l[i]? = some x) : at' l (i : Int) = .ok x := by
  unfold at'
  rw [if_neg (by omega)]
  simp [h]

theorem back_eq {l : Line} (h : TableRight l) (hne : l.pts ≠ []) : back l.s = .ok (length l.pts) := by
  unfold back
  rw [(C28_table_shape h hne).2.2.2]

/-- what the binary search finds for an arc length inside the line -/
theorem upperBound_spec {l : Line} (h : TableRight l) (hne : l.pts ≠ []) {s : ℝ} (h0 : 0 ≤ s) (hs : s < length l.pts) :
    ∃ i a b, upperBound l.s s = i + 1 ∧ segmentEndIdx l s = ((i + 1 : Nat) : Int) ∧ l.pts[i]? = some a ∧
      l.pts[i + 1]? = some b ∧
      l.s[i]? = some (length (l.pts.take (i + 1))) ∧ l.s[i + 1]? = some (length (l.pts.take (i + 1)) + pdist a b) ∧
      length (l.pts.take (i + 1)) ≤ s ∧ s < length (l.pts.take (i + 1)) + pdist a b := by
  have hlen := h.1
  have hpos : 0 < l.pts.length := List.length_pos_iff.2 hne
  have hlast : s < l.s[l.s.length - 1]'(by omega) := by
    rw [h.2]
    have : l.pts.take (l.s.length - 1 + 1) = l.pts := List.take_of_length_le (by omega)
    rw [this]; exact hs
  have hk : upperBound l.s s < l.s.length :=
    List.findIdx_lt_length_of_exists ⟨_, List.getElem_mem (by omega : l.s.length - 1 < l.s.length), by simpa using hlast⟩
  have hfound : s < l.s[upperBound l.s s]'hk := by
    have := List.findIdx_getElem (p := fun y => decide (s < y)) (xs := l.s) (w := hk)
    exact of_decide_eq_true this
  have hk0 : upperBound l.s s ≠ 0 := by
    intro h00
    have h1 : l.s[upperBound l.s s]'hk = length (l.pts.take 1) := by rw [h.2]; simp [h00]
    rw [h1] at hfound
    obtain ⟨a, t, ht⟩ := List.exists_cons_of_ne_nil hne
    rw [ht, arc_zero] at hfound
    linarith
  obtain ⟨i, hi⟩ := Nat.exists_eq_succ_of_ne_zero hk0
  have hprev : l.s[i]'(by omega) ≤ s := by
    have := List.not_of_lt_findIdx (p := fun y => decide (s < y)) (xs := l.s) (i := i)
      (by show i < upperBound l.s s; omega)
    simpa using this
  have hi1 : i + 1 < l.pts.length := by omega
  have ha : l.pts[i]? = some (l.pts[i]'(by omega)) := List.getElem?_eq_getElem _
  have hb : l.pts[i + 1]? = some (l.pts[i + 1]'hi1) := List.getElem?_eq_getElem _
  have e1 : l.s[i]'(by omega) = length (l.pts.take (i + 1)) := h.2 i (by omega)
  have e2 : l.s[i + 1]'(by omega) = length (l.pts.take (i + 1)) + pdist (l.pts[i]'(by omega)) (l.pts[i + 1]'hi1) := by
    rw [h.2 (i + 1) (by omega), arc_step _ _ _ _ ha hb]
  refine ⟨i, _, _, hi, ?_, ha, hb, ?_, ?_, ?_, ?_⟩
  · unfold segmentEndIdx
    rw [if_pos hk, hi]
  · rw [List.getElem?_eq_getElem (by omega), e1]
  · rw [List.getElem?_eq_getElem (by omega), e2]
  · rw [← e1]; exact hprev
  · rw [← e2]; simpa [hi] using hfound

/-- **C29.** On a line of at least two points with a right table, `GetPointAtS` gives the first point for `s ≤ 0`, the last
point for `s ≥` length, and otherwise the point of the polyline at arc length `s`. -/
theorem C29_point_at_s {l : Line} (h : TableRight l) (h2 : 2 ≤ l.pts.length) (s : ℝ) :
    ∃ q, pointAtS l s = .ok q ∧ (s ≤ 0 → l.pts.head? = some q) ∧ (0 < s → length l.pts ≤ s → l.pts.getLast? = some q) ∧
      (0 < s → s < length l.pts → AtArc l.pts s q) := by
  have hne : l.pts ≠ [] := by rw [← List.length_pos_iff]; omega
  unfold pointAtS
  rw [if_neg (by omega)]
  by_cases h0 : s ≤ 0
  · rw [if_pos h0]
    obtain ⟨a, t, ht⟩ := List.exists_cons_of_ne_nil hne
    refine ⟨a, at'_nat (i := 0) (by rw [ht]; rfl), fun _ => by rw [ht]; rfl, fun h => absurd h0 (not_le.2 h),
      fun h => absurd h0 (not_le.2 h)⟩
  · rw [if_neg h0, back_eq h hne]
    simp only [Res.ok_bind]
    have hs0 := not_le.1 h0
    by_cases hL : length l.pts ≤ s
    · rw [if_pos hL]
      have hlast : l.pts[l.pts.length - 1]? = some (l.pts.getLast hne) := by
        rw [List.getElem?_eq_getElem (by omega), List.getLast_eq_getElem]
      have hcast : (l.pts.length : Int) - 1 = ((l.pts.length - 1 : Nat) : Int) := by omega
      refine ⟨l.pts.getLast hne, by rw [hcast]; exact at'_nat hlast, fun h => absurd h h0,
        fun _ _ => List.getLast?_eq_some_getLast hne, fun _ hl => absurd hL (not_le.2 hl)⟩
    · rw [if_neg hL]
      obtain ⟨i, a, b, _, hidx, ha, hb, hs, hs', hlo, hhi⟩ := upperBound_spec h hne hs0.le (not_le.1 hL)
      rw [hidx]
      have hi : ((i + 1 : Nat) : Int) - 1 = (i : Nat) := by omega
      rw [hi, at'_nat hs, at'_nat hs', at'_nat ha, at'_nat hb]
      simp only [Res.ok_bind]
      have hd : 0 < pdist a b := by linarith
      have hd' : length (l.pts.take (i + 1)) + pdist a b - length (l.pts.take (i + 1)) = pdist a b := by ring
      rw [hd', if_neg hd.ne']
      refine ⟨_, rfl, fun h => absurd h h0, fun _ h => absurd h hL, fun _ _ => ?_⟩
      refine ⟨i, a, b, _, ha, hb, div_nonneg (by linarith) hd.le, (div_le_one hd).2 (by linarith), rfl, ?_⟩
      rw [div_mul_cancel₀ _ hd.ne']
      ring

/-- lines of fewer than two points give the origin -/
theorem C29_degenerate (l : Line) (h : l.pts.length ≤ 1) (s : ℝ) : pointAtS l s = .ok (0, 0) := by
  unfold pointAtS; rw [if_pos h]

theorem pdist_le_arc (l : List Pt) : ∀ (i j : Nat) (a b : Pt), i ≤ j → l[i]? = some a → l[j]? = some b →
    pdist a b ≤ length (l.take (j + 1)) - length (l.take (i + 1)) := by
  intro i j
  induction j with
  | zero =>
    intro a b hij ha hb
    have : i = 0 := by omega
    subst this
    rw [ha] at hb
    cases hb
    rw [pdist_self]; simp
  | succ j ih =>
    intro a b hij ha hb
    rcases Nat.lt_or_ge j i with h | h
    · have : i = j + 1 := by omega
      subst this
      rw [ha] at hb
      cases hb
      rw [pdist_self]; simp
    · have hj : j < l.length := by
        have := (List.getElem?_eq_some_iff.1 hb).1
        omega
      have hc := List.getElem?_eq_getElem hj
      have h1 := ih a l[j] h ha hc
      have h2 := arc_step l j _ _ hc hb
      rw [show j + 1 + 1 = j + 2 from rfl, h2]
      linarith [pdist_triangle a l[j] b]

/-- **C29, arc length bounds distance**: two points of the polyline at arc lengths `s` and `s'` are at most `|s - s'|` apart. -/
theorem C29_lipschitz (l : List Pt) {s s' : ℝ} {q q' : Pt} (h : AtArc l s q) (h' : AtArc l s' q') :
    pdist q q' ≤ |s - s'| := by
  obtain ⟨i, a, b, t, ha, hb, ht0, ht1, rfl, rfl⟩ := h
  obtain ⟨j, c, d, u, hc, hd, hu0, hu1, rfl, rfl⟩ := h'
  have key : ∀ (i j : Nat) (a b c d : Pt) (t u : ℝ), l[i]? = some a → l[i + 1]? = some b → l[j]? = some c →
      l[j + 1]? = some d → t ≤ 1 → 0 ≤ u → i < j → pdist (lerp a b t) (lerp c d u) ≤
      (length (l.take (j + 1)) + u * pdist c d) - (length (l.take (i + 1)) + t * pdist a b) := by
    intro i j a b c d t u ha hb hc hd ht hu hij
    have h1 : pdist (lerp a b t) b = (1 - t) * pdist a b := by
      have := pdist_lerp a b t 1
      rw [lerp_one, abs_sub_comm, abs_of_nonneg (by linarith)] at this
      exact this
    have h2 : pdist c (lerp c d u) = u * pdist c d := by
      have := pdist_lerp c d 0 u
      rw [lerp_zero, zero_sub, abs_neg, abs_of_nonneg hu] at this
      exact this
    have h3 := pdist_le_arc l (i + 1) j b c (by omega) hb hc
    have h4 := arc_step l i a b ha hb
    have h5 := pdist_triangle (lerp a b t) b (lerp c d u)
    have h6 := pdist_triangle b c (lerp c d u)
    rw [show i + 1 + 1 = i + 2 from rfl, h4] at h3
    linarith
  rcases lt_trichotomy i j with hij | hij | hij
  · rw [abs_sub_comm]
    exact (key i j a b c d t u ha hb hc hd ht1 hu0 hij).trans (le_abs_self _)
  · subst hij
    rw [ha] at hc; cases hc
    rw [hb] at hd; cases hd
    rw [pdist_lerp, add_sub_add_left_eq_sub, ← sub_mul, abs_mul, abs_of_nonneg (pdist_nonneg a b)]
  · rw [pdist_comm]
    exact (key j i c d a b u t hc hd ha hb hu1 ht0 hij).trans (le_abs_self _)

/-! ### C30 -/

theorem dist2_lerp (a b p : Pt) (t : ℝ) : dist2 p (lerp a b t) = dist2 p a - 2 * t * dot a b p + t ^ 2 * len2 a b := by
  unfold dist2 lerp dot len2; ring

theorem len2_nonneg (a b : Pt) : 0 ≤ len2 a b := by unfold len2; nlinarith [sq_nonneg (b.1 - a.1), sq_nonneg (b.2 - a.2)]

theorem len2_eq_zero {a b : Pt} : len2 a b = 0 ↔ a = b := by
  unfold len2
  constructor
  · intro h
    have h1 : (b.1 - a.1) ^ 2 ≤ 0 := by nlinarith [sq_nonneg (b.2 - a.2)]
    have h2 : (b.2 - a.2) ^ 2 ≤ 0 := by nlinarith [sq_nonneg (b.1 - a.1)]
    have h1' : b.1 - a.1 = 0 := pow_eq_zero_iff (two_ne_zero) |>.1 (le_antisymm h1 (sq_nonneg _))
    have h2' : b.2 - a.2 = 0 := pow_eq_zero_iff (two_ne_zero) |>.1 (le_antisymm h2 (sq_nonneg _))
    exact Prod.ext (by linarith) (by linarith)
  · rintro rfl; simp

/-- the segment distance is the smallest distance to a point of the segment -/
theorem segDist2_le (a b p : Pt) {t : ℝ} (h0 : 0 ≤ t) (h1 : t ≤ 1) : segDist2 a b p ≤ dist2 p (lerp a b t) := by
  have hl := len2_nonneg a b
  unfold segDist2
  split_ifs with hc hc2
  · rw [dist2_lerp]
    nlinarith [mul_nonneg h0 (neg_nonneg.2 hc), mul_nonneg (sq_nonneg t) hl]
  · have : dist2 p b = dist2 p (lerp a b 1) := by rw [lerp_one]
    rw [this, dist2_lerp, dist2_lerp]
    nlinarith [mul_nonneg (sub_nonneg.2 h1) (sub_nonneg.2 hc2), mul_nonneg (sq_nonneg (1 - t)) hl]
  · push Not at hc hc2
    have hl' : 0 < len2 a b := lt_of_lt_of_le (hc) hc2.le
    rw [dist2_lerp, dist2_lerp]
    have : 0 ≤ (t - dot a b p / len2 a b) ^ 2 * len2 a b := mul_nonneg (sq_nonneg _) hl
    have e : dot a b p = dot a b p / len2 a b * len2 a b := (div_mul_cancel₀ _ hl'.ne').symm
    generalize dot a b p / len2 a b = u at this e ⊢
    rw [e]
    nlinarith

/-- consecutive points number `k` and `k+1` -/
def Seg (l : List Pt) (k : Nat) (a b : Pt) : Prop := l[k]? = some a ∧ l[k + 1]? = some b

theorem nearestLoop_spec (p : Pt) : ∀ (l : List Pt) (i : Nat) (best : Option ℝ) (bi : Nat),
    (nearestLoop p l i best bi = bi ∧ (∀ m, best = some m → ∀ k a b, Seg l k a b → m ≤ segDist2 a b p) ∧
      (best = none → l.length ≤ 1)) ∨
    (∃ k a b, nearestLoop p l i best bi = i + k ∧ Seg l k a b ∧ (∀ k' a' b', Seg l k' a' b' → segDist2 a b p ≤ segDist2 a' b' p) ∧
      (∀ m, best = some m → segDist2 a b p < m)) := by
  intro l
  induction l with
  | nil => intro i best bi; left; exact ⟨rfl, fun m _ k a b h => by simp [Seg] at h, fun _ => by simp⟩
  | cons x l ih =>
    intro i best bi
    cases l with
    | nil => left; exact ⟨rfl, fun m _ k a b h => by simp [Seg] at h, fun _ => by simp⟩
    | cons y l =>
      have segs : ∀ k a b, Seg (x :: y :: l) k a b → (k = 0 ∧ a = x ∧ b = y) ∨ ∃ k', k = k' + 1 ∧ Seg (y :: l) k' a b := by
        intro k a b h
        cases k with
        | zero => left; obtain ⟨h1, h2⟩ := h; simp at h1 h2; exact ⟨rfl, h1.symm, h2.symm⟩
        | succ k => right; obtain ⟨h1, h2⟩ := h; exact ⟨k, rfl, by simpa using h1, by simpa using h2⟩
      unfold nearestLoop
      by_cases hb : better (segDist2 x y p) best
      · rw [if_pos hb]
        right
        have hm : ∀ m, best = some m → segDist2 x y p < m := by
          intro m hm; rw [hm] at hb; exact hb
        rcases ih (i + 1) (some (segDist2 x y p)) i with ⟨h1, h2, _⟩ | ⟨k, a, b, h1, h2, h3, h4⟩
        · refine ⟨0, x, y, by rw [h1]; simp, ⟨rfl, rfl⟩, ?_, hm⟩
          intro k' a' b' hs
          rcases segs _ _ _ hs with ⟨_, rfl, rfl⟩ | ⟨k'', _, hs'⟩
          · exact le_rfl
          · exact h2 _ rfl _ _ _ hs'
        · have hlt := h4 _ rfl
          refine ⟨k + 1, a, b, by rw [h1]; omega, ⟨by simpa using h2.1, by simpa using h2.2⟩, ?_, fun m hm' => hlt.trans (hm m hm')⟩
          intro k' a' b' hs
          rcases segs _ _ _ hs with ⟨_, rfl, rfl⟩ | ⟨k'', _, hs'⟩
          · exact hlt.le
          · exact h3 _ _ _ hs'
      · rw [if_neg hb]
        obtain ⟨m, hbm⟩ : ∃ m, best = some m := by
          cases best with
          | none => exact absurd trivial hb
          | some m => exact ⟨m, rfl⟩
        subst hbm
        have hge : m ≤ segDist2 x y p := not_lt.1 hb
        rcases ih (i + 1) (some m) bi with ⟨h1, h2, _⟩ | ⟨k, a, b, h1, h2, h3, h4⟩
        · left
          refine ⟨h1, ?_, fun h => by simp at h⟩
          intro m' hm' k a b hs
          cases hm'
          rcases segs _ _ _ hs with ⟨_, rfl, rfl⟩ | ⟨k'', _, hs'⟩
          · exact hge
          · exact h2 _ rfl _ _ _ hs'
        · right
          refine ⟨k + 1, a, b, by rw [h1]; omega, ⟨by simpa using h2.1, by simpa using h2.2⟩, ?_, h4⟩
          intro k' a' b' hs
          rcases segs _ _ _ hs with ⟨_, rfl, rfl⟩ | ⟨k'', _, hs'⟩
          · exact (h4 _ rfl).le.trans hge
          · exact h3 _ _ _ hs'

theorem table_at {l : Line} (h : TableRight l) {i : Nat} {a : Pt} (hi : l.pts[i]? = some a) :
    l.s[i]? = some (length (l.pts.take (i + 1))) := by
  have := (List.getElem?_eq_some_iff.1 hi).1
  rw [List.getElem?_eq_getElem (by rw [h.1]; exact this), h.2]

theorem noDup_seg {pts : List Pt} (h : NoDup pts) {i : Nat} {a b : Pt} (ha : pts[i]? = some a) (hb : pts[i + 1]? = some b) :
    a ≠ b := by
  have := List.isChain_iff_getElem.1 h i (List.getElem?_eq_some_iff.1 hb).1
  rw [(List.getElem?_eq_some_iff.1 ha).2, (List.getElem?_eq_some_iff.1 hb).2] at this
  exact this

theorem projectOn_eq (a b p : Pt) (s0 s1 : ℝ) (k : Nat) : projectOn a b s0 s1 k p =
    if len2 a b = 0 then .error .nan
    else if dot a b p / len2 a b < 0 then .ok (a, s0, k)
    else if 1 < dot a b p / len2 a b then .ok (b, s1, k)
    else .ok (lerp a b (dot a b p / len2 a b), (1 - dot a b p / len2 a b) * s0 + dot a b p / len2 a b * s1, k) := by
  have e1 : a.1 * a.1 - 2 * a.1 * b.1 + a.2 * a.2 - 2 * a.2 * b.2 + b.1 * b.1 + b.2 * b.2 = len2 a b := by
    unfold len2; ring
  have e2 : -(a.1 * b.1 + a.2 * b.2 + a.1 * p.1 + a.2 * p.2 - b.1 * p.1 - b.2 * p.2 - a.1 * a.1 - a.2 * a.2) = dot a b p := by
    unfold dot; ring
  unfold projectOn
  simp only [e1, e2]
  by_cases hl0 : len2 a b = 0
  · rw [if_pos hl0, if_pos hl0]
  · rw [if_neg hl0, if_neg hl0]
    have e3 : ((p.1 * a.1 * a.1 - a.1 * a.2 * b.2 + p.2 * a.1 * a.2 - 2 * p.1 * a.1 * b.1 + a.1 * b.2 * b.2
        - p.2 * a.1 * b.2 + a.2 * a.2 * b.1 - a.2 * b.1 * b.2 - p.2 * a.2 * b.1 + p.1 * b.1 * b.1
        + p.2 * b.1 * b.2) / len2 a b, (a.1 * a.1 * b.2 - a.1 * a.2 * b.1 + p.1 * a.1 * a.2 - a.1 * b.1 * b.2 - p.1 * a.1 * b.2
        + p.2 * a.2 * a.2 + a.2 * b.1 * b.1 - p.1 * a.2 * b.1 - 2 * p.2 * a.2 * b.2 + p.1 * b.1 * b.2
        + p.2 * b.2 * b.2) / len2 a b) = lerp a b (dot a b p / len2 a b) := by
      unfold lerp
      refine Prod.ext ?_ ?_
      · dsimp only
        rw [div_mul_eq_mul_div, ← sub_eq_iff_eq_add', eq_div_iff hl0, sub_mul, div_mul_cancel₀ _ hl0]
        unfold dot len2; ring
      · dsimp only
        rw [div_mul_eq_mul_div, ← sub_eq_iff_eq_add', eq_div_iff hl0, sub_mul, div_mul_cancel₀ _ hl0]
        unfold dot len2; ring
    rw [e3]

/-- **C30.** For a line of at least two points with a right table and no coinciding neighbours, `GetNearestPointAndS`
returns a point of the polyline with its arc length, and no point of the polyline is closer to `p`. -/
theorem C30_nearest_point {l : Line} (h : TableRight l) (h2 : 2 ≤ l.pts.length) (hnd : NoDup l.pts) (p : Pt) :
    ∃ q s i, nearest l p = .ok (q, s, i) ∧ AtArc l.pts s q ∧ ∀ q', OnLine l.pts q' → dist2 p q ≤ dist2 p q' := by
  rcases nearestLoop_spec p l.pts 0 none 0 with ⟨_, _, hc⟩ | ⟨k, a, b, hk, hs, hmin, _⟩
  · exact absurd (hc rfl) (by omega)
  rw [zero_add] at hk
  have hab : a ≠ b := noDup_seg hnd hs.1 hs.2
  have hl : 0 < len2 a b := lt_of_le_of_ne (len2_nonneg a b) (fun e => hab (len2_eq_zero.1 e.symm))
  have hmin' : ∀ q, dist2 p q = segDist2 a b p → ∀ q', OnLine l.pts q' → dist2 p q ≤ dist2 p q' := by
    rintro q hq q' ⟨j, c, d, t, hc, hd, ht0, ht1, rfl⟩
    rw [hq]
    exact (hmin j c d ⟨hc, hd⟩).trans (segDist2_le c d p ht0 ht1)
  have hres : nearest l p = projectOn a b (length (l.pts.take (k + 1))) (length (l.pts.take (k + 2))) k p := by
    unfold nearest
    split
    · next hp => rw [hp] at h2; simp at h2
    · next hp => rw [hp] at h2; simp at h2
    · rw [hk, at'_nat hs.1, at'_nat hs.2, at'_nat (table_at h hs.1), at'_nat (table_at h hs.2)]
      simp only [Res.ok_bind]
  rw [hres, projectOn_eq]
  rw [if_neg hl.ne']
  have hstep := arc_step l.pts k a b hs.1 hs.2
  by_cases hlt : dot a b p / len2 a b < 0
  · rw [if_pos hlt]
    have hd : dot a b p < 0 := by
      rcases div_neg_iff.1 hlt with ⟨_, h'⟩ | ⟨h', _⟩
      · exact absurd h' (not_lt.2 hl.le)
      · exact h'
    refine ⟨_, _, _, rfl, ⟨k, a, b, 0, hs.1, hs.2, le_rfl, zero_le_one, (lerp_zero a b).symm, by ring⟩, hmin' _ ?_⟩
    unfold segDist2
    rw [if_pos hd.le]
  · rw [if_neg hlt]
    have hd0 : 0 ≤ dot a b p := by
      by_contra hc
      exact hlt (div_neg_of_neg_of_pos (not_le.1 hc) hl)
    by_cases hgt : 1 < dot a b p / len2 a b
    · rw [if_pos hgt]
      have hd1 : len2 a b < dot a b p := (one_lt_div hl).1 hgt
      refine ⟨_, _, _, rfl, ⟨k, a, b, 1, hs.1, hs.2, zero_le_one, le_rfl, (lerp_one a b).symm, ?_⟩, hmin' _ ?_⟩
      · rw [show k + 1 + 1 = k + 2 from rfl, hstep, one_mul]
      · unfold segDist2
        rw [if_neg (by linarith), if_pos hd1.le]
    · rw [if_neg hgt]
      have ht0 : 0 ≤ dot a b p / len2 a b := not_lt.1 hlt
      have ht1 : dot a b p / len2 a b ≤ 1 := not_lt.1 hgt
      refine ⟨_, _, _, rfl, ⟨k, a, b, _, hs.1, hs.2, ht0, ht1, rfl, ?_⟩, hmin' _ ?_⟩
      · rw [show k + 1 + 1 = k + 2 from rfl, hstep]; ring
      · unfold segDist2
        by_cases hz : dot a b p ≤ 0
        · have hz' : dot a b p = 0 := le_antisymm hz hd0
          rw [if_pos hz, hz', zero_div, lerp_zero]
        · rw [if_neg hz]
          by_cases hz2 : len2 a b ≤ dot a b p
          · have hz' : dot a b p = len2 a b := le_antisymm ((div_le_one hl).1 ht1) hz2
            rw [if_pos hz2, hz', div_self hl.ne', lerp_one]
          · rw [if_neg hz2]

/-- the hypotheses of C29 and C30 are met by an ordinary line -/
example : TableRight (ofArray [(0, 0), (1, 0), (3, 0)]) ∧ 2 ≤ (ofArray [(0, 0), (1, 0), (3, 0)]).pts.length ∧
    NoDup (ofArray [(0, 0), (1, 0), (3, 0)]).pts := by
  refine ⟨tableRight_recompute _, by simp [ofArray, recomputeS], ?_⟩
  simp [NoDup, ofArray, recomputeS]

/-- **C30 violated with coinciding neighbours**: next to a duplicated point the result is NaN. -/
theorem C30_duplicate_violated : TableRight (ofArray [(0, 0), (0, 0), (1, 0)]) ∧
    nearest (ofArray [(0, 0), (0, 0), (1, 0)]) (-1, 1) = .error .nan := by
  refine ⟨tableRight_recompute _, ?_⟩
  have e : nearestLoop ((-1 : ℝ), (1 : ℝ)) [(0, 0), (0, 0), (1, 0)] 0 none 0 = 0 := by
    norm_num [nearestLoop, segDist2, dot, len2, dist2, better]
  unfold nearest
  simp only [ofArray, recomputeS]
  rw [e, at'_nat (x := (0, 0)) rfl, at'_nat (x := (0, 0)) rfl]
  rw [show table [((0 : ℝ), (0 : ℝ)), (0, 0), (1, 0)] = [0, 0, 1] by norm_num [table, sLoop, pdist]]
  rw [at'_nat (x := (0 : ℝ)) rfl, at'_nat (x := (0 : ℝ)) rfl]
  simp only [Res.ok_bind]
  norm_num [projectOn]

/-- **C30, one or no point.** -/
theorem C30_degenerate (p a : Pt) (s : List ℝ) :
    nearest ⟨[], s⟩ p = .ok ((0, 0), 0, 0) ∧ nearest ⟨[a], s⟩ p = .ok (a, 0, 0) := ⟨rfl, rfl⟩

/-! ### C61 -/

theorem atan2_dir (x y : ℝ) (h : (x, y) ≠ (0, 0)) : HasDir (x, y) (Dyn.atan2 y x) := by
  have hz : (⟨x, y⟩ : ℂ) ≠ 0 := by
    intro e
    have := Complex.ext_iff.1 e
    exact h (Prod.ext this.1 this.2)
  refine ⟨‖(⟨x, y⟩ : ℂ)‖, norm_pos_iff.2 hz, ?_⟩
  unfold Dyn.atan2
  rw [Complex.norm_mul_cos_arg, Complex.norm_mul_sin_arg]

theorem segAngle_dir {a b : Pt} (h : a ≠ b) : HasDir (vec a b) (segAngle a b) := by
  apply atan2_dir
  intro e
  have := Prod.ext_iff.1 e
  simp only at this
  exact h (Prod.ext (by linarith [this.1]) (by linarith [this.2]))

theorem segAngle_unit {a b : Pt} (h : a ≠ b) :
    Real.cos (segAngle a b) = (unit a b).1 ∧ Real.sin (segAngle a b) = (unit a b).2 := by
  have hn : pdist a b = ‖(⟨b.1 - a.1, b.2 - a.2⟩ : ℂ)‖ := by
    rw [pdist_comm, pdist_eq_norm, Complex.dist_eq]; congr 1
  have hp : pdist a b ≠ 0 := fun e => h (pdist_eq_zero.1 e)
  unfold unit segAngle Dyn.atan2
  constructor
  · rw [eq_div_iff hp, hn, mul_comm, Complex.norm_mul_cos_arg]
  · rw [eq_div_iff hp, hn, mul_comm, Complex.norm_mul_sin_arg]

/-- **C61.** On a line with a right table whose consecutive points differ, `GetTangentAngleAtS` is
the direction of the first segment for `s ≤ 0`, of the last segment for `s ≥` length, of the segment that contains `s`
inside a segment, and at an interior corner whose segments do not point in opposite directions the direction of the sum of
the two unit vectors (the bisector). -/
theorem C61_tangent {l : Line} (h : TableRight l) (h2 : 2 ≤ l.pts.length) (hnd : NoDup l.pts) (s : ℝ) :
    ∃ θ, tangentAngleAtS l s = .ok θ ∧
      (s ≤ 0 → ∀ a b, l.pts[0]? = some a → l.pts[1]? = some b → HasDir (vec a b) θ) ∧
      (length l.pts ≤ s → ∀ a b, l.pts[l.pts.length - 2]? = some a → l.pts[l.pts.length - 1]? = some b → HasDir (vec a b) θ) ∧
      (∀ i a b, l.pts[i]? = some a → l.pts[i + 1]? = some b → length (l.pts.take (i + 1)) < s →
        s < length (l.pts.take (i + 2)) → HasDir (vec a b) θ) ∧
      (∀ i a b c, l.pts[i]? = some a → l.pts[i + 1]? = some b → l.pts[i + 2]? = some c → s = length (l.pts.take (i + 2)) →
        unit a b + unit b c ≠ 0 → HasDir (unit a b + unit b c) θ) := by
  have hne : l.pts ≠ [] := by rw [← List.length_pos_iff]; omega
  have hpos : ∀ i a b, l.pts[i]? = some a → l.pts[i + 1]? = some b → 0 < pdist a b := fun i a b ha hb =>
    lt_of_le_of_ne (pdist_nonneg a b) (fun e => noDup_seg hnd ha hb (pdist_eq_zero.1 e.symm))
  have smono : ∀ i j, i < j → j < l.pts.length → length (l.pts.take (i + 1)) < length (l.pts.take (j + 1)) := by
    intro i j hij hj
    have e := arc_step l.pts i _ _ (List.getElem?_eq_getElem (by omega)) (List.getElem?_eq_getElem (by omega))
    have e2 := hpos i _ _ (List.getElem?_eq_getElem (by omega)) (List.getElem?_eq_getElem (by omega))
    have e3 := arc_mono l.pts (show i + 1 ≤ j by omega)
    rw [show i + 1 + 1 = i + 2 from rfl] at e3
    linarith
  have full : length (l.pts.take (l.pts.length - 1 + 1)) = length l.pts := by
    rw [List.take_of_length_le (by omega)]
  have h0arc : length (l.pts.take 1) = 0 := by
    obtain ⟨a, t, ht⟩ := List.exists_cons_of_ne_nil hne
    rw [ht]; rfl
  have lt_of : ∀ i a, l.pts[i]? = some a → i < l.pts.length := fun i a ha => (List.getElem?_eq_some_iff.1 ha).1
  unfold tangentAngleAtS
  rw [back_eq h hne]
  simp only [Res.ok_bind]
  by_cases hL : length l.pts ≤ s
  · rw [if_pos hL]
    have e1 : (l.pts.length : Int) - 2 = ((l.pts.length - 2 : Nat) : Int) := by omega
    have e2 : (l.pts.length : Int) - 1 = ((l.pts.length - 1 : Nat) : Int) := by omega
    have g1 : l.pts[l.pts.length - 2]? = some (l.pts[l.pts.length - 2]'(by omega)) := List.getElem?_eq_getElem _
    have g2 : l.pts[l.pts.length - 1]? = some (l.pts[l.pts.length - 1]'(by omega)) := List.getElem?_eq_getElem _
    rw [e1, e2, at'_nat g1, at'_nat g2]
    simp only [Res.ok_bind]
    have hlen : 0 < length l.pts := by
      have := smono 0 (l.pts.length - 1) (by omega) (by omega)
      rw [full, zero_add, h0arc] at this; exact this
    refine ⟨_, rfl, fun hs => absurd hs (by linarith), ?_, ?_, ?_⟩
    · intro _ a b ha hb
      rw [g1] at ha; rw [g2] at hb
      cases ha; cases hb
      apply segAngle_dir
      apply noDup_seg hnd g1
      rw [show l.pts.length - 2 + 1 = l.pts.length - 1 by omega]; exact g2
    · intro i a b ha hb _ hhi
      have := arc_mono l.pts (show i + 1 ≤ l.pts.length - 1 by have := lt_of _ _ hb; omega)
      rw [full, show i + 1 + 1 = i + 2 from rfl] at this
      linarith
    · intro i a b c ha hb hc hs _
      have := smono (i + 1) (l.pts.length - 1) (by have := lt_of _ _ hc; omega) (by omega)
      rw [full, show i + 1 + 1 = i + 2 from rfl] at this
      linarith
  · rw [if_neg hL]
    by_cases h0 : s ≤ 0
    · rw [if_pos h0]
      have g1 : l.pts[0]? = some (l.pts[0]'(by omega)) := List.getElem?_eq_getElem _
      have g2 : l.pts[1]? = some (l.pts[1]'(by omega)) := List.getElem?_eq_getElem _
      have q1 : at' l.pts 0 = .ok (l.pts[0]'(by omega)) := at'_nat g1
      have q2 : at' l.pts 1 = .ok (l.pts[1]'(by omega)) := at'_nat g2
      rw [q1, q2]
      simp only [Res.ok_bind]
      refine ⟨_, rfl, ?_, fun hs => absurd hs hL, ?_, ?_⟩
      · intro _ a b ha hb
        rw [g1] at ha; rw [g2] at hb
        cases ha; cases hb
        exact segAngle_dir (noDup_seg hnd g1 g2)
      · intro i a b _ _ hlo _
        linarith [length_nonneg (l.pts.take (i + 1))]
      · intro i a b c _ hb _ hs _
        have := smono 0 (i + 1) (by omega) (lt_of _ _ hb)
        rw [zero_add, h0arc, show i + 1 + 1 = i + 2 from rfl] at this
        linarith
    · rw [if_neg h0]
      have hs0 := not_le.1 h0
      obtain ⟨i, a, b, hub, hidx, ha, hb, hs, hs', hlo, hhi⟩ := upperBound_spec h hne hs0.le (not_le.1 hL)
      have huniq : ∀ j a' b', l.pts[j]? = some a' → l.pts[j + 1]? = some b' → length (l.pts.take (j + 1)) ≤ s →
          s < length (l.pts.take (j + 2)) → j = i := by
        intro j a' b' ha' hb' h1 h2
        have hstep := arc_step l.pts i a b ha hb
        rcases lt_trichotomy j i with hji | hji | hji
        · have := arc_mono l.pts (show j + 1 ≤ i by omega)
          rw [show j + 1 + 1 = j + 2 from rfl] at this
          linarith
        · exact hji
        · have := arc_mono l.pts (show i + 1 ≤ j by omega)
          rw [show i + 1 + 1 = i + 2 from rfl] at this
          linarith
      by_cases hc : length (l.pts.take (i + 1)) = s
      · -- a corner
        have hi0 : i ≠ 0 := by
          rintro rfl
          rw [zero_add, h0arc] at hc; linarith
        obtain ⟨k, rfl⟩ := Nat.exists_eq_succ_of_ne_zero hi0
        have hlb : lowerBound l.s s = k + 1 := by
          unfold lowerBound
          rw [List.findIdx_eq (by rw [h.1]; exact lt_of _ _ ha)]
          refine ⟨?_, ?_⟩
          · rw [h.2]
            simp only [decide_eq_true_eq]
            exact hc.ge
          · intro j hj
            rw [h.2]
            simp only [decide_eq_false_iff_not, not_le]
            rw [← hc]
            exact smono j (k + 1) hj (lt_of _ _ ha)
        have hcorner : atCorner l s = true := by
          unfold atCorner
          rw [hidx, hlb]
          simp
        rw [if_pos hcorner, hidx]
        have e1 : ((k.succ + 1 : Nat) : Int) - 2 = (k : Nat) := by push_cast; ring
        have e2 : ((k.succ + 1 : Nat) : Int) - 1 = ((k + 1 : Nat) : Int) := by push_cast; ring
        have g1 : l.pts[k]? = some (l.pts[k]'(by have := lt_of _ _ ha; omega)) := List.getElem?_eq_getElem _
        rw [e1, e2, at'_nat g1, at'_nat ha, at'_nat hb]
        simp only [Res.ok_bind]
        refine ⟨_, rfl, fun hs => absurd hs h0, fun hs => absurd hs hL, ?_, ?_⟩
        · intro j a' b' ha' hb' h1 h2
          have := huniq j a' b' ha' hb' h1.le h2
          subst this
          linarith
        · intro j a' b' c' ha' hb' hc' hs hnz
          have := huniq (j + 1) b' c' hb' hc' (by rw [hs]) (by
            have := smono (j + 1) (j + 2) (by omega) (lt_of _ _ hc')
            rw [hs]; exact this)
          have hjk : j = k := by omega
          subst hjk
          rw [g1] at ha'
          rw [ha] at hb'
          rw [show j + 2 = j.succ + 1 from rfl, hb] at hc'
          cases ha'; cases hb'; cases hc'
          obtain ⟨c1, s1⟩ := segAngle_unit (noDup_seg hnd g1 ha)
          obtain ⟨c2, s2⟩ := segAngle_unit (noDup_seg hnd ha hb)
          rw [c1, c2, s1, s2]
          set u := unit (l.pts[j]'(by have := lt_of _ _ ha; omega)) a with hu
          set w := unit a b with hw
          have hd := atan2_dir (1 / 2 * (u.1 + w.1)) (1 / 2 * (u.2 + w.2)) (by
            intro e
            apply hnz
            have := Prod.ext_iff.1 e
            simp only at this
            exact Prod.ext (by show u.1 + w.1 = 0; linarith [this.1]) (by show u.2 + w.2 = 0; linarith [this.2]))
          obtain ⟨c, hc0, hcv⟩ := hd
          have := Prod.ext_iff.1 hcv
          simp only at this
          refine ⟨2 * c, by linarith, Prod.ext ?_ ?_⟩
          · show u.1 + w.1 = _
            linarith [this.1]
          · show u.2 + w.2 = _
            linarith [this.2]
      · -- inside a segment
        have hlo' : length (l.pts.take (i + 1)) < s := lt_of_le_of_ne hlo hc
        have hlb : lowerBound l.s s = i + 1 := by
          unfold lowerBound
          rw [List.findIdx_eq (by rw [h.1]; exact lt_of _ _ hb)]
          refine ⟨?_, ?_⟩
          · rw [h.2, arc_step l.pts i a b ha hb]
            simp only [decide_eq_true_eq]
            exact hhi.le
          · intro j hj
            rw [h.2]
            simp only [decide_eq_false_iff_not, not_le]
            exact lt_of_le_of_lt (arc_mono _ (by omega)) hlo'
        have hcorner : ¬ atCorner l s = true := by
          unfold atCorner
          rw [hidx, hlb]
          simp
        rw [if_neg hcorner, hidx]
        have e2 : ((i + 1 : Nat) : Int) - 1 = ((i : Nat) : Int) := by push_cast; ring
        rw [e2, at'_nat ha, at'_nat hb]
        simp only [Res.ok_bind]
        refine ⟨_, rfl, fun hs => absurd hs h0, fun hs => absurd hs hL, ?_, ?_⟩
        · intro j a' b' ha' hb' h1 h2
          have := huniq j a' b' ha' hb' h1.le h2
          subst this
          rw [ha] at ha'; rw [hb] at hb'
          cases ha'; cases hb'
          exact segAngle_dir (noDup_seg hnd ha hb)
        · intro j a' b' c' ha' hb' hc' hsj _
          have := huniq (j + 1) b' c' hb' hc' (by rw [hsj]) (by
            have := smono (j + 1) (j + 2) (by omega) (lt_of _ _ hc')
            rw [hsj]; exact this)
          subst this
          exact absurd hsj.symm hc

/-- **C61 faults**: without points the query is undefined behaviour, with one point it throws. -/
theorem C61_degenerate (p : Pt) (s : ℝ) :
    tangentAngleAtS empty s = .error .ub ∧ tangentAngleAtS (ofArray [p]) s = .error .thrown := by
  refine ⟨rfl, ?_⟩
  unfold tangentAngleAtS
  have hb := back_eq (l := ofArray [p]) (tableRight_recompute _) (by simp [ofArray, recomputeS])
  rw [hb]
  simp only [Res.ok_bind]
  by_cases h : length (ofArray [p]).pts ≤ s
  · rw [if_pos h]
    rfl
  · rw [if_neg h, if_pos (by have : length (ofArray [p]).pts = 0 := rfl
                             linarith [not_le.1 h])]
    rfl

/-- **C61 violated with coinciding neighbours**: at a duplicated corner the direction of the empty segment, taken as 0,
is averaged in: going up and then up again the tangent is 45 degrees instead of 90. -/
theorem C61_duplicate_violated : TableRight (ofArray [(0, 0), (0, 1), (0, 1), (0, 2)]) ∧
    ∃ θ, tangentAngleAtS (ofArray [(0, 0), (0, 1), (0, 1), (0, 2)]) 1 = .ok θ ∧ θ ≠ Real.pi / 2 := by
  refine ⟨tableRight_recompute _, ?_⟩
  have ht : table [((0 : ℝ), (0 : ℝ)), (0, 1), (0, 1), (0, 2)] = [0, 1, 1, 2] := by norm_num [table, sLoop, pdist]
  unfold tangentAngleAtS atCorner segmentEndIdx upperBound lowerBound
  simp only [ofArray, recomputeS, ht]
  have hu : ([0, 1, 1, 2] : List ℝ).findIdx (fun y => decide (1 < y)) = 3 := by
    norm_num [List.findIdx, List.findIdx.go]
  have hl : ([0, 1, 1, 2] : List ℝ).findIdx (fun y => decide (1 ≤ y)) = 1 := by
    norm_num [List.findIdx, List.findIdx.go]
  rw [hu, hl]
  have hb : back ([0, 1, 1, 2] : List ℝ) = .ok 2 := rfl
  rw [hb]
  simp only [Res.ok_bind]
  rw [if_neg (by norm_num), if_neg (by norm_num), if_pos (by decide), if_pos (by simp)]
  have q1 : at' [((0 : ℝ), (0 : ℝ)), (0, 1), (0, 1), (0, 2)] (((3 : Nat) : Int) - 2) = .ok (0, 1) := rfl
  have q2 : at' [((0 : ℝ), (0 : ℝ)), (0, 1), (0, 1), (0, 2)] (((3 : Nat) : Int) - 1) = .ok (0, 1) := rfl
  have q3 : at' [((0 : ℝ), (0 : ℝ)), (0, 1), (0, 1), (0, 2)] ((3 : Nat) : Int) = .ok (0, 2) := rfl
  rw [q1, q2, q3]
  simp only [Res.ok_bind]
  refine ⟨_, rfl, ?_⟩
  have a1 : segAngle ((0 : ℝ), (1 : ℝ)) (0, 1) = 0 := by
    unfold segAngle Dyn.atan2
    norm_num
    exact Complex.arg_zero
  have a2 : segAngle ((0 : ℝ), (1 : ℝ)) (0, 2) = Real.pi / 2 := by
    unfold segAngle Dyn.atan2
    norm_num
    exact Complex.arg_I
  rw [a1, a2]
  unfold Dyn.atan2
  intro e
  have := (Complex.arg_eq_pi_div_two_iff.1 e).1
  norm_num at this

/-! ### C62 -/

/-- `GetPointAtS` within the line, both ends included -/
theorem pointAtS_atArc {l : Line} (h : TableRight l) (h2 : 2 ≤ l.pts.length) {s : ℝ} (h0 : 0 ≤ s) (hL : s ≤ length l.pts) :
    ∃ q, pointAtS l s = .ok q ∧ AtArc l.pts s q := by
  obtain ⟨q, hq, c1, c2, c3⟩ := C29_point_at_s h h2 s
  refine ⟨q, hq, ?_⟩
  have g : ∀ i (hi : i < l.pts.length), l.pts[i]? = some l.pts[i] := fun i hi => List.getElem?_eq_getElem hi
  rcases h0.eq_or_lt with e | h0'
  · have := c1 e.ge
    rw [List.head?_eq_getElem?] at this
    refine ⟨0, q, _, 0, this, g 1 (by omega), le_rfl, zero_le_one, (lerp_zero _ _).symm, ?_⟩
    obtain ⟨a, t, ht⟩ := List.exists_cons_of_ne_nil (show l.pts ≠ [] by rw [← List.length_pos_iff]; omega)
    have z : length (l.pts.take (0 + 1)) = 0 := by rw [ht]; rfl
    rw [z, ← e]; ring
  · rcases hL.eq_or_lt with e | hL'
    · have := c2 h0' e.ge
      rw [List.getLast?_eq_getElem?] at this
      refine ⟨l.pts.length - 2, _, q, 1, g _ (by omega), by rw [← this]; congr 1; omega, zero_le_one, le_rfl, (lerp_one _ _).symm, ?_⟩
      have st := arc_step l.pts (l.pts.length - 2) _ q (g _ (by omega)) (by rw [← this]; congr 1; omega)
      rw [one_mul, ← st, List.take_of_length_le (by omega), e]
    · exact c3 h0' hL'

/-- `(σ, a)` and `(σ', b)` lie on one segment of the line, in this order -/
def Sub (l : List Pt) (σ : ℝ) (a : Pt) (σ' : ℝ) (b : Pt) : Prop :=
  ∃ i x y t u, l[i]? = some x ∧ l[i + 1]? = some y ∧ 0 ≤ t ∧ t ≤ u ∧ u ≤ 1 ∧ a = lerp x y t ∧ b = lerp x y u ∧
    σ = length (l.take (i + 1)) + t * pdist x y ∧ σ' = length (l.take (i + 1)) + u * pdist x y

/-- a walk along the line -/
def Path (l : List Pt) : ℝ → Pt → List (ℝ × Pt) → Prop
  | _, _, [] => True
  | σ, a, (σ', b) :: r => Sub l σ a σ' b ∧ Path l σ' b r

theorem sub_dist {l : List Pt} {σ σ' : ℝ} {a b : Pt} (h : Sub l σ a σ' b) : pdist a b = σ' - σ := by
  obtain ⟨i, x, y, t, u, _, _, _, htu, _, rfl, rfl, rfl, rfl⟩ := h
  rw [pdist_lerp, abs_sub_comm, abs_of_nonneg (by linarith)]; ring

theorem lerp_lerp (x y : Pt) (t u w : ℝ) : lerp (lerp x y t) (lerp x y u) w = lerp x y (t + w * (u - t)) := by
  unfold lerp; refine Prod.ext ?_ ?_ <;> (dsimp only; ring)

/-- the last arc length of a walk -/
def lastArc : ℝ → List (ℝ × Pt) → ℝ
  | σ, [] => σ
  | _, (σ', _) :: r => lastArc σ' r

theorem path_length {l : List Pt} : ∀ (r : List (ℝ × Pt)) (σ : ℝ) (a : Pt), Path l σ a r →
    length (a :: r.map Prod.snd) = lastArc σ r - σ := by
  intro r
  induction r with
  | nil => intro σ a _; simp [length, lastArc]
  | cons x r ih =>
    intro σ a h
    obtain ⟨σ', b⟩ := x
    rw [List.map_cons, length_cons_cons, sub_dist h.1, ih σ' b h.2]
    simp only [lastArc]; ring

theorem path_atArc {l : List Pt} : ∀ (r : List (ℝ × Pt)) (σ : ℝ) (a : Pt), Path l σ a r → ∀ s q,
    AtArc (a :: r.map Prod.snd) s q → AtArc l (σ + s) q := by
  intro r
  induction r with
  | nil => intro σ a _ s q h; obtain ⟨i, _, _, _, _, hb, _⟩ := h; simp at hb
  | cons x r ih =>
    intro σ a h s q hq
    obtain ⟨σ', b⟩ := x
    obtain ⟨k, c, d, w, hc, hd, hw0, hw1, rfl, rfl⟩ := hq
    cases k with
    | zero =>
      simp only [List.getElem?_cons_zero, Option.some.injEq, List.map_cons, zero_add, List.getElem?_cons_succ] at hc hd
      subst hc; subst hd
      have hdist := sub_dist h.1
      obtain ⟨i, x, y, t, u, hx, hy, ht, htu, hu, rfl, rfl, rfl, rfl⟩ := h.1
      refine ⟨i, x, y, t + w * (u - t), hx, hy, ?_, ?_, lerp_lerp x y t u w, ?_⟩
      · nlinarith
      · nlinarith
      · rw [hdist]
        simp only [zero_add, List.map_cons]
        rw [arc_zero]; ring
    | succ k =>
      have := ih σ' b h.2 (length ((b :: r.map Prod.snd).take (k + 1)) + w * pdist c d) (lerp c d w)
        ⟨k, c, d, w, by simpa using hc, by simpa using hd, hw0, hw1, rfl, rfl⟩
      rw [List.map_cons, arc_succ, sub_dist h.1]
      have e : σ + (σ' - σ + length ((b :: r.map Prod.snd).take (k + 1)) + w * pdist c d) =
        σ' + (length ((b :: r.map Prod.snd).take (k + 1)) + w * pdist c d) := by ring
      rw [e]; exact this

/-- the walk over whole segments from point `k` on, ending at `(e, q)` on the last one -/
theorem path_build {l : List Pt} (e : ℝ) (q : Pt) : ∀ (n k : Nat) (σ : ℝ) (a : Pt),
    (∀ x y, l[k + n]? = some x → l[k + n + 1]? = some y → Sub l (length (l.take (k + n + 1))) x e q) → k + n + 1 < l.length →
    (∃ x y t, l[k]? = some x ∧ l[k + 1]? = some y ∧ 0 ≤ t ∧ t ≤ 1 ∧ a = lerp x y t ∧ σ = length (l.take (k + 1)) + t * pdist x y) →
    (n = 0 → Sub l σ a e q) →
    ∃ r, Path l σ a r ∧ r.map Prod.snd = (l.drop (k + 1)).take n ++ [q] ∧ lastArc σ r = e := by
  intro n
  induction n with
  | zero => intro k σ a _ _ _ h0; exact ⟨[(e, q)], ⟨h0 rfl, trivial⟩, by simp, rfl⟩
  | succ n ih =>
    intro k σ a hlast hk ⟨x, y, t, hx, hy, ht0, ht1, ha, hσ⟩ _
    have hk2 : k + 2 < l.length := by omega
    have hz : l[k + 2]? = some l[k + 2] := List.getElem?_eq_getElem hk2
    have hstep := arc_step l k x y hx hy
    obtain ⟨r, hr1, hr2, hr3⟩ := ih (k + 1) (length (l.take (k + 2))) y
      (by rw [show k + 1 + n = k + (n + 1) by omega]; exact hlast) (by omega)
      ⟨y, l[k + 2], 0, hy, hz, le_rfl, zero_le_one, (lerp_zero _ _).symm, by ring⟩
      (by rintro rfl; exact hlast y _ hy hz)
    refine ⟨(length (l.take (k + 2)), y) :: r, ⟨⟨k, x, y, t, 1, hx, hy, ht0, ht1, le_rfl, ha, (lerp_one _ _).symm, hσ, ?_⟩, hr1⟩, ?_, hr3⟩
    · rw [hstep]; ring
    · rw [List.map_cons, hr2]
      have : l.drop (k + 1) = y :: l.drop (k + 2) := by
        rw [List.drop_eq_getElem_cons (by omega)]
        congr 1
        exact (List.getElem?_eq_some_iff.1 hy).2
      rw [this]
      rfl

theorem foldl_addPoint (ps : List Pt) : ∀ l : Line, (ps.foldl addPoint l).pts = l.pts ++ ps := by
  induction ps with
  | nil => simp
  | cons p ps ih => intro l; rw [List.foldl_cons, ih]; simp [addPoint, recomputeS]

/-- **C62.** For `0 ≤ b < e ≤` length, `GetLineFromSInterval(b, e)` is a line with a right table and length `e - b` whose
point at arc length `s` is the point of the original line at arc length `b + s`. -/
theorem C62_sub_line {l : Line} (h : TableRight l) (h2 : 2 ≤ l.pts.length) {b e : ℝ} (hb0 : 0 ≤ b) (hbe : b < e)
    (he : e ≤ length l.pts) : ∃ r, lineFromSInterval l b e = .ok r ∧ TableRight r ∧ length r.pts = e - b ∧
      ∀ s q, AtArc r.pts s q → AtArc l.pts (b + s) q := by
  have hne : l.pts ≠ [] := by rw [← List.length_pos_iff]; omega
  obtain ⟨p, hp, hpa⟩ := pointAtS_atArc h h2 hb0 (by linarith)
  obtain ⟨q, hq, hqa⟩ := pointAtS_atArc h h2 (show 0 ≤ e by linarith) he
  obtain ⟨i, x, y, hub, -, hx, hy, -, -, hlo, hhi⟩ := upperBound_spec h hne hb0 (lt_of_lt_of_le hbe he)
  -- the lower bound
  have hsz := h.1
  have hlast : e ≤ l.s[l.s.length - 1]'(by omega) := by
    rw [h.2]
    have : l.pts.take (l.s.length - 1 + 1) = l.pts := List.take_of_length_le (by omega)
    rw [this]; exact he
  have hk : lowerBound l.s e < l.s.length :=
    List.findIdx_lt_length_of_exists ⟨_, List.getElem_mem (by omega : l.s.length - 1 < l.s.length), by simpa using hlast⟩
  have hfound : e ≤ l.s[lowerBound l.s e]'hk := by
    have := List.findIdx_getElem (p := fun y => decide (e ≤ y)) (xs := l.s) (w := hk)
    exact of_decide_eq_true this
  have hbelow : ∀ j (hj : j < lowerBound l.s e), l.s[j]'(by omega) < e := by
    intro j hj
    have := List.not_of_lt_findIdx (p := fun y => decide (e ≤ y)) (xs := l.s) (i := j) hj
    simpa using this
  have hij : i + 1 ≤ lowerBound l.s e := by
    by_contra hc
    have h1 : l.s[lowerBound l.s e]'hk ≤ b := by
      have := List.not_of_lt_findIdx (p := fun y => decide (b < y)) (xs := l.s) (i := lowerBound l.s e)
        (by show lowerBound l.s e < upperBound l.s b; omega)
      simpa using this
    linarith
  obtain ⟨n, hn⟩ := Nat.exists_eq_add_of_le hij
  -- last segment
  have hj1 : i + n + 1 < l.pts.length := by omega
  have hlastSub : ∀ σ a, (∃ x y t, l.pts[i + n]? = some x ∧ l.pts[i + n + 1]? = some y ∧ 0 ≤ t ∧ t ≤ 1 ∧ a = lerp x y t ∧
      σ = length (l.pts.take (i + n + 1)) + t * pdist x y) → σ < e → Sub l.pts σ a e q := by
    rintro σ a ⟨x', y', t, hx', hy', ht0, ht1, rfl, rfl⟩ hσ
    have hst := arc_step l.pts (i + n) x' y' hx' hy'
    have hel : e ≤ length (l.pts.take (i + n + 2)) := by
      have := h.2 (lowerBound l.s e) hk
      rw [this] at hfound
      rw [show i + n + 2 = lowerBound l.s e + 1 by omega]; exact hfound
    have hd : 0 < pdist x' y' := by
      rcases (pdist_nonneg x' y').eq_or_lt with e0 | e0
      · rw [← e0] at hσ hst; linarith
      · exact e0
    have hu0 : t ≤ (e - length (l.pts.take (i + n + 1))) / pdist x' y' := by rw [le_div_iff₀ hd]; linarith
    have hu1 : (e - length (l.pts.take (i + n + 1))) / pdist x' y' ≤ 1 := by rw [div_le_one hd]; linarith
    have hue : e = length (l.pts.take (i + n + 1)) + (e - length (l.pts.take (i + n + 1))) / pdist x' y' * pdist x' y' := by
      rw [div_mul_cancel₀ _ hd.ne']; ring
    refine ⟨i + n, x', y', t, _, hx', hy', ht0, hu0, hu1, rfl, ?_, rfl, hue⟩
    have h1 : AtArc l.pts e (lerp x' y' ((e - length (l.pts.take (i + n + 1))) / pdist x' y')) :=
      ⟨i + n, x', y', _, hx', hy', ht0.trans hu0, hu1, rfl, hue⟩
    have h2 := C29_lipschitz l.pts hqa h1
    rw [sub_self, abs_zero] at h2
    exact pdist_eq_zero.1 (le_antisymm h2 (pdist_nonneg _ _))
  -- first point
  have hd : 0 < pdist x y := by linarith
  have hfirst : ∃ x' y' t, l.pts[i]? = some x' ∧ l.pts[i + 1]? = some y' ∧ 0 ≤ t ∧ t ≤ 1 ∧ p = lerp x' y' t ∧
      b = length (l.pts.take (i + 1)) + t * pdist x' y' := by
    have hbe' : b = length (l.pts.take (i + 1)) + (b - length (l.pts.take (i + 1))) / pdist x y * pdist x y := by
      rw [div_mul_cancel₀ _ hd.ne']; ring
    have ht0 : 0 ≤ (b - length (l.pts.take (i + 1))) / pdist x y := div_nonneg (by linarith) hd.le
    have ht1 : (b - length (l.pts.take (i + 1))) / pdist x y ≤ 1 := by rw [div_le_one hd]; linarith
    refine ⟨x, y, _, hx, hy, ht0, ht1, ?_, hbe'⟩
    have h1 : AtArc l.pts b (lerp x y ((b - length (l.pts.take (i + 1))) / pdist x y)) :=
      ⟨i, x, y, _, hx, hy, ht0, ht1, rfl, hbe'⟩
    have h2 := C29_lipschitz l.pts hpa h1
    rw [sub_self, abs_zero] at h2
    exact pdist_eq_zero.1 (le_antisymm h2 (pdist_nonneg _ _))
  obtain ⟨r, hr1, hr2, hr3⟩ := path_build (l := l.pts) e q n i b p
    (by
      intro x' y' hx' hy'
      rcases Nat.eq_zero_or_pos n with h0 | h0
      · subst h0
        apply hlastSub _ _ ⟨x', y', 0, hx', hy', le_rfl, zero_le_one, (lerp_zero _ _).symm, by ring⟩
        exact lt_of_le_of_lt hlo hbe
      · apply hlastSub _ _ ⟨x', y', 0, hx', hy', le_rfl, zero_le_one, (lerp_zero _ _).symm, by ring⟩
        have := hbelow (i + n) (by omega)
        rw [h.2] at this
        exact this)
    hj1 hfirst
    (by rintro rfl; exact hlastSub b p hfirst hbe)
  have hpi : pointsInSInterval l b e = .ok ((l.pts.drop (i + 1)).take n) := by
    unfold pointsInSInterval
    simp only
    rw [hub, hn, if_neg (by omega)]
    congr 2
    omega
  have hpts : (addPoint (((l.pts.drop (i + 1)).take n).foldl addPoint (addPoint empty p)) q).pts = p :: r.map Prod.snd := by
    show (((l.pts.drop (i + 1)).take n).foldl addPoint (addPoint empty p)).pts ++ [q] = _
    rw [foldl_addPoint, hr2]
    rfl
  refine ⟨_, by unfold lineFromSInterval; rw [hp, hpi, hq]; rfl, tableRight_recompute _, ?_, ?_⟩
  · refine (congrArg length hpts).trans ?_
    rw [ path_length r b p hr1, hr3]
  · intro s q' hs
    replace hs : AtArc (p :: r.map Prod.snd) s q' := hpts ▸ hs
    exact path_atArc r b p hr1 s q' hs

/-- the hypotheses are met by a part of an ordinary line -/
example : ∃ r, lineFromSInterval (ofArray [(0, 0), (1, 0), (3, 0)]) (1 / 2) 2 = .ok r ∧ length r.pts = 3 / 2 := by
  have e1 : pdist ((0 : ℝ), (0 : ℝ)) (1, 0) = 1 := by norm_num [pdist]
  have e2 : pdist ((1 : ℝ), (0 : ℝ)) (3, 0) = 2 := by
    unfold pdist
    norm_num
    rw [show (4 : ℝ) = 2 * 2 by norm_num]
    exact Real.sqrt_mul_self (by norm_num)
  obtain ⟨r, h1, _, h3, _⟩ := C62_sub_line (l := ofArray [(0, 0), (1, 0), (3, 0)]) (b := 1 / 2) (e := 2)
    (tableRight_recompute _) (by simp [ofArray, recomputeS]) (by norm_num) (by norm_num)
    (by simp [ofArray, recomputeS, length, e1, e2])
  exact ⟨r, h1, by rw [h3]; norm_num⟩

end Bark.Ln
