import Verif.Model.PlanView
import Verif.Spec.PlanView
import Verif.Props.Line
import Mathlib.Tactic.Linarith
import Mathlib.Tactic.Ring
import Mathlib.Tactic.FieldSimp
import Mathlib.Analysis.SpecialFunctions.Trigonometric.Deriv
import Mathlib.Algebra.Order.Archimedean.Basic

/-!
C36, C72 – sampling of reference lines, arcs.
-/
namespace Bark.PV
open Bark.Ln Spec

theorem addAll_pts (l : Line) (ps : List Pt) : (addAll l ps).pts = l.pts ++ ps := by
  induction ps generalizing l with
  | nil => simp [addAll]
  | cons p ps ih =>
    show (addAll (addPoint l p) ps).pts = _
    rw [ih]; simp [addPoint, recomputeS]

/-- result of the loop with enough fuel -/
theorem sampleLoop_ok {len : ℝ} : ∀ (k : ℕ) (s inc : ℝ), 0 < inc → s ≤ len → len - s ≤ k * inc →
    ∃ fuel ss, sampleLoop len fuel s inc = .ok ss ∧ ss.head? = some s ∧ ss.getLast? = some len ∧
      ∀ (i : Nat) (a b : ℝ), ss[i]? = some a → ss[i + 1]? = some b → a < b ∧ b - a ≤ inc := by
  intro k
  induction k with
  | zero =>
    intro s inc hi hs hk
    have e : s = len := by
      simp at hk; linarith
    subst e
    refine ⟨2, [s], ?_, rfl, rfl, ?_⟩
    · have : ¬ (s + inc ≤ s) := by linarith
      simp [sampleLoop, Except.map]
      rw [if_neg (by linarith)]
    · intro i a b _ h2; simp at h2
  | succ k ih =>
    intro s inc hi hs hk
    rcases hs.eq_or_lt with rfl | hlt
    · refine ⟨2, [s], ?_, rfl, rfl, ?_⟩
      · simp [sampleLoop, Except.map]
        rw [if_neg (by linarith)]
      · intro i a b _ h2; simp at h2
    · -- one more step
      have hstep : ∃ inc', inc' = (if len - s < inc ∧ len - s > 0 then len - s else inc) ∧ 0 < inc' ∧
          inc' ≤ inc ∧ s + inc' ≤ len ∧ len - (s + inc') ≤ k * inc' := by
        refine ⟨_, rfl, ?_⟩
        by_cases hc : len - s < inc ∧ len - s > 0
        · rw [if_pos hc]
          refine ⟨hc.2, hc.1.le, by linarith, ?_⟩
          have : (0 : ℝ) ≤ k * (len - s) := mul_nonneg (Nat.cast_nonneg _) hc.2.le
          linarith
        · rw [if_neg hc]
          have : inc ≤ len - s := by
            by_contra h
            exact hc ⟨by linarith, by linarith⟩
          refine ⟨hi, le_refl _, by linarith, ?_⟩
          push_cast at hk
          linarith
      obtain ⟨inc', he, h0, h1, h2, h3⟩ := hstep
      obtain ⟨fuel, ss, hss, hh, hl, hst⟩ := ih (s + inc') inc' h0 h2 h3
      refine ⟨fuel + 1, s :: ss, ?_, rfl, ?_, ?_⟩
      · unfold sampleLoop
        rw [if_pos hs]
        simp only [← he, hss]; rfl
      · cases ss with
        | nil => simp at hh
        | cons x ss => simpa using hl
      · intro i a b ha hb
        cases i with
        | zero =>
          simp at ha
          subst ha
          have : ss[0]? = some b := by simpa using hb
          rw [← List.head?_eq_getElem?, hh] at this
          cases this
          constructor <;> linarith
        | succ i =>
          have := hst i a b (by simpa using ha) (by simpa using hb)
          exact ⟨this.1, this.2.trans h1⟩

theorem sampleLoop_fuel {len : ℝ} : ∀ (n : ℕ) (s inc : ℝ) (ss : List ℝ), sampleLoop len n s inc = .ok ss →
    ∀ m, n ≤ m → sampleLoop len m s inc = .ok ss := by
  intro n
  induction n with
  | zero => intro s inc ss h; cases h
  | succ n ih =>
    intro s inc ss h m hm
    obtain ⟨m, rfl⟩ : ∃ k, m = k + 1 := ⟨m - 1, by omega⟩
    unfold sampleLoop at h ⊢
    by_cases hs : s ≤ len
    · rw [if_pos hs] at h ⊢
      simp only at h ⊢
      cases hr : sampleLoop len n (s + if len - s < inc ∧ len - s > 0 then len - s else inc)
          (if len - s < inc ∧ len - s > 0 then len - s else inc) with
      | error e => rw [hr] at h; cases h
      | ok r =>
        rw [hr] at h
        rw [ih _ _ _ hr m (by omega)]
        exact h
    · rw [if_neg hs] at h ⊢; exact h

theorem sampling (len inc : ℝ) (hl : 0 ≤ len) (hi : 0 < inc) :
    ∃ fuel ss, sampleLoop len fuel 0 inc = .ok ss ∧ Sampling len inc ss := by
  obtain ⟨k, hk⟩ := exists_nat_gt (len / inc)
  have : len - 0 ≤ k * inc := by
    rw [sub_zero]
    rw [div_lt_iff₀ hi] at hk
    exact hk.le
  obtain ⟨fuel, ss, h1, h2, h3, h4⟩ := sampleLoop_ok k 0 inc hi hl this
  exact ⟨fuel, ss, h1, ⟨h2, h3, h4⟩⟩

theorem trunc_nonneg {x : ℝ} (h : 0 ≤ x) : trunc x = ⌊x⌋ := if_pos h

theorem lineSamples_sampling {len inc : ℝ} (hl : 0 ≤ len) (hi : 0 < inc) :
    Sampling len inc (lineSamples len inc (trunc (len / inc)).toNat) := by
  have hx : 0 ≤ len / inc := div_nonneg hl hi.le
  rw [trunc_nonneg hx]
  have hfl : 0 ≤ ⌊len / inc⌋ := Int.floor_nonneg.2 hx
  obtain ⟨n, hn⟩ := Int.eq_ofNat_of_zero_le hfl
  rw [hn, Int.toNat_natCast]
  have h1 : (n : ℝ) * inc ≤ len := by
    have := Int.floor_le (len / inc)
    rw [hn, le_div_iff₀ hi] at this
    simpa using this
  have h2 : len < (n + 1 : ℝ) * inc := by
    have := Int.lt_floor_add_one (len / inc)
    rw [hn, div_lt_iff₀ hi] at this
    simpa using this
  unfold lineSamples
  have hrange : ∀ (i : Nat) (a : ℝ), ((List.range (n + 1)).map (fun i : ℕ => (i : ℝ) * inc))[i]? = some a →
      i ≤ n ∧ a = i * inc := by
    intro i a h
    rw [List.getElem?_map] at h
    cases hr : (List.range (n + 1))[i]? with
    | none => rw [hr] at h; cases h
    | some j =>
      rw [hr] at h
      rw [List.getElem?_eq_some_iff] at hr
      obtain ⟨hlt, rfl⟩ := hr
      simp at h hlt
      exact ⟨by omega, h.symm⟩
  have hlen : ((List.range (n + 1)).map (fun i : ℕ => (i : ℝ) * inc)).length = n + 1 := by simp
  by_cases hc : (n : ℝ) * inc < len
  · rw [if_pos hc]
    refine ⟨?_, by simp, ?_⟩
    · rw [List.head?_append, List.head?_eq_getElem?, List.getElem?_map]; simp
    · intro i a b ha hb
      rcases Nat.lt_or_ge (i + 1) (n + 1) with hi1 | hi1
      · rw [List.getElem?_append_left (by rw [hlen]; omega)] at ha hb
        obtain ⟨_, rfl⟩ := hrange _ _ ha
        obtain ⟨_, rfl⟩ := hrange _ _ hb
        push_cast
        constructor <;> linarith
      · have hil : i = n := by
          have := (List.getElem?_eq_some_iff.1 hb).1
          simp at this; omega
        subst hil
        rw [List.getElem?_append_left (by rw [hlen]; omega)] at ha
        rw [List.getElem?_append_right (by rw [hlen])] at hb
        obtain ⟨_, rfl⟩ := hrange _ _ ha
        simp at hb
        subst hb
        constructor <;> linarith
  · rw [if_neg hc, List.append_nil]
    have e : (n : ℝ) * inc = len := le_antisymm h1 (not_lt.1 hc)
    refine ⟨?_, ?_, ?_⟩
    · rw [List.head?_eq_getElem?, List.getElem?_map]; simp
    · rw [List.getLast?_eq_getElem?, List.getElem?_map]; simp [e]
    · intro i a b ha hb
      obtain ⟨_, rfl⟩ := hrange _ _ ha
      obtain ⟨_, rfl⟩ := hrange _ _ hb
      push_cast
      constructor <;> linarith

theorem pdist_line (p : Pt) (h : ℝ) {s t : ℝ} (hst : s ≤ t) : pdist (linePoint p h s) (linePoint p h t) = t - s := by
  unfold pdist linePoint
  have : (p.1 + s * Real.cos h - (p.1 + t * Real.cos h)) * (p.1 + s * Real.cos h - (p.1 + t * Real.cos h)) +
      (p.2 + s * Real.sin h - (p.2 + t * Real.sin h)) * (p.2 + s * Real.sin h - (p.2 + t * Real.sin h))
      = (t - s) ^ 2 := by
    have := Real.sin_sq_add_cos_sq h
    linear_combination (t - s) ^ 2 * this
  simp only [this]
  exact Real.sqrt_sq (by linarith)

theorem length_map_line (p : Pt) (h : ℝ) : ∀ (ss : List ℝ) (a b : ℝ), ss.head? = some a → ss.getLast? = some b →
    (∀ (i : Nat) (a b : ℝ), ss[i]? = some a → ss[i + 1]? = some b → a < b) →
    Ln.length (ss.map (linePoint p h)) = b - a := by
  intro ss
  induction ss with
  | nil => intro a b ha; cases ha
  | cons x ss ih =>
    intro a b ha hb hst
    simp at ha; subst ha
    cases ss with
    | nil => simp at hb; subst hb; simp [Ln.length]
    | cons y ss =>
      have h1 := ih y b rfl (by simpa using hb) (fun i a b ha hb => hst (i + 1) a b (by simpa using ha) (by simpa using hb))
      have h2 := hst 0 x y rfl rfl
      simp only [List.map_cons, Ln.length] at h1 ⊢
      rw [h1, pdist_line p h h2.le]
      ring

/-- **C36, straight lines.** For a positive increment and a non-negative length, `AddLine` appends the points
of a sampling of `[0, length]` with gaps of at most the increment, and the reported length becomes the length
of the whole reference line; on an empty plan view that is exactly the given length. -/
theorem C36_line (v : PlanView) (p : Pt) (h : ℝ) {len inc : ℝ} (hl : 0 ≤ len) (hi : 0 < inc) :
    ∃ v' ss, addLine v p h len inc = .ok v' ∧ Sampling len inc ss ∧
      v'.line.pts = v.line.pts ++ ss.map (fun s => (p.1 + s * Real.cos h, p.2 + s * Real.sin h)) ∧
      v'.length = Ln.length v'.line.pts ∧ (v.line.pts = [] → v'.length = len) := by
  have hs := lineSamples_sampling hl hi
  unfold addLine
  rw [if_neg hi.ne', if_neg]
  · refine ⟨_, _, rfl, hs, addAll_pts _ _, rfl, ?_⟩
    intro hv
    show Ln.length (addAll _ _).pts = len
    rw [addAll_pts, hv, List.nil_append, length_map_line p h _ 0 len hs.first hs.last
      (fun i a b ha hb => (hs.step i a b ha hb).1)]
    ring
  · have hx : 0 ≤ len / inc := div_nonneg hl hi.le
    rw [trunc_nonneg hx, not_lt]
    exact Int.floor_nonneg.2 hx

/-- **C36, spirals.** For a positive increment and a non-negative length, `AddSpiral` terminates, appends the
points of a sampling of `[0, length]` with gaps of at most the increment, and the reported length becomes the
length of the whole reference line. -/
theorem C36_spiral (v : PlanView) (pos : ℝ → Pt) {len inc : ℝ} (hl : 0 ≤ len) (hi : 0 < inc) :
    ∃ n v' ss, (∀ fuel, n ≤ fuel → addSpiral fuel v pos len inc = .ok v') ∧ Sampling len inc ss ∧
      v'.line.pts = v.line.pts ++ ss.map pos ∧ v'.length = Ln.length v'.line.pts := by
  obtain ⟨n, ss, hss, hs⟩ := sampling len inc hl hi
  refine ⟨n, ⟨addAll v.line (ss.map pos), Ln.length (addAll v.line (ss.map pos)).pts⟩, ss, fun fuel hf => ?_, hs,
    addAll_pts _ _, rfl⟩
  unfold addSpiral
  rw [sampleLoop_fuel n 0 inc ss hss fuel hf]; rfl

theorem fmod_two_pi (h : ℝ) : ∃ k : ℤ, fmod h (2 * Real.pi) = h - k * (2 * Real.pi) := ⟨_, rfl⟩

theorem calcArc (p : Pt) (h s : ℝ) {c : ℝ} (hc : c ≠ 0) : arcPoint p h c s = .ok (arcAt p h c s) := by
  unfold arcPoint calcArcPosition
  rw [if_neg hc]
  obtain ⟨k, hk⟩ := fmod_two_pi h
  simp only [Except.map, hk]
  have halpha : (Real.pi - s * c) / 2 - (h - k * (2 * Real.pi) - Real.pi / 2)
      = Real.pi - (h + s * c / 2) + k * (2 * Real.pi) := by ring
  rw [halpha, Real.cos_add_int_mul_two_pi, Real.sin_add_int_mul_two_pi, Real.cos_pi_sub, Real.sin_pi_sub]
  unfold arcAt
  have e1 : Real.sin (h + c * s) - Real.sin h = 2 * Real.sin (s * c / 2) * Real.cos (h + s * c / 2) := by
    rw [Real.sin_sub_sin]; ring_nf
  have e2 : Real.cos h - Real.cos (h + c * s) = 2 * Real.sin (s * c / 2) * Real.sin (h + s * c / 2) := by
    rw [Real.cos_sub_cos]
    have : (h - (h + c * s)) / 2 = -(s * c / 2) := by ring
    rw [this, Real.sin_neg]
    ring_nf
  rw [e1, e2]
  congr 2
  · field_simp
  · field_simp

theorem mapM_arc (p : Pt) (h : ℝ) {c : ℝ} (hc : c ≠ 0) (ss : List ℝ) :
    ss.mapM (arcPoint p h c) = .ok (ss.map (arcAt p h c)) := by
  induction ss with
  | nil => rfl
  | cons s ss ih => rw [List.mapM_cons, calcArc p h s hc, ih]; rfl

/-- **C36/C72, arcs.** For a positive increment, a non-negative length and a non-zero curvature, `AddArc`
terminates and appends the points of the circular arc at a sampling of `[0, length]` with gaps of at most the
increment.  The reported length is *not* updated. -/
theorem C36_arc (v : PlanView) (p : Pt) (h : ℝ) {len c inc : ℝ} (hl : 0 ≤ len) (hi : 0 < inc) (hc : c ≠ 0) :
    ∃ n v' ss, (∀ fuel, n ≤ fuel → addArc fuel v p h len c inc = .ok v') ∧ Sampling len inc ss ∧
      v'.line.pts = v.line.pts ++ ss.map (arcAt p h c) ∧ v'.length = v.length := by
  obtain ⟨n, ss, hss, hs⟩ := sampling len inc hl hi
  refine ⟨n, ⟨addAll v.line (ss.map (arcAt p h c)), v.length⟩, ss, fun fuel hf => ?_, hs, addAll_pts _ _, rfl⟩
  unfold addArc
  rw [sampleLoop_fuel n 0 inc ss hss fuel hf]
  simp only [Res.ok_bind]
  rw [mapM_arc p h hc]; rfl

/-- **C72.** The points added for an arc are those of the curve that starts at the start point, whose heading at
arc length `s` is `heading + curvature * s` and which is traversed with unit speed; they lie on the circle of
radius `1/|curvature|`. -/
theorem C72_arc_points (p : Pt) (h : ℝ) {c : ℝ} (hc : c ≠ 0) :
    (∀ s, arcPoint p h c s = .ok (arcAt p h c s)) ∧ arcAt p h c 0 = p ∧
    (∀ s, HasDerivAt (fun s => (arcAt p h c s).1) (Real.cos (h + c * s)) s ∧
      HasDerivAt (fun s => (arcAt p h c s).2) (Real.sin (h + c * s)) s) ∧
    (∀ s, pdist (arcAt p h c s) (p.1 - Real.sin h / c, p.2 + Real.cos h / c) = 1 / |c|) := by
  refine ⟨fun s => calcArc p h s hc, by simp [arcAt], fun s => ⟨?_, ?_⟩, fun s => ?_⟩
  · have h1 : HasDerivAt (fun s => h + c * s) c s := by
      simpa using ((hasDerivAt_id s).const_mul c).const_add h
    have h2 := ((h1.sin.sub_const (Real.sin h)).div_const c).const_add p.1
    have e : Real.cos (h + c * s) * c / c = Real.cos (h + c * s) := by field_simp
    rw [e] at h2
    exact h2
  · have h1 : HasDerivAt (fun s => h + c * s) c s := by
      simpa using ((hasDerivAt_id s).const_mul c).const_add h
    have h2 := ((h1.cos.const_sub (Real.cos h)).div_const c).const_add p.2
    have e : -(-Real.sin (h + c * s) * c) / c = Real.sin (h + c * s) := by field_simp
    rw [e] at h2
    exact h2
  · unfold pdist arcAt
    have : (p.1 + (Real.sin (h + c * s) - Real.sin h) / c - (p.1 - Real.sin h / c)) *
        (p.1 + (Real.sin (h + c * s) - Real.sin h) / c - (p.1 - Real.sin h / c)) +
        (p.2 + (Real.cos h - Real.cos (h + c * s)) / c - (p.2 + Real.cos h / c)) *
        (p.2 + (Real.cos h - Real.cos (h + c * s)) / c - (p.2 + Real.cos h / c)) = (1 / |c|) ^ 2 := by
      have := Real.sin_sq_add_cos_sq (h + c * s)
      rw [div_pow, sq_abs]
      field_simp
      linear_combination this
    simp only [this]
    exact Real.sqrt_sq (by positivity)

/-- **C72, straight "arcs".** With zero curvature, `AddArc` produces points that are not numbers (for every
non-negative length). -/
theorem C72_zero_curvature (v : PlanView) (p : Pt) (h : ℝ) {len inc : ℝ} (hl : 0 ≤ len) (hi : 0 < inc) :
    ∃ n, ∀ fuel, n ≤ fuel → addArc fuel v p h len 0 inc = .error .nan := by
  obtain ⟨n, ss, hss, hs⟩ := sampling len inc hl hi
  refine ⟨n, fun fuel hf => ?_⟩
  unfold addArc
  rw [sampleLoop_fuel n 0 inc ss hss fuel hf]
  simp only [Res.ok_bind]
  cases ss with
  | nil => have := hs.first; simp at this
  | cons s ss =>
    rw [List.mapM_cons]
    have : arcPoint p h 0 s = .error .nan := by simp [arcPoint, calcArcPosition, Except.map]
    rw [this]; rfl

/-- **C36, violation.** `GetLength` does not reflect arcs: for every non-degenerate arc shorter than a full turn
the plan view built from it alone reports 0 although its reference line has positive length. -/
theorem C36_arc_length_violated (p : Pt) (h : ℝ) {len c inc : ℝ} (hl : 0 < len) (hi : len ≤ inc) (hc : c ≠ 0)
    (hturn : |c * len| < 2 * Real.pi) :
    ∃ n v', (∀ fuel, n ≤ fuel → addArc fuel PlanView.new p h len c inc = .ok v') ∧ v'.length = 0 ∧
      0 < Ln.length v'.line.pts := by
  have hi0 : 0 < inc := lt_of_lt_of_le hl hi
  obtain ⟨n, v', ss, hv, hs, hpts, hlen⟩ := C36_arc PlanView.new p h hl.le hi0 hc
  refine ⟨n, v', hv, hlen, ?_⟩
  rw [hpts]
  show 0 < Ln.length ([] ++ ss.map (arcAt p h c))
  rw [List.nil_append]
  have hnn : ∀ l : List Pt, 0 ≤ Ln.length l := by
    intro l
    induction l with
    | nil => simp [Ln.length]
    | cons a l ih =>
      cases l with
      | nil => simp [Ln.length]
      | cons b l => exact add_nonneg (Real.sqrt_nonneg _) ih
  match ss, hs with
  | [], hs => have := hs.first; simp at this
  | [x], hs =>
    have h1 := hs.first
    have h2 := hs.last
    simp at h1 h2
    linarith
  | x :: y :: ss, hs =>
    have h1 := hs.first
    simp at h1
    subst h1
    obtain ⟨hy0, hy1⟩ := hs.step 0 0 y rfl rfl
    have hylen : y ≤ len := by
      -- the samples increase up to `len`
      have hmono : ∀ (l : List ℝ) (a b : ℝ), (∀ (i : Nat) (a b : ℝ), l[i]? = some a → l[i + 1]? = some b → a < b) →
          l.head? = some a → l.getLast? = some b → a ≤ b := by
        intro l
        induction l with
        | nil => intro a b _ h; cases h
        | cons x l ih =>
          intro a b hst ha hb
          simp at ha; subst ha
          cases l with
          | nil => simp at hb; exact hb.le
          | cons z l =>
            have := ih z b (fun i a b ha hb => hst (i + 1) a b (by simpa using ha) (by simpa using hb)) rfl
              (by simpa using hb)
            exact (hst 0 x z rfl rfl).le.trans this
      exact hmono (y :: ss) y len (fun i a b ha hb => (hs.step (i + 1) a b (by simpa using ha) (by simpa using hb)).1)
        rfl (by simpa using hs.last)
    have hd : 0 < pdist (arcAt p h c 0) (arcAt p h c y) := by
      unfold pdist arcAt
      apply Real.sqrt_pos.2
      by_contra hneg
      have e0 : Real.sin (h + c * y) = Real.sin h ∧ Real.cos (h + c * y) = Real.cos h := by
        set A := (Real.sin (h + c * y) - Real.sin h) / c with hA
        set B := (Real.cos h - Real.cos (h + c * y)) / c with hB
        have hz : A * A + B * B ≤ 0 := by
          push Not at hneg
          simp only [mul_zero, add_zero, sub_self, zero_div] at hneg
          nlinarith
        have hA0 : A = 0 := by nlinarith [sq_nonneg A, sq_nonneg B]
        have hB0 : B = 0 := by nlinarith [sq_nonneg A, sq_nonneg B]
        rw [hA, div_eq_zero_iff] at hA0
        rw [hB, div_eq_zero_iff] at hB0
        rcases hA0 with hA0 | hA0
        · rcases hB0 with hB0 | hB0
          · exact ⟨by linarith, by linarith⟩
          · exact absurd hB0 hc
        · exact absurd hA0 hc
      have hcos : Real.cos (c * y) = 1 := by
        have := Real.cos_sub (h + c * y) h
        rw [e0.1, e0.2] at this
        have h2 := Real.sin_sq_add_cos_sq h
        rw [add_sub_cancel_left] at this
        rw [this]; nlinarith
      rw [Real.cos_eq_one_iff] at hcos
      obtain ⟨k, hk⟩ := hcos
      have hky : |c * y| < 2 * Real.pi := by
        rw [abs_mul] at hturn ⊢
        refine lt_of_le_of_lt (mul_le_mul_of_nonneg_left ?_ (abs_nonneg c)) hturn
        rw [abs_of_pos hy0, abs_of_pos hl]; exact hylen
      have hk0 : k = 0 := by
        rw [← hk, abs_mul, abs_of_pos (by positivity : (0 : ℝ) < 2 * Real.pi)] at hky
        have : |(k : ℝ)| < 1 := by
          have := Real.pi_pos
          by_contra h
          push Not at h
          nlinarith
        have : |k| < 1 := by exact_mod_cast this
        exact Int.abs_lt_one_iff.1 this
      rw [hk0] at hk
      simp at hk
      rcases hk with hk | hk
      · exact hc hk
      · exact hy0.ne' hk
    show 0 < pdist (arcAt p h c 0) (arcAt p h c y) + Ln.length _
    have := hnn ((y :: ss).map (arcAt p h c))
    simp only [List.map_cons] at this
    linarith

/-- **C36, increments.** With an increment that is zero or negative, neither arcs nor spirals terminate (for any
non-negative length): the loop never ends, whatever the number of iterations. -/
theorem C36_increment_diverges (len inc : ℝ) (hl : 0 ≤ len) (hi : inc ≤ 0) (v : PlanView) (pos : ℝ → Pt) (fuel : ℕ) :
    addSpiral fuel v pos len inc = .error .diverges ∧
    ∀ (p : Pt) (h c : ℝ), addArc fuel v p h len c inc = .error .diverges := by
  have key : ∀ (fuel : ℕ) (s : ℝ), s ≤ len → sampleLoop len fuel s inc = .error .diverges := by
    intro fuel
    induction fuel with
    | zero => intro s _; rfl
    | succ fuel ih =>
      intro s hs
      unfold sampleLoop
      rw [if_pos hs]
      have : ¬ (len - s < inc ∧ len - s > 0) := by rintro ⟨h1, h2⟩; linarith
      simp only [if_neg this]
      rw [ih (s + inc) (by linarith)]; rfl
  constructor
  · unfold addSpiral; rw [key fuel 0 hl]; rfl
  · intro p h c; unfold addArc; rw [key fuel 0 hl]; rfl

/-- **C36, offset.** The offset transform keeps the reported length and the length of the reference line, moves
every point by the clockwise rotation followed by the shift – and leaves the arc length table empty. -/
theorem C36_offset (v : PlanView) (x y h : ℝ) :
    (applyOffset v x y h).length = v.length ∧
    Ln.length (applyOffset v x y h).line.pts = Ln.length v.line.pts ∧
    (∀ (i : Nat) (r φ : ℝ), v.line.pts[i]? = some (r * Real.cos φ, r * Real.sin φ) →
      (applyOffset v x y h).line.pts[i]? = some (r * Real.cos (φ - h) + x, r * Real.sin (φ - h) + y)) ∧
    (2 ≤ v.line.pts.length → ∀ s, 0 < s → pointAtS (applyOffset v x y h).line s = .error .ub) := by
  obtain ⟨r1, r2, r3⟩ := C64_rotate v.line h
  obtain ⟨t1, t2, t3⟩ := C64_translate (rotate v.line h) x y
  refine ⟨rfl, by rw [← r3]; exact t3, ?_, ?_⟩
  · intro i r φ hi
    exact t1 i _ (r1 i r φ hi)
  · intro h2 s hs
    exact (C28_translate_violated (rotate v.line h) x y s (by rw [r2]; exact h2) hs).2

/-- Non-vacuity: 5 m sampled every 2 m. -/
example : ∃ v', addLine PlanView.new (1, 1) 0 5 2 = .ok v' ∧ v'.line.pts = [(1, 1), (3, 1), (5, 1), (6, 1)] ∧
    v'.length = 5 := by
  have ht : trunc ((5 : ℝ) / 2) = 2 := by
    rw [trunc_nonneg (by norm_num), Int.floor_eq_iff]; norm_num
  obtain ⟨v', ss, hv, _, _, _, hlen⟩ := C36_line PlanView.new ((1 : ℝ), (1 : ℝ)) 0 (len := 5) (inc := 2)
    (by norm_num) (by norm_num)
  refine ⟨v', hv, ?_, hlen rfl⟩
  unfold addLine at hv
  rw [if_neg (by norm_num), ht, if_neg (by norm_num)] at hv
  simp only [Except.ok.injEq] at hv
  rw [← hv]
  show (addAll _ _).pts = _
  rw [addAll_pts]
  have : (Int.toNat 2) = 2 := rfl
  rw [this]
  norm_num [PlanView.new, Ln.empty, lineSamples, List.range_succ, linePoint]

end Bark.PV
