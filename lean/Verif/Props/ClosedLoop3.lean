import Verif.Props.ClosedLoop2
import Mathlib.Analysis.SpecialFunctions.Exp
import Mathlib.Analysis.Complex.Exponential
import Mathlib.Algebra.Order.Ring.Pow

/-!
C183: the desired velocity of the IDM in a simulation.
-/
set_option linter.unusedSectionVars false
namespace Bark.Loop
open Bark World

theorem genLoop_upper {p : Idm.Params} {r : Idm.Rel} {start dt v0 A : ℝ} (hA : 0 ≤ A) (hdt : 0 ≤ dt)
    (hacc : ∀ rel a, Idm.totalAcc p r v0 rel = .ok (.fin a) → a ≤ A) : ∀ (n i : Nat) (s v rel : ℝ) (l : List (ℝ × Idm.Row)), p.minVel ≤ v →
      Idm.genLoop p r start dt v0 n i s v rel = .ok l → ∀ x ∈ l, x.2.v ≤ v + n * (A * dt)
  | 0, i, s, v, rel, l, _, h => by
    simp only [Idm.genLoop, Except.ok.injEq] at h
    subst h
    intro x hx; cases hx
  | n + 1, i, s, v, rel, l, hm, h => by
    have hAd : 0 ≤ A * dt := mul_nonneg hA hdt
    simp only [Idm.genLoop] at h
    cases ht : Idm.totalAcc p r v0 rel with
    | error f => rw [ht] at h; cases h
    | ok a =>
      rw [ht] at h
      cases a with
      | fin a =>
        dsimp only at h
        have ha := mul_le_mul_of_nonneg_right (hacc rel a ht) hdt
        have hle : max (min (v + a * dt) p.maxVel) p.minVel ≤ v + A * dt :=
          max_le (le_trans (min_le_left _ _) (by linarith)) (by linarith)
        have hn0 : (0 : ℝ) ≤ n * (A * dt) := by positivity
        cases hg : Idm.genLoop p r start dt v0 n (i + 1) (s + (1 / 2 * a * dt * dt + v * dt)) (max (min (v + a * dt) p.maxVel) p.minVel)
          (Idm.nextDist r v0 rel a dt) with
        | error f => rw [hg] at h; cases h
        | ok l' =>
          rw [hg] at h
          simp only [Except.ok.injEq] at h
          subst h
          intro x hx
          rw [List.mem_cons] at hx
          push_cast
          rcases hx with rfl | hx
          · dsimp only; linarith
          · have := genLoop_upper hA hdt hacc n (i + 1) _ _ _ l' (le_max_right _ _) hg x hx
            linarith
      | _ => cases h

theorem genLoop_free {p : Idm.Params} {r : Idm.Rel} {start dt v0 A : ℝ} (hA : 0 ≤ A) (hdt : 0 ≤ dt)
    (hacc : ∀ rel, Idm.totalAcc p r v0 rel = .ok (.fin A)) : ∀ (n i : Nat) (s v rel : ℝ) (l : List (ℝ × Idm.Row)), p.minVel ≤ v →
      v + n * (A * dt) ≤ p.maxVel → Idm.genLoop p r start dt v0 n i s v rel = .ok l → ∀ z, l.getLast? = some z →
        z.2.v = v + n * (A * dt) ∧ z.2.s = s + v * (n * dt) + 1 / 2 * A * (n * dt) ^ 2
  | 0, i, s, v, rel, l, _, _, h => by
    simp only [Idm.genLoop, Except.ok.injEq] at h
    subst h
    intro z hz; cases hz
  | n + 1, i, s, v, rel, l, hm, hM, h => by
    have hAd : 0 ≤ A * dt := mul_nonneg hA hdt
    have hn0 : (0 : ℝ) ≤ n * (A * dt) := by positivity
    push_cast at hM
    have hv : max (min (v + A * dt) p.maxVel) p.minVel = v + A * dt := by
      rw [min_eq_left (by linarith), max_eq_left (by linarith)]
    simp only [Idm.genLoop, hacc, hv] at h
    cases hg : Idm.genLoop p r start dt v0 n (i + 1) (s + (1 / 2 * A * dt * dt + v * dt)) (v + A * dt)
      (Idm.nextDist r v0 rel A dt) with
    | error f => rw [hg] at h; cases h
    | ok l' =>
      rw [hg] at h
      simp only [Except.ok.injEq] at h
      subst h
      intro z hz
      cases n with
      | zero =>
        simp only [Idm.genLoop, Except.ok.injEq] at hg
        subst hg
        simp only [List.getLast?_singleton, Option.some.injEq] at hz
        subst hz
        push_cast
        constructor <;> ring
      | succ n =>
        have hl' : l' ≠ [] := by
          rintro rfl
          have := (Idm.genLoop_spec _ _ _ _ _ hg).1
          simp at this
        rw [List.getLast?_cons, List.getLast?_eq_some_getLast hl'] at hz
        obtain ⟨q1, q2⟩ := genLoop_free hA hdt hacc (n + 1) (i + 1) _ _ _ l' (by linarith) (by push_cast at hM ⊢; linarith) hg z
          (by rw [List.getLast?_eq_some_getLast hl']; exact hz)
        rw [q1, q2]
        push_cast
        constructor <;> ring

/-- the acceleration on a free road -/
noncomputable def freeAcc (p : Idm.Params) (v : ℝ) : ℝ := max (min (p.maxAcc * (1 - (v / p.desiredVel) ^ p.exponent)) p.accUpper) p.accLower

theorem freeAcc_bounds {p : Idm.Params} (hp : Idm.Spec.Sane p) (hv : 0 < p.desiredVel) (he : p.exponent ≠ 0) (hl : p.accLower ≤ 0) (hu : 0 ≤ p.accUpper)
    {v T : ℝ} (h0 : 0 ≤ v) (h1 : v ≤ p.desiredVel) (hT : 0 ≤ T) (hs : p.exponent * p.maxAcc * T ≤ p.desiredVel) :
    0 ≤ freeAcc p v ∧ v + freeAcc p v * T ≤ p.desiredVel ∧
      min p.maxAcc p.accUpper / p.desiredVel * (p.desiredVel - v) ≤ freeAcc p v := by
  have hm := hp.maxAcc
  have hu0 : 0 ≤ v / p.desiredVel := by positivity
  have hu1 : v / p.desiredVel ≤ 1 := (div_le_one hv).2 h1
  have hup : 1 - (v / p.desiredVel) ^ p.exponent ≤ p.exponent * (1 - v / p.desiredVel) := by
    have := one_add_mul_le_pow (a := v / p.desiredVel - 1) (by linarith) p.exponent
    rw [show 1 + (v / p.desiredVel - 1) = v / p.desiredVel by ring] at this
    linarith
  have hlo : 1 - v / p.desiredVel ≤ 1 - (v / p.desiredVel) ^ p.exponent := by
    have := pow_le_of_le_one hu0 hu1 he
    linarith
  have hfree0 : 0 ≤ p.maxAcc * (1 - (v / p.desiredVel) ^ p.exponent) := mul_nonneg hm.le (by linarith)
  have e : freeAcc p v = min (p.maxAcc * (1 - (v / p.desiredVel) ^ p.exponent)) p.accUpper := by
    unfold freeAcc
    exact max_eq_left (le_trans hl (le_min hfree0 hu))
  rw [e]
  refine ⟨le_min hfree0 hu, ?_, ?_⟩
  · have a1 : min (p.maxAcc * (1 - (v / p.desiredVel) ^ p.exponent)) p.accUpper * T ≤ p.maxAcc * (p.exponent * (1 - v / p.desiredVel)) * T :=
      mul_le_mul_of_nonneg_right (le_trans (min_le_left _ _) (mul_le_mul_of_nonneg_left hup hm.le)) hT
    have a2 : p.maxAcc * (p.exponent * (1 - v / p.desiredVel)) * T = p.exponent * p.maxAcc * T * (1 - v / p.desiredVel) := by ring
    have a3 : p.exponent * p.maxAcc * T * (1 - v / p.desiredVel) ≤ p.desiredVel * (1 - v / p.desiredVel) :=
      mul_le_mul_of_nonneg_right hs (by linarith)
    have a4 : p.desiredVel * (1 - v / p.desiredVel) = p.desiredVel - v := by field_simp
    linarith
  · have b0 : min p.maxAcc p.accUpper / p.desiredVel * (p.desiredVel - v) = min p.maxAcc p.accUpper * (1 - v / p.desiredVel) := by
      field_simp
    have hmn : 0 ≤ min p.maxAcc p.accUpper := le_min hm.le hu
    rw [b0]
    refine le_min ?_ ?_
    · exact mul_le_mul (min_le_left _ _) hlo (by linarith) hm.le
    · exact le_trans (mul_le_of_le_one_right hmn (by linarith)) (min_le_right _ _)

theorem total_le_free {p : Idm.Params} (hp : Idm.Spec.Sane p) (hc : p.coolness = 0) (r : Idm.Rel) (v : ℝ) :
    ∀ rel a, Idm.totalAcc p r v rel = .ok (.fin a) → a ≤ freeAcc p v := by
  intro rel a h
  cases hr : r.hasLeader with
  | false =>
    have := Idm.free_value hp hr v rel
    rw [Idm.Spec.Returns, h] at this
    cases this
    exact le_refl _
  | true =>
    have := Idm.C23_value hp hc hr v rel
    rw [Idm.Spec.Returns, h] at this
    cases this
    unfold freeAcc
    split_ifs
    · apply max_le_max _ (le_refl _)
      apply min_le_min _ (le_refl _)
      unfold Idm.Spec.textbook
      apply mul_le_mul_of_nonneg_left _ hp.maxAcc.le
      have := sq_nonneg (Idm.Spec.desiredGap p v r.velocity / rel)
      linarith
    · exact le_max_right _ _

theorem step_total {p : Idm.Params} (hn : 2 ≤ p.numPoints) (T : ℝ) (A : ℝ) : ((p.numPoints - 1 : ℕ) : ℝ) * (A * Idm.stepSize p T) = A * T := by
  have h2 : (2 : ℝ) ≤ p.numPoints := by exact_mod_cast hn
  have : ((p.numPoints - 1 : ℕ) : ℝ) = (p.numPoints : ℝ) - 1 := by rw [Nat.cast_sub (by omega)]; simp
  rw [this]
  unfold Idm.stepSize
  have : (p.numPoints : ℝ) - 1 ≠ 0 := by linarith
  field_simp

theorem stepSize_nonneg {p : Idm.Params} (hn : 2 ≤ p.numPoints) {T : ℝ} (hT : 0 ≤ T) : 0 ≤ Idm.stepSize p T := by
  have h2 : (2 : ℝ) ≤ p.numPoints := by exact_mod_cast hn
  exact div_nonneg hT (by linarith)

/-- planning with the IDM below the desired velocity -/
theorem planIdm_desired {p : Idm.Params} (hp : Idm.Spec.Sane p) (hc : p.coolness = 0) (hn : 2 ≤ p.numPoints) (hm : p.minVel ≤ p.maxVel)
    (h00 : 0 ≤ p.minVel) (hv : 0 < p.desiredVel) (he : p.exponent ≠ 0) (hl : p.accLower ≤ 0) (hu : 0 ≤ p.accUpper) {r : Idm.Rel} {T : ℝ} (hT : 0 ≤ T)
    (hs : p.exponent * p.maxAcc * T ≤ p.desiredVel) (y : ℝ × ℝ × ℝ) (h0 : p.minVel ≤ y.2.2) (h1 : y.2.2 ≤ p.desiredVel) :
    ∃ tr z, planIdm p r y.1 T y = .ok tr ∧ tr.head? = some y ∧ tr.getLast? = some z ∧ z.1 = y.1 + T ∧ p.minVel ≤ z.2.2 ∧ z.2.2 ≤ p.maxVel ∧
      z.2.2 ≤ p.desiredVel ∧
      (r.hasLeader = false → p.desiredVel ≤ p.maxVel → z.2.2 = y.2.2 + freeAcc p y.2.2 * T ∧
        z.2.1 = y.2.1 + y.2.2 * T + 1 / 2 * freeAcc p y.2.2 * T ^ 2) := by
  obtain ⟨tr, z, e1, e2, e3, e4, e5, e6⟩ := planIdm_spec (T := T) hp hn hm y (r := r) (Or.inl hc)
  obtain ⟨b1, b2, -⟩ := freeAcc_bounds hp hv he hl hu (le_trans h00 h0) h1 hT hs
  refine ⟨tr, z, e1, e2, e3, e4, e5, e6, ?_⟩
  unfold planIdm at e1
  cases hg : Idm.generate p r y.1 (Idm.stepSize p T) y.2.1 y.2.2 with
  | error f => rw [hg] at e1; cases e1
  | ok l =>
    rw [hg] at e1
    simp only [Except.ok.injEq] at e1
    subst e1
    have hlen : l.length = p.numPoints - 1 := (Idm.genLoop_spec _ _ _ _ _ hg).1
    have hne : l ≠ [] := by rintro rfl; simp at hlen; omega
    have hz : ∃ q, l.getLast? = some q ∧ z = vec q.2 := by
      rw [List.getLast?_cons, List.getLast?_map, List.getLast?_eq_some_getLast hne] at e3
      simp only [Option.map_some, Option.getD_some, Option.some.injEq] at e3
      exact ⟨_, List.getLast?_eq_some_getLast hne, e3.symm⟩
    obtain ⟨q, hq, rfl⟩ := hz
    constructor
    · have := genLoop_upper b1 (stepSize_nonneg hn hT) (total_le_free hp hc r y.2.2) _ _ _ _ _ l h0 hg q (List.mem_of_getLast? hq)
      rw [step_total hn] at this
      exact le_trans this b2
    · intro hf hmv
      have hacc : ∀ rel, Idm.totalAcc p r y.2.2 rel = .ok (.fin (freeAcc p y.2.2)) := fun rel => Idm.free_value hp hf y.2.2 rel
      have hst := step_total hn T 1
      rw [one_mul, one_mul] at hst
      have := genLoop_free b1 (stepSize_nonneg hn hT) hacc _ _ _ _ _ l h0 (by rw [step_total hn]; linarith) hg q hq
      rw [step_total hn, hst] at this
      exact this

section
variable {St Ac B E Sh Box O : Type}
variable {P : Plug ℝ St Ac B E Sh Box O} {lane : World ℝ St Ac B E Sh Box O → Nat → Bool}
  {behav : Drive → B} {exec : Res (Interp.Exec (ℝ × ℝ × ℝ)) → E} {st : ℝ × ℝ × ℝ → St}

/-- C183: an agent that drives with the IDM (without the constant acceleration heuristic) at no more than its desired velocity never exceeds it, whatever
vehicles it follows, if no step is so long that (exponent) × (maximal acceleration) × (step) exceeds the desired velocity -/
theorem C183_never_above_desired {p : Idm.Params} (hp : Idm.Spec.Sane p) (hc : p.coolness = 0) (hn : 2 ≤ p.numPoints) (h0 : 0 ≤ p.minVel)
    (hm : p.minVel ≤ p.maxVel) (hv : 0 < p.desiredVel) (he : p.exponent ≠ 0) (hl : p.accLower ≤ 0) (hu : 0 ≤ p.accUpper)
    {rel : World ℝ St Ac B E Sh Box O → Nat → Idm.Rel}
    (hP : Spec.Drives P lane (fun obs id dt x => planIdm p (rel obs id) obs.time dt x) behav exec st)
    {w w' : World ℝ St Ac B E Sh Box O} (hw : Props.WellFormed w) (dts : List ℝ) (hpos : ∀ d ∈ dts, 0 < d)
    (hshort : ∀ d ∈ dts, p.exponent * p.maxAcc * d ≤ p.desiredVel)
    (h : run P w (Spec.steps dts) = .ok w') {id : Nat} {a : Agent ℝ St Ac B E Sh} (ha : w.getAgent id = some a)
    {x : ℝ × ℝ × ℝ} (hi' : Spec.Driving w.time behav exec st x a) (hx : x.1 = w.time) (hx0 : p.minVel ≤ x.2.2) (hx1 : x.2.2 ≤ p.desiredVel) :
    ∀ a', w'.getAgent id = some a' → ∃ z, a'.currentState = .ok (st z) ∧ z.1 = w'.time ∧ p.minVel ≤ z.2.2 ∧ z.2.2 ≤ p.desiredVel := by
  obtain ⟨r1, -, -⟩ := drive_run hP hw dts hpos h ha hi' hx (fun z => p.minVel ≤ z.2.2 ∧ z.2.2 ≤ p.desiredVel) ⟨hx0, hx1⟩ (by
      intro obs dt hmem y hdt hoy hyd i1 hl'
      rw [hoy]
      obtain ⟨tr, z, q1, q2, q3, q4, q5, -, q6, -⟩ := planIdm_desired hp hc hn hm h0 hv he hl hu hdt.le (hshort dt hmem) y (r := rel obs id)
        i1.1 i1.2
      exact ⟨tr, z, q1, q2, q3, q4, q5, q6⟩)
  intro a' ha'
  obtain ⟨z, d, e1, e2⟩ := r1 a' ha'
  exact ⟨z, d.2.2.2, e1, e2⟩

/-- C183: on a free road it speeds up monotonically, and its distance to the desired velocity shrinks at least exponentially with the time driven,
independent of how the time is divided into steps; it never moves backwards -/
theorem C183_converges {p : Idm.Params} (hp : Idm.Spec.Sane p) (hc : p.coolness = 0) (hn : 2 ≤ p.numPoints) (h0 : 0 ≤ p.minVel)
    (hm : p.desiredVel ≤ p.maxVel) (hv : 0 < p.desiredVel) (he : p.exponent ≠ 0) (hl : p.accLower ≤ 0) (hu : 0 ≤ p.accUpper)
    {rel : World ℝ St Ac B E Sh Box O → Nat → Idm.Rel} (hrel : ∀ obs id, (rel obs id).hasLeader = false)
    (hP : Spec.Drives P lane (fun obs id dt x => planIdm p (rel obs id) obs.time dt x) behav exec st)
    {w w' : World ℝ St Ac B E Sh Box O} (hw : Props.WellFormed w) (dts : List ℝ) (hpos : ∀ d ∈ dts, 0 < d)
    (hshort : ∀ d ∈ dts, p.exponent * p.maxAcc * d ≤ p.desiredVel)
    (h : run P w (Spec.steps dts) = .ok w') {id : Nat} {a : Agent ℝ St Ac B E Sh} (ha : w.getAgent id = some a)
    {x : ℝ × ℝ × ℝ} (hi' : Spec.Driving w.time behav exec st x a) (hx : x.1 = w.time) (hx0 : p.minVel ≤ x.2.2) (hx1 : x.2.2 ≤ p.desiredVel) :
    ∀ a', w'.getAgent id = some a' → ∃ z, a'.currentState = .ok (st z) ∧ z.1 = w'.time ∧ x.2.2 ≤ z.2.2 ∧ z.2.2 ≤ p.desiredVel ∧
      p.desiredVel - z.2.2 ≤ (p.desiredVel - x.2.2) * Real.exp (-(min p.maxAcc p.accUpper / p.desiredVel) * (w'.time - w.time)) ∧
      x.2.1 + x.2.2 * (w'.time - w.time) ≤ z.2.1 := by
  obtain ⟨r1, -, -⟩ := drive_run hP hw dts hpos h ha hi' hx (fun z => x.2.2 ≤ z.2.2 ∧ z.2.2 ≤ p.desiredVel ∧
      p.desiredVel - z.2.2 ≤ (p.desiredVel - x.2.2) * Real.exp (-(min p.maxAcc p.accUpper / p.desiredVel) * (z.1 - x.1)) ∧
      x.2.1 + x.2.2 * (z.1 - x.1) ≤ z.2.1 ∧ x.1 ≤ z.1) ⟨le_refl _, hx1, by simp, by simp, le_refl _⟩ (by
      intro obs dt hmem y hdt hoy hyd ⟨i1, i2, i3, i4, i5⟩ hl'
      rw [hoy]
      have hy0 : p.minVel ≤ y.2.2 := le_trans hx0 i1
      obtain ⟨tr, z, q1, q2, q3, q4, q5, -, q6, q7⟩ := planIdm_desired hp hc hn (by linarith) h0 hv he hl hu hdt.le (hshort dt hmem) y (r := rel obs id)
        hy0 i2
      obtain ⟨q7, q8⟩ := q7 (hrel obs id) hm
      obtain ⟨b1, b2, b3⟩ := freeAcc_bounds hp hv he hl hu (le_trans h0 hy0) i2 hdt.le (hshort dt hmem)
      have hAT : 0 ≤ freeAcc p y.2.2 * dt := mul_nonneg b1 hdt.le
      refine ⟨tr, z, q1, q2, q3, q4, by rw [q7]; linarith, q6, ?_, ?_, by rw [q4]; linarith⟩
      · rw [q7, q4]
        set c := min p.maxAcc p.accUpper / p.desiredVel with hcdef
        have h3 : c * (p.desiredVel - y.2.2) * dt ≤ freeAcc p y.2.2 * dt := mul_le_mul_of_nonneg_right b3 hdt.le
        have hexp : 1 - c * dt ≤ Real.exp (-c * dt) := by
          have := Real.add_one_le_exp (-c * dt)
          linarith
        have hg0 : 0 ≤ p.desiredVel - y.2.2 := by linarith
        have e : Real.exp (-c * (y.1 + dt - x.1)) = Real.exp (-c * (y.1 - x.1)) * Real.exp (-c * dt) := by
          rw [← Real.exp_add]; congr 1; ring
        rw [e]
        calc p.desiredVel - (y.2.2 + freeAcc p y.2.2 * dt) ≤ (p.desiredVel - y.2.2) * (1 - c * dt) := by linarith
          _ ≤ (p.desiredVel - y.2.2) * Real.exp (-c * dt) := mul_le_mul_of_nonneg_left hexp hg0
          _ ≤ ((p.desiredVel - x.2.2) * Real.exp (-c * (y.1 - x.1))) * Real.exp (-c * dt) :=
            mul_le_mul_of_nonneg_right i3 (Real.exp_pos _).le
          _ = _ := by ring
      · rw [q8, q4]
        have h5 : x.2.2 * dt ≤ y.2.2 * dt := mul_le_mul_of_nonneg_right i1 hdt.le
        have h6 : 0 ≤ 1 / 2 * freeAcc p y.2.2 * dt ^ 2 := by positivity
        linarith)
  intro a' ha'
  obtain ⟨z, d, e1, e2, e3, e4, e5, -⟩ := r1 a' ha'
  rw [e1, hx] at e4 e5
  exact ⟨z, d.2.2.2, e1, e2, e3, e4, e5⟩

end

/-! ### instances -/

/-- no vehicle ahead -/
noncomputable def noRel (_ : World ℝ (ℝ × ℝ × ℝ) Unit Drive (Res (Interp.Exec (ℝ × ℝ × ℝ))) Unit Unit Unit) (_ : Nat) : Idm.Rel := ⟨0, 1000000, 0, false⟩

/-- a vehicle standing at the start of a free road -/
noncomputable def startWorld : World ℝ (ℝ × ℝ × ℝ) Unit Drive (Res (Interp.Exec (ℝ × ℝ × ℝ))) Unit Unit Unit :=
  { agents := [(0, driven 0 0 0)], time := 0, rtree := [], removeAgents := false, mapBox := none, observer := () }

theorem startWorld_wf : Props.WellFormed startWorld := by
  refine ⟨by simp [OMap.Sorted, startWorld], ?_, by simp [startWorld]⟩
  intro id a h
  have hm := OMap.find_some_mem h
  simp only [startWorld, List.mem_cons, List.not_mem_nil, or_false, Prod.mk.injEq] at hm
  rcases hm with ⟨rfl, rfl⟩; simp [driven]

/-- the hypotheses of C183 hold with a vehicle ahead and on a free road, for steps of a second -/
example : ∃ w', run (drivePlug (fun _ _ => true) fun obs id dt x => planIdm Idm.wp (someRel obs id) obs.time dt x)
      drivenWorld (Spec.steps [1, 1]) = .ok w' ∧ ∀ a', w'.getAgent 0 = some a' → ∃ z, a'.currentState = .ok z ∧ z.2.2 ≤ 15 := by
  obtain ⟨w', h, ht⟩ := C180_clock (drivePlug (fun _ _ => true) fun obs id dt x => planIdm Idm.wp (someRel obs id) obs.time dt x)
    drivenWorld_wf [1, 1]
  have r1 := C183_never_above_desired Idm.wp_sane rfl (by norm_num [Idm.wp]) (by norm_num [Idm.wp]) (by norm_num [Idm.wp]) (by norm_num [Idm.wp])
    (by norm_num [Idm.wp]) (by norm_num [Idm.wp]) (by norm_num [Idm.wp]) 
    (drivePlug_drives _ _) drivenWorld_wf [1, 1] (by simp) (by norm_num [Idm.wp]) h (id := 0)
    (a := driven 0 0 10) rfl (x := (0, 0, 10)) ⟨le_refl _, ⟨_, rfl⟩, ⟨_, rfl, rfl⟩, rfl⟩ rfl (by norm_num [Idm.wp]) (by norm_num [Idm.wp])
  refine ⟨w', h, fun a' ha' => ?_⟩
  obtain ⟨z, e1, -, -, e2⟩ := r1 a' ha'
  exact ⟨z, e1, by simpa [Idm.wp] using e2⟩

example : ∃ w', run (drivePlug (fun _ _ => true) fun obs id dt x => planIdm Idm.wp (noRel obs id) obs.time dt x)
      startWorld (Spec.steps [1, 1]) = .ok w' ∧ ∀ a', w'.getAgent 0 = some a' → ∃ z, a'.currentState = .ok z ∧ z.2.2 ≤ 15 ∧
        15 - z.2.2 ≤ 15 * Real.exp (-(2 / 15) * 2) := by
  obtain ⟨w', h, ht⟩ := C180_clock (drivePlug (fun _ _ => true) fun obs id dt x => planIdm Idm.wp (noRel obs id) obs.time dt x)
    startWorld_wf [1, 1]
  have r1 := C183_converges Idm.wp_sane rfl (by norm_num [Idm.wp]) (by norm_num [Idm.wp]) (by norm_num [Idm.wp]) (by norm_num [Idm.wp])
    (by norm_num [Idm.wp]) (by norm_num [Idm.wp]) (by norm_num [Idm.wp]) (fun _ _ => rfl)
    (drivePlug_drives _ _) startWorld_wf [1, 1] (by simp) (by norm_num [Idm.wp]) h (id := 0)
    (a := driven 0 0 0) rfl (x := (0, 0, 0)) ⟨le_refl _, ⟨_, rfl⟩, ⟨_, rfl, rfl⟩, rfl⟩ rfl (by norm_num [Idm.wp]) (by norm_num [Idm.wp])
  refine ⟨w', h, fun a' ha' => ?_⟩
  obtain ⟨z, e1, -, -, e2, e3, -⟩ := r1 a' ha'
  have ht' : w'.time = 2 := by rw [ht]; unfold Spec.timeAt startWorld; norm_num
  rw [ht'] at e3
  refine ⟨z, e1, by simpa [Idm.wp] using e2, ?_⟩
  norm_num [Idm.wp, startWorld] at e3 ⊢
  exact e3

/-- the bound on the step is needed: a standing vehicle that makes one step of ten seconds on a free road drives faster than it desires -/
theorem C183_long_steps : ∃ w', run (drivePlug (fun _ _ => true) fun obs id dt x => planIdm Idm.wp (noRel obs id) obs.time dt x)
      startWorld (Spec.steps [10]) = .ok w' ∧ ∃ a', w'.getAgent 0 = some a' ∧ ∃ z, a'.currentState = .ok z ∧ Idm.wp.desiredVel < z.2.2 := by
  obtain ⟨w', h, ht⟩ := C180_clock (drivePlug (fun _ _ => true) fun obs id dt x => planIdm Idm.wp (noRel obs id) obs.time dt x)
    startWorld_wf [10]
  have hacc : ∀ rel, Idm.totalAcc Idm.wp ⟨0, 1000000, 0, false⟩ 0 rel = .ok (.fin 2) := fun rel => by
    have := Idm.free_value Idm.wp_sane (r := ⟨0, 1000000, 0, false⟩) rfl 0 rel
    rw [this]
    norm_num [Idm.wp]
  obtain ⟨r1, r2, -⟩ := drive_run (drivePlug_drives (fun _ _ => true) fun obs id dt x => planIdm Idm.wp (noRel obs id) obs.time dt x)
    startWorld_wf [10] (by simp) h (id := 0)
    (a := driven 0 0 0) rfl (x := (0, 0, 0)) ⟨le_refl _, ⟨_, rfl⟩, ⟨_, rfl, rfl⟩, rfl⟩ rfl
    (fun z => z.2.2 = 2 * z.1 ∧ 0 ≤ z.1) (by norm_num) (by
      intro obs dt hmem y hdt hoy hyd i1 hl'
      simp only [List.mem_cons, List.not_mem_nil, or_false] at hmem
      subst hmem
      rw [hoy]
      have ht' : w'.time = 10 := by rw [ht]; unfold Spec.timeAt startWorld; norm_num
      have hy1 : y.1 = 0 := le_antisymm (by linarith) i1.2
      have hy2 : y.2.2 = 0 := by rw [i1.1, hy1, mul_zero]
      obtain ⟨tr, z, e1, e2, e3, e4, e5, e6⟩ := planIdm_spec (T := 10) (r := noRel obs 0) Idm.wp_sane (by norm_num [Idm.wp]) (by norm_num [Idm.wp]) y
        (Or.inl rfl)
      refine ⟨tr, z, e1, e2, e3, e4, ?_, by rw [e4, hy1]; norm_num⟩
      unfold planIdm at e1
      cases hg : Idm.generate Idm.wp (noRel obs 0) y.1 (Idm.stepSize Idm.wp 10) y.2.1 y.2.2 with
      | error f => rw [hg] at e1; cases e1
      | ok l =>
        rw [hg] at e1
        simp only [Except.ok.injEq] at e1
        subst e1
        have hlen : l.length = Idm.wp.numPoints - 1 := (Idm.genLoop_spec _ _ _ _ _ hg).1
        have hne : l ≠ [] := by rintro rfl; simp [Idm.wp] at hlen
        rw [List.getLast?_cons, List.getLast?_map, List.getLast?_eq_some_getLast hne] at e3
        simp only [Option.map_some, Option.getD_some, Option.some.injEq] at e3
        subst e3
        have := genLoop_free (A := 2) (by norm_num) (stepSize_nonneg (p := Idm.wp) (by norm_num [Idm.wp]) (by norm_num)) (by
          rw [hy2]; exact hacc) _ _ _ _ _ l (by rw [hy2]; norm_num [Idm.wp]) (by
          rw [step_total (by norm_num [Idm.wp]), hy2]; norm_num [Idm.wp]) hg _ (List.getLast?_eq_some_getLast hne)
        rw [step_total (by norm_num [Idm.wp])] at this
        show (l.getLast hne).2.v = _
        rw [this.1, e4, hy1, hy2]
        norm_num)
  cases hg : w'.getAgent 0 with
  | none => exact absurd hg (r2 rfl fun _ => rfl)
  | some a' =>
    obtain ⟨z, d, e1, e2, -⟩ := r1 a' hg
    refine ⟨w', h, a', hg, z, d.2.2.2, ?_⟩
    rw [e2, e1, ht]
    unfold Spec.timeAt startWorld
    norm_num [Idm.wp]

end Bark.Loop
