import Verif.Spec.Follow
import Verif.Props.ClosedLoop3

/-! C197: following with the IDM without running into the vehicle ahead. -/
namespace Bark.Loop
open Bark World
set_option linter.unusedSectionVars false

open Spec (Safe Roomy NeverBrakes)

theorem pos_of_scaled {c x : ℝ} (h : 0 < c * x) (hc : 0 < c) : 0 < x := (mul_pos_iff_of_pos_left hc).1 h

theorem safe_mono {B g g' u u' : ℝ} (hB : 0 ≤ B) (h : Safe B g u) (hg : g ≤ g') (hu : u' ≤ u) : Safe B g' u' := by
  obtain ⟨h1, h2⟩ := h
  refine ⟨lt_of_lt_of_le h1 hg, ?_⟩
  rcases le_or_gt u' 0 with c | c
  · exact Or.inl c
  · right
    rcases h2 with h2 | h2
    · linarith
    · have e1 : u' ^ 2 ≤ u ^ 2 := pow_le_pow_left₀ c.le hu 2
      have e2 : 2 * B * g ≤ 2 * B * g' := mul_le_mul_of_nonneg_left hg (by linarith)
      linarith

/-- braking with at least `B` for a while keeps it safe -/
theorem safe_brake {B g u a h : ℝ} (hB : 0 < B) (hs : Safe B g u) (ha : a ≤ -B) (hh : 0 ≤ h) :
    Safe B (g - (u * h + 1 / 2 * a * h * h)) (u + a * h) := by
  obtain ⟨h1, h2⟩ := hs
  have hah : a * h ≤ 0 := mul_nonpos_of_nonpos_of_nonneg (by linarith) hh
  have hahh : a * h * h ≤ 0 := mul_nonpos_of_nonpos_of_nonneg hah hh
  rcases le_or_gt u 0 with c | c
  · have : u * h ≤ 0 := mul_nonpos_of_nonpos_of_nonneg c hh
    exact ⟨by linarith, Or.inl (by linarith)⟩
  · have h2' : u ^ 2 < 2 * B * g := by
      rcases h2 with h2 | h2
      · linarith
      · exact h2
    rcases le_or_gt 0 (2 * u + a * h) with k | k
    · have e : 2 * B * (g - (u * h + 1 / 2 * a * h * h)) - (u + a * h) ^ 2 = (2 * B * g - u ^ 2) - h * (a + B) * (2 * u + a * h) := by ring
      have e2 : h * (a + B) * (2 * u + a * h) ≤ 0 :=
        mul_nonpos_of_nonpos_of_nonneg (mul_nonpos_of_nonneg_of_nonpos hh (by linarith)) k
      have e3 : 0 < 2 * B * (g - (u * h + 1 / 2 * a * h * h)) - (u + a * h) ^ 2 := by linarith
      have e4 : 0 < 2 * B * (g - (u * h + 1 / 2 * a * h * h)) := by nlinarith [sq_nonneg (u + a * h)]
      refine ⟨?_, Or.inr (by linarith)⟩
      by_contra hc
      have := mul_nonpos_of_nonneg_of_nonpos (show (0 : ℝ) ≤ 2 * B by linarith) (not_lt.1 hc)
      linarith
    · have : h * (2 * u + a * h) ≤ 0 := mul_nonpos_of_nonneg_of_nonpos hh k.le
      exact ⟨by nlinarith, Or.inl (by linarith)⟩

/-- position and velocity after the rows `l` -/
def reached (l : List (ℝ × Idm.Row)) (s v : ℝ) : ℝ × ℝ :=
  match l.getLast? with
  | some x => (x.2.s, x.2.v)
  | none => (s, v)

theorem reached_cons (x : ℝ × Idm.Row) (l : List (ℝ × Idm.Row)) (s v : ℝ) : reached (x :: l) s v = reached l x.2.s x.2.v := by
  unfold reached
  rw [List.getLast?_cons]
  cases l.getLast? <;> rfl

/-- one round of the loop -/
theorem genLoop_cons {p : Idm.Params} {r : Idm.Rel} {start dt v0 : ℝ} {n i : Nat} {s v rel : ℝ} {l : List (ℝ × Idm.Row)}
    (h : Idm.genLoop p r start dt v0 (n + 1) i s v rel = .ok l) : ∃ a l', Idm.totalAcc p r v0 rel = .ok (.fin a) ∧
      Idm.genLoop p r start dt v0 n (i + 1) (s + (1 / 2 * a * dt * dt + v * dt)) (max (min (v + a * dt) p.maxVel) p.minVel)
        (Idm.nextDist r v0 rel a dt) = .ok l' ∧
      reached l s v = reached l' (s + (1 / 2 * a * dt * dt + v * dt)) (max (min (v + a * dt) p.maxVel) p.minVel) := by
  rw [Idm.genLoop] at h
  cases ht : Idm.totalAcc p r v0 rel with
  | error f => rw [ht] at h; cases h
  | ok x =>
    rw [ht] at h
    cases x with
    | fin a =>
      dsimp only at h
      cases hl : Idm.genLoop p r start dt v0 n (i + 1) (s + (1 / 2 * a * dt * dt + v * dt)) (max (min (v + a * dt) p.maxVel) p.minVel)
        (Idm.nextDist r v0 rel a dt) with
      | error f => rw [hl] at h; cases h
      | ok l' =>
        rw [hl] at h
        simp only [Except.ok.injEq] at h
        subst h
        exact ⟨a, l', rfl, hl, reached_cons _ _ _ _⟩
    | pinf => cases h
    | ninf => cases h
    | nan => cases h

theorem loop_upper {p : Idm.Params} {r : Idm.Rel} {start dt v0 A : ℝ} (hA : 0 ≤ A) (hdt : 0 ≤ dt)
    (hacc : ∀ rel a, Idm.totalAcc p r v0 rel = .ok (.fin a) → a ≤ A) : ∀ (n i : Nat) (s v rel : ℝ) (l : List (ℝ × Idm.Row)), p.minVel ≤ v →
      Idm.genLoop p r start dt v0 n i s v rel = .ok l →
      (reached l s v).1 ≤ s + v * (n * dt) + 1 / 2 * A * (n * dt) ^ 2 ∧ (reached l s v).2 ≤ v + A * (n * dt)
  | 0, i, s, v, rel, l, _, h => by
    simp only [Idm.genLoop, Except.ok.injEq] at h
    subst h
    simp [reached]
  | n + 1, i, s, v, rel, l, hm, h => by
    obtain ⟨a, l', ha, hl, he⟩ := genLoop_cons h
    have haA := hacc _ _ ha
    have had : a * dt ≤ A * dt := mul_le_mul_of_nonneg_right haA hdt
    have hadd : a * dt * dt ≤ A * dt * dt := mul_le_mul_of_nonneg_right had hdt
    have hAdt : 0 ≤ A * dt := mul_nonneg hA hdt
    have hv' : max (min (v + a * dt) p.maxVel) p.minVel ≤ v + A * dt :=
      max_le (le_trans (min_le_left _ _) (by linarith)) (by linarith)
    obtain ⟨h1, h2⟩ := loop_upper hA hdt hacc n (i + 1) _ _ _ l' (le_max_right _ _) hl
    rw [he]
    have hn : (0 : ℝ) ≤ n * dt := by positivity
    have := mul_le_mul_of_nonneg_right hv' hn
    push_cast
    constructor
    · nlinarith
    · nlinarith

theorem loop_safe {p : Idm.Params} {r : Idm.Rel} {start dt v0 B w e : ℝ} (hB : 0 < B) (hdt : 0 ≤ dt) (hw : p.minVel ≤ w) (he : 0 ≤ e)
    (hfar : ∀ rel a, Idm.totalAcc p r v0 rel = .ok (.fin a) → Idm.nextDist r v0 rel a dt ≤ rel + e) :
    ∀ (n i : Nat) (s v rel D : ℝ) (l : List (ℝ × Idm.Row)), Idm.genLoop p r start dt v0 n i s v rel = .ok l → Safe B (D - s) (v - w) →
      Safe B (D + w * (n * dt) - (reached l s v).1) ((reached l s v).2 - w) ∨
        ∃ rel' a, rel' ≤ rel + n * e ∧ Idm.totalAcc p r v0 rel' = .ok (.fin a) ∧ -B < a
  | 0, i, s, v, rel, D, l, h, hs => by
    simp only [Idm.genLoop, Except.ok.injEq] at h
    subst h
    left
    simpa [reached] using hs
  | n + 1, i, s, v, rel, D, l, h, hs => by
    obtain ⟨a, l', ha, hl, hr⟩ := genLoop_cons h
    have hn : (0 : ℝ) ≤ n * e := by positivity
    rcases lt_or_ge (-B) a with c | c
    · exact Or.inr ⟨rel, a, by push_cast; nlinarith, ha, c⟩
    · have h1 := safe_brake hB hs c hdt
      have h2 : Safe B (D + w * dt - (s + (1 / 2 * a * dt * dt + v * dt))) (max (min (v + a * dt) p.maxVel) p.minVel - w) := by
        have hg : D - s - ((v - w) * dt + 1 / 2 * a * dt * dt) = D + w * dt - (s + (1 / 2 * a * dt * dt + v * dt)) := by ring
        rw [hg] at h1
        rcases le_or_gt (min (v + a * dt) p.maxVel) p.minVel with k | k
        · exact ⟨h1.1, Or.inl (by rw [max_eq_right k]; linarith)⟩
        · rw [max_eq_left k.le]
          exact safe_mono hB.le h1 (le_refl _) (by have := min_le_left (v + a * dt) p.maxVel; linarith)
      rcases loop_safe hB hdt hw he hfar n (i + 1) _ _ _ _ l' hl h2 with g | ⟨rel', a', g1, g2, g3⟩
      · left
        rw [hr]
        have : D + w * dt + w * (n * dt) = D + w * ((n + 1 : ℕ) * dt) := by push_cast; ring
        rw [this] at g
        exact g
      · refine Or.inr ⟨rel', a', ?_, g2, g3⟩
        have := hfar _ _ ha
        push_cast
        linarith

/-- the acceleration behind a vehicle -/
theorem acc_follow {p : Idm.Params} (hp : Idm.Spec.Sane p) (hc : p.coolness = 0) (hl : p.accLower ≤ 0) (hv : 0 < p.desiredVel) {r : Idm.Rel}
    (hr : r.hasLeader = true) {v : ℝ} (h0 : 0 ≤ v) {rel a : ℝ} (h : Idm.totalAcc p r v rel = .ok (.fin a)) :
    p.accLower ≤ a ∧ a ≤ p.maxAcc ∧
      (p.accLower < a → 0 < rel ∧ p.maxAcc * (Idm.Spec.desiredGap p v r.velocity / rel) ^ 2 < p.maxAcc - p.accLower) := by
  have e := Idm.C23_value hp hc hr v rel
  rw [Idm.Spec.Returns, h] at e
  simp only [Except.ok.injEq, Num.fin.injEq] at e
  have hm := hp.maxAcc
  have hpow : 0 ≤ (v / p.desiredVel) ^ p.exponent := by positivity
  by_cases hd : 0 < rel
  · rw [if_pos hd] at e
    have ht : Idm.Spec.textbook p rel v r.velocity ≤ p.maxAcc - p.maxAcc * (Idm.Spec.desiredGap p v r.velocity / rel) ^ 2 := by
      unfold Idm.Spec.textbook
      nlinarith
    have hsq := mul_nonneg hm.le (sq_nonneg (Idm.Spec.desiredGap p v r.velocity / rel))
    subst e
    refine ⟨le_max_right _ _, max_le (le_trans (min_le_left _ _) (by linarith)) (by linarith), fun hlt => ⟨hd, ?_⟩⟩
    rcases lt_max_iff.1 hlt with g | g
    · have := lt_of_lt_of_le g (min_le_left _ _)
      linarith
    · exact absurd g (lt_irrefl _)
  · rw [if_neg hd] at e
    subst e
    exact ⟨le_refl _, by linarith, fun hlt => absurd hlt (lt_irrefl _)⟩

/-- where the braking is not at its strongest there is room -/
theorem room {A B b s0 H : ℝ} (hA : 0 < A) (hB : 0 < B) (hb : 0 < b) {x : ℝ} (hx : 0 ≤ x) (hs0 : 0 ≤ s0)
    (hH : s0 + x / (2 * √(A * b)) ≤ H) {ρ : ℝ} (hρ : 0 < ρ) (h : A * (H / ρ) ^ 2 < A + B) :
    s0 * √(A / (A + B)) + x / (2 * √(b * (A + B))) < ρ := by
  have hAB : 0 < A + B := by linarith
  have hq : 0 < √(A / (A + B)) := Real.sqrt_pos.2 (div_pos hA hAB)
  have hq2 : √(A / (A + B)) ^ 2 = A / (A + B) := Real.sq_sqrt (div_pos hA hAB).le
  have hcx : 0 ≤ x / (2 * √(A * b)) := by positivity
  have hH0 : 0 ≤ H := by linarith
  have h1 : H * √(A / (A + B)) < ρ := by
    refine lt_of_pow_lt_pow_left₀ 2 hρ.le ?_
    rw [mul_pow, hq2]
    rw [div_pow] at h
    have h2 : A * H ^ 2 < (A + B) * ρ ^ 2 := by
      have := mul_lt_mul_of_pos_right h (pow_pos hρ 2)
      have e : A * (H ^ 2 / ρ ^ 2) * ρ ^ 2 = A * H ^ 2 := by field_simp
      rwa [e] at this
    rw [mul_div_assoc', div_lt_iff₀ hAB]
    linarith
  have h2 : x / (2 * √(A * b)) * √(A / (A + B)) = x / (2 * √(b * (A + B))) := by
    rw [Real.sqrt_div hA.le, Real.sqrt_mul hA.le, Real.sqrt_mul hb.le]
    have := (Real.sqrt_pos.2 hA).ne'
    have := (Real.sqrt_pos.2 hb).ne'
    have := (Real.sqrt_pos.2 hAB).ne'
    field_simp
  have h3 := mul_le_mul_of_nonneg_right hH hq.le
  rw [add_mul, h2] at h3
  linarith

/-- closing in: there is room for a whole step at maximal acceleration -/
theorem room_closing {A B b s0 hw T u g ρ : ℝ} (hA : 0 < A) (hB : 0 < B) (hb : 0 < b) (hr : Roomy A B b s0 hw T) (hT : 0 ≤ T)
    (hρ : s0 * √(A / (A + B)) + u ^ 2 / (2 * √(b * (A + B))) < ρ) (hg : ρ ≤ g + 1 / 2 * B * T ^ 2) :
    (A + B) * T * (2 * u + A * T) < 2 * B * g - u ^ 2 := by
  have hK0 : 0 < √(b * (A + B)) := Real.sqrt_pos.2 (by positivity)
  have hK : √(b * (A + B)) < B := (Real.sqrt_lt' hB).2 hr.brake
  have hβ : 0 < B / √(b * (A + B)) - 1 := by
    rw [sub_pos, one_lt_div hK0]; exact hK
  have hs := hr.short
  set K := √(b * (A + B)) with hKd
  set M := 2 * B * s0 * √(A / (A + B)) with hM
  set β := B / K - 1 with hβd
  have h1 : M + (β + 1) * u ^ 2 - B ^ 2 * T ^ 2 < 2 * B * g := by
    have : s0 * √(A / (A + B)) + u ^ 2 / (2 * K) < g + 1 / 2 * B * T ^ 2 := lt_of_lt_of_le hρ hg
    have := mul_lt_mul_of_pos_left this (show 0 < 2 * B by linarith)
    have e : 2 * B * (s0 * √(A / (A + B)) + u ^ 2 / (2 * K)) = M + (β + 1) * u ^ 2 := by
      rw [hM, hβd]; field_simp; ring
    rw [e] at this
    nlinarith
  have hAT : 0 ≤ A * B * T ^ 2 := by positivity
  have h2 : 0 ≤ β * (β * u ^ 2 - 2 * ((A + B) * T) * u + (M - B ^ 2 * T ^ 2 - A * (A + B) * T ^ 2)) := by
    have e : β * (β * u ^ 2 - 2 * ((A + B) * T) * u + (M - B ^ 2 * T ^ 2 - A * (A + B) * T ^ 2)) =
        (β * u - (A + B) * T) ^ 2 + (β * (M - (A ^ 2 + 3 * A * B + B ^ 2) * T ^ 2) - ((A + B) * T) ^ 2) + β * (2 * (A * B * T ^ 2)) := by ring
    rw [e]
    have := sq_nonneg (β * u - (A + B) * T)
    have := mul_nonneg hβ.le (show 0 ≤ 2 * (A * B * T ^ 2) by linarith)
    linarith
  have h3 := nonneg_of_mul_nonneg_right h2 hβ
  nlinarith

/-- falling back, but not by much -/
theorem room_falling {A B b s0 hw T g ρ : ℝ} (hA : 0 < A) (hB : 0 < B) (hb : 0 < b) (hr : Roomy A B b s0 hw T) 
    (hρ : s0 * √(A / (A + B)) < ρ) (hg : ρ ≤ g + (A * T ^ 2 + 1 / 2 * B * T ^ 2)) :
    A * (A + B) * T ^ 2 < 2 * B * g := by
  have hK0 : 0 < √(b * (A + B)) := Real.sqrt_pos.2 (by positivity)
  have hK : √(b * (A + B)) < B := (Real.sqrt_lt' hB).2 hr.brake
  have hβ : 0 < B / √(b * (A + B)) - 1 := by
    rw [sub_pos, one_lt_div hK0]; exact hK
  have h1 := nonneg_of_mul_nonneg_right (le_trans (sq_nonneg _) hr.short) hβ
  have := mul_lt_mul_of_pos_left (lt_of_lt_of_le hρ hg) (show 0 < 2 * B by linarith)
  nlinarith

theorem closing_end {A B T u g : ℝ} (h : (A + B) * T * (2 * u + A * T) < 2 * B * g - u ^ 2) :
    (u + A * T) ^ 2 < 2 * B * (g - u * T - 1 / 2 * A * T ^ 2) := by
  have e : 2 * B * (g - u * T - 1 / 2 * A * T ^ 2) - (u + A * T) ^ 2 = 2 * B * g - u ^ 2 - (A + B) * T * (2 * u + A * T) := by ring
  linarith

theorem falling_end {A B T g : ℝ} (h : A * (A + B) * T ^ 2 < 2 * B * g) : (A * T) ^ 2 < 2 * B * (g - 1 / 2 * A * T ^ 2) := by
  have e : 2 * B * (g - 1 / 2 * A * T ^ 2) - (A * T) ^ 2 = 2 * B * g - A * (A + B) * T ^ 2 := by ring
  linarith

set_option maxHeartbeats 800000 in
/-- one plan behind a vehicle assumed to keep its velocity -/
theorem plan_safe {p : Idm.Params} (hp : Idm.Spec.Sane p) (hc : p.coolness = 0) (hn : 2 ≤ p.numPoints) (hm : p.minVel ≤ p.maxVel)
    (h00 : 0 ≤ p.minVel) (hv : 0 < p.desiredVel) (hl : p.accLower < 0) (hs0 : 0 ≤ p.minSpacing) {r : Idm.Rel}
    (hr : r.hasLeader = true) (hw : p.minVel ≤ r.velocity) {T : ℝ} (hT : 0 ≤ T) (hh : 0 ≤ p.headway)
    (hroom : Roomy p.maxAcc (-p.accLower) p.comfBraking p.minSpacing p.headway T) (y : ℝ × ℝ × ℝ) (h0 : p.minVel ≤ y.2.2)
    (hsafe : Safe (-p.accLower) r.distance (y.2.2 - r.velocity)) :
    ∃ tr z, planIdm p r y.1 T y = .ok tr ∧ tr.head? = some y ∧ tr.getLast? = some z ∧ z.1 = y.1 + T ∧ p.minVel ≤ z.2.2 ∧ z.2.2 ≤ p.maxVel ∧
      Safe (-p.accLower) (r.distance + r.velocity * T - (z.2.1 - y.2.1)) (z.2.2 - r.velocity) := by
  obtain ⟨tr, z, e1, e2, e3, e4, e5, e6⟩ := planIdm_spec (T := T) hp hn hm y (r := r) (Or.inl hc)
  refine ⟨tr, z, e1, e2, e3, e4, e5, e6, ?_⟩
  unfold planIdm at e1
  cases hg : Idm.generate p r y.1 (Idm.stepSize p T) y.2.1 y.2.2 with
  | error f => rw [hg] at e1; cases e1
  | ok l =>
    rw [hg] at e1
    simp only [Except.ok.injEq] at e1
    subst e1
    have hlen : l.length = p.numPoints - 1 := (Idm.genLoop_spec _ _ _ _ _ hg).1
    have hne : l ≠ [] := by rintro rfl; simp at hlen; omega
    have hz : reached l y.2.1 y.2.2 = (z.2.1, z.2.2) := by
      rw [List.getLast?_cons, List.getLast?_map, List.getLast?_eq_some_getLast hne] at e3
      simp only [Option.map_some, Option.getD_some, Option.some.injEq] at e3
      unfold reached
      rw [List.getLast?_eq_some_getLast hne, ← e3]
      rfl
    have hst := step_total hn T 1
    rw [one_mul, one_mul] at hst
    have hdt := stepSize_nonneg hn hT
    have hdtT : Idm.stepSize p T ≤ T := by
      have h2 : (2 : ℝ) ≤ p.numPoints := by exact_mod_cast hn
      exact div_le_self hT (by linarith)
    have hA := hp.maxAcc
    have hB : 0 < -p.accLower := by linarith
    have hv0 : 0 ≤ y.2.2 := le_trans h00 h0
    have hacc : ∀ rel a, Idm.totalAcc p r y.2.2 rel = .ok (.fin a) → a ≤ p.maxAcc := fun rel a h =>
      (acc_follow hp hc hl.le hv hr hv0 h).2.1
    obtain ⟨u1, u2⟩ := loop_upper hA.le hdt hacc _ _ _ _ _ l h0 hg
    rw [hz, hst] at u1 u2
    dsimp only at u1 u2
    generalize hu : y.2.2 - r.velocity = u at hsafe
    have hyv : y.2.2 = r.velocity + u := by linarith
    rw [hyv] at u1 u2
    have hgap : r.distance - u * T - 1 / 2 * p.maxAcc * T ^ 2 ≤ r.distance + r.velocity * T - (z.2.1 - y.2.1) := by nlinarith
    have hvel : z.2.2 - r.velocity ≤ u + p.maxAcc * T := by linarith
    have hAT : 0 ≤ p.maxAcc * T := mul_nonneg hA.le hT
    have hATT : 0 ≤ p.maxAcc * T * T := mul_nonneg hAT hT
    rcases lt_or_ge u (-(p.maxAcc * T)) with c | c
    · refine safe_mono hB.le (g := r.distance - u * T - 1 / 2 * p.maxAcc * T ^ 2) (u := u + p.maxAcc * T) ⟨?_, Or.inl (by linarith)⟩ hgap hvel
      have := hsafe.1
      nlinarith
    · set e := 1 / 2 * (-p.accLower) * Idm.stepSize p T ^ 2 + max 0 (-u) * Idm.stepSize p T with he
      have he0 : 0 ≤ e := by have := le_max_left 0 (-u); positivity
      have hfar : ∀ rel a, Idm.totalAcc p r y.2.2 rel = .ok (.fin a) → Idm.nextDist r y.2.2 rel a (Idm.stepSize p T) ≤ rel + e := by
        intro rel a h
        obtain ⟨k1, -, -⟩ := acc_follow hp hc hl.le hv hr hv0 h
        unfold Idm.nextDist
        rw [if_pos hr, hyv, he]
        have h1 := mul_le_mul_of_nonneg_right (le_max_right 0 (-u)) hdt
        have h2 := mul_le_mul_of_nonneg_right k1 (mul_nonneg hdt hdt)
        nlinarith
      rcases loop_safe hB hdt hw he0 hfar _ _ _ _ _ (r.distance + y.2.1) l hg (by
          rw [hu, add_sub_cancel_right]; exact hsafe) with g | ⟨ρ, a, g1, g2, g3⟩
      · rw [hz, hst] at g
        have e : r.distance + y.2.1 + r.velocity * T - z.2.1 = r.distance + r.velocity * T - (z.2.1 - y.2.1) := by ring
        rw [← e]
        exact g
      · obtain ⟨-, -, k⟩ := acc_follow hp hc hl.le hv hr hv0 g2
        obtain ⟨k1, k2⟩ := k (by linarith)
        have hne' : ((p.numPoints - 1 : ℕ) : ℝ) * e = 1 / 2 * (-p.accLower) * T * Idm.stepSize p T + max 0 (-u) * T := by
          rw [he]
          have : ((p.numPoints - 1 : ℕ) : ℝ) * (1 / 2 * (-p.accLower) * Idm.stepSize p T ^ 2 + max 0 (-u) * Idm.stepSize p T) =
            1 / 2 * (-p.accLower) * (((p.numPoints - 1 : ℕ) : ℝ) * Idm.stepSize p T) * Idm.stepSize p T +
              max 0 (-u) * (((p.numPoints - 1 : ℕ) : ℝ) * Idm.stepSize p T) := by ring
          rw [this, hst]
        rw [hne'] at g1
        have hBT : 1 / 2 * (-p.accLower) * T * Idm.stepSize p T ≤ 1 / 2 * (-p.accLower) * T ^ 2 := by
          have := mul_le_mul_of_nonneg_left hdtT (show 0 ≤ 1 / 2 * (-p.accLower) * T by positivity)
          rw [sq, ← mul_assoc]
          exact this
        have hcb : 0 < √(p.maxAcc * p.comfBraking) := Real.sqrt_pos.2 (mul_pos hA hp.comf)
        rcases le_or_gt 0 u with d | d
        · have hH : p.minSpacing + u ^ 2 / (2 * √(p.maxAcc * p.comfBraking)) ≤ Idm.Spec.desiredGap p y.2.2 r.velocity := by
            unfold Idm.Spec.desiredGap
            rw [hu]
            have h1 : 0 ≤ y.2.2 * p.headway := mul_nonneg hv0 hh
            have h2 : u ^ 2 / (2 * √(p.maxAcc * p.comfBraking)) ≤ y.2.2 * u / (2 * √(p.maxAcc * p.comfBraking)) := by
              apply div_le_div_of_nonneg_right _ (by positivity)
              rw [sq]
              exact mul_le_mul_of_nonneg_right (by linarith) d
            linarith
          have hρ := room hA hB hp.comf (sq_nonneg u) hs0 hH k1 (by linarith)
          rw [max_eq_left (by linarith : -u ≤ 0), zero_mul, add_zero] at g1
          have := room_closing (g := r.distance) hA hB hp.comf hroom hT hρ (le_trans g1 (by linarith))
          have hk : (u + p.maxAcc * T) ^ 2 < 2 * (-p.accLower) * (r.distance - u * T - 1 / 2 * p.maxAcc * T ^ 2) := closing_end this
          refine safe_mono hB.le ⟨?_, Or.inr hk⟩ hgap hvel
          exact pos_of_scaled (lt_of_le_of_lt (sq_nonneg _) hk) (by linarith)
        · have hH : p.minSpacing + 0 / (2 * √(p.maxAcc * p.comfBraking)) ≤ Idm.Spec.desiredGap p y.2.2 r.velocity := by
            unfold Idm.Spec.desiredGap
            rw [hu, zero_div, add_zero, mul_div_assoc, add_assoc, ← mul_add]
            have h1 : -p.headway ≤ u / (2 * √(p.maxAcc * p.comfBraking)) := by
              rw [le_div_iff₀ (by positivity)]
              have := hroom.react
              linarith
            have := mul_nonneg hv0 (show 0 ≤ p.headway + u / (2 * √(p.maxAcc * p.comfBraking)) by linarith)
            linarith
          have hρ := room hA hB hp.comf (le_refl 0) hs0 hH k1 (by linarith)
          rw [zero_div, add_zero] at hρ
          rw [max_eq_right (by linarith : 0 ≤ -u)] at g1
          have huT : -u * T ≤ p.maxAcc * T * T := mul_le_mul_of_nonneg_right (by linarith) hT
          have := room_falling (g := r.distance) hA hB hp.comf hroom hρ (le_trans g1 (by linarith [show p.maxAcc * T * T = p.maxAcc * T ^ 2 by ring]))
          have hk : (p.maxAcc * T) ^ 2 < 2 * (-p.accLower) * (r.distance - 1 / 2 * p.maxAcc * T ^ 2) := falling_end this
          have huT0 : 0 ≤ -u * T := mul_nonneg (by linarith) hT
          refine safe_mono hB.le ⟨?_, Or.inr hk⟩ (by linarith) (by linarith)
          exact pos_of_scaled (lt_of_le_of_lt (sq_nonneg _) hk) (by linarith)

section
variable {St Ac Bh E Sh Box O : Type}
variable {P : Plug ℝ St Ac Bh E Sh Box O} {lane : World ℝ St Ac Bh E Sh Box O → Nat → Bool}
  {behav : Drive → Bh} {exec : Res (Interp.Exec (ℝ × ℝ × ℝ)) → E} {st : ℝ × ℝ × ℝ → St}

/-- **C197.** In every simulation, an agent that drives with the IDM (heuristic off) behind a vehicle that never brakes does
not run into it: if at the beginning it could still adapt to the velocity of the vehicle ahead within the gap by its
strongest braking, then so it can after any steps (short enough for its parameters), and there is a gap. -/
theorem C197_no_collision {p : Idm.Params} (hp : Idm.Spec.Sane p) (hc : p.coolness = 0) (hn : 2 ≤ p.numPoints) (hm : p.minVel ≤ p.maxVel)
    (h00 : 0 ≤ p.minVel) (hv : 0 < p.desiredVel) (hl : p.accLower < 0) (hs0 : 0 ≤ p.minSpacing) (hh : 0 ≤ p.headway)
    {lead : ℝ → ℝ × ℝ} (hlead : NeverBrakes lead) {la : ℝ → ℝ}
    (hP : Spec.Drives P lane (fun obs _ dt x => planIdm p ⟨(lead obs.time).1 - x.2.1, (lead obs.time).2, la obs.time, true⟩ obs.time dt x)
      behav exec st)
    {w w' : World ℝ St Ac Bh E Sh Box O} (hw : Props.WellFormed w) (dts : List ℝ) (hpos : ∀ d ∈ dts, 0 < d)
    (hshort : ∀ d ∈ dts, Roomy p.maxAcc (-p.accLower) p.comfBraking p.minSpacing p.headway d)
    (h : run P w (Spec.steps dts) = .ok w') {id : Nat} {a : Agent ℝ St Ac Bh E Sh} (ha : w.getAgent id = some a)
    {x : ℝ × ℝ × ℝ} (hi' : Spec.Driving w.time behav exec st x a) (hx : x.1 = w.time) (hx0 : p.minVel ≤ x.2.2)
    (hmin : p.minVel ≤ (lead w.time).2) (hsafe : Safe (-p.accLower) ((lead w.time).1 - x.2.1) (x.2.2 - (lead w.time).2)) :
    ∀ a', w'.getAgent id = some a' → ∃ z, a'.currentState = .ok (st z) ∧ z.1 = w'.time ∧ p.minVel ≤ z.2.2 ∧
      z.2.1 < (lead w'.time).1 ∧ Safe (-p.accLower) ((lead w'.time).1 - z.2.1) (z.2.2 - (lead w'.time).2) := by
  have hB : 0 < -p.accLower := by linarith
  obtain ⟨r1, -, -⟩ := drive_run hP hw dts hpos h ha hi' hx (fun z => w.time ≤ z.1 ∧ p.minVel ≤ z.2.2 ∧
      Safe (-p.accLower) ((lead z.1).1 - z.2.1) (z.2.2 - (lead z.1).2)) ⟨hx.ge, hx0, by rw [hx]; exact hsafe⟩ (by
      intro obs dt hmem y hdt hoy hyd ⟨i0, i1, i2⟩ hl'
      rw [hoy]
      obtain ⟨tr, z, q1, q2, q3, q4, q5, -, q6⟩ := plan_safe hp hc hn hm h00 hv hl hs0
        (r := ⟨(lead y.1).1 - y.2.1, (lead y.1).2, la y.1, true⟩) rfl (le_trans hmin (hlead.vel _ _ i0)) hdt.le hh (hshort dt hmem) y i1 i2
      refine ⟨tr, z, q1, q2, q3, q4, by linarith, q5, ?_⟩
      have k1 := hlead.vel y.1 z.1 (by linarith)
      have k2 := hlead.pos y.1 z.1 (by linarith)
      dsimp only at q6
      rw [q4, add_sub_cancel_left] at k2
      rw [q4] at k1 ⊢
      exact safe_mono hB.le q6 (by linarith) (by linarith))
  intro a' ha'
  obtain ⟨z, d, e1, e2, e3, e4⟩ := r1 a' ha'
  rw [e1] at e4
  exact ⟨z, d.2.2.2, e1, e3, by have := e4.1; linarith, e4⟩

/-- **C197, two vehicles.** Vehicle `i` drives with the IDM and sees vehicle `j` ahead as it is; `j` never brakes in what it
plans, whatever it is. Both stay in the simulation and `i` never runs into `j`. `len` is what has to be subtracted from the
distance of their reference points to get the gap. -/
theorem C197_two_vehicles {p : Idm.Params} (hp : Idm.Spec.Sane p) (hc : p.coolness = 0) (hn : 2 ≤ p.numPoints) (hm : p.minVel ≤ p.maxVel)
    (h00 : 0 ≤ p.minVel) (hv : 0 < p.desiredVel) (hl : p.accLower < 0) (hs0 : 0 ≤ p.minSpacing) (hh : 0 ≤ p.headway)
    {traj : World ℝ St Ac Bh E Sh Box O → Nat → ℝ → ℝ × ℝ × ℝ → Res (List (ℝ × ℝ × ℝ))}
    (hP : Spec.Drives P lane traj behav exec st) {i j : Nat} {len : ℝ} {la : World ℝ St Ac Bh E Sh Box O → ℝ}
    (hsee : ∀ o w, (P.observe o w i).2.getAgent j = w.getAgent j) (hlane : ∀ obs, lane obs i = true ∧ lane obs j = true)
    (hfol : ∀ obs dt x y b, obs.getAgent j = some b → b.currentState = .ok (st y) →
      traj obs i dt x = planIdm p ⟨y.2.1 - len - x.2.1, y.2.2, la obs, true⟩ obs.time dt x)
    (hlead : ∀ obs dt y, 0 < dt → obs.time = y.1 → ∃ tr z, traj obs j dt y = .ok tr ∧ tr.head? = some y ∧ tr.getLast? = some z ∧
      z.1 = y.1 + dt ∧ y.2.2 ≤ z.2.2 ∧ y.2.1 + y.2.2 * dt ≤ z.2.1)
    {w w' : World ℝ St Ac Bh E Sh Box O} (hw : Props.WellFormed w) (hoff : w.removeAgents = false) (dts : List ℝ) (hpos : ∀ d ∈ dts, 0 < d)
    (hshort : ∀ d ∈ dts, Roomy p.maxAcc (-p.accLower) p.comfBraking p.minSpacing p.headway d)
    (h : run P w (Spec.steps dts) = .ok w') {a b : Agent ℝ St Ac Bh E Sh} (ha : w.getAgent i = some a) (hb : w.getAgent j = some b)
    {x y : ℝ × ℝ × ℝ} (hi : Spec.Driving w.time behav exec st x a) (hj : Spec.Driving w.time behav exec st y b) (hx : x.1 = w.time)
    (hy : y.1 = w.time) (hx0 : p.minVel ≤ x.2.2) (hmin : p.minVel ≤ y.2.2)
    (hsafe : Safe (-p.accLower) (y.2.1 - len - x.2.1) (x.2.2 - y.2.2)) :
    ∃ a' b' x' y', w'.getAgent i = some a' ∧ w'.getAgent j = some b' ∧ a'.currentState = .ok (st x') ∧ b'.currentState = .ok (st y') ∧
      x'.1 = w'.time ∧ y'.1 = w'.time ∧ 0 < y'.2.1 - len - x'.2.1 ∧ Safe (-p.accLower) (y'.2.1 - len - x'.2.1) (x'.2.2 - y'.2.2) := by
  have hB : 0 < -p.accLower := by linarith
  induction dts generalizing w a b x y with
  | nil =>
    unfold Spec.steps run at h; cases h
    exact ⟨a, b, x, y, ha, hb, hi.2.2.2, hj.2.2.2, hx, hy, hsafe.1, hsafe⟩
  | cons dt dts ih =>
    unfold Spec.steps at h
    rw [List.map_cons] at h
    unfold run at h
    obtain ⟨w1, h1, h2⟩ := Res.bind_ok h
    obtain ⟨w1', h1', hw1⟩ := Props.apply_wf P hw (Op.step dt) trivial
    rw [h1] at h1'; cases h1'
    have h1s : step P dt w = .ok w1 := h1
    obtain ⟨ht, hrm⟩ := step_keeps P h1s
    have hdt : 0 < dt := hpos dt (by simp)
    obtain ⟨obs, ⟨o, index, ho⟩, hot, -, hyes⟩ := drive_step hP hw h1s ha hdt hi hx
    have hobs : obs.getAgent j = some b := by rw [ho, hsee]; exact hb
    have ht' := hfol obs dt x y b hobs hj.2.2.2
    obtain ⟨tr, x', q1, q2, q3, q4, q5, -, q6⟩ := plan_safe hp hc hn hm h00 hv hl hs0
      (r := ⟨y.2.1 - len - x.2.1, y.2.2, la obs, true⟩) rfl hmin hdt.le hh (hshort dt (by simp)) x hx0 hsafe
    obtain ⟨s1, s2⟩ := hyes tr x' (hlane obs).1 (by rw [ht', hot, ← hx]; exact q1) q2 q3 (by rw [q4, hx])
    obtain ⟨obs', -, hot', -, hyes'⟩ := drive_step hP hw h1s hb hdt hj hy
    obtain ⟨tr', y', k1, k2, k3, k4, k5, k6⟩ := hlead obs' dt y hdt (by rw [hot', hy])
    obtain ⟨s1', s2'⟩ := hyes' tr' y' (hlane obs').2 k1 k2 k3 (by rw [k4, hy])
    obtain ⟨a1, ha1⟩ := Option.ne_none_iff_exists'.1 (s2 hoff)
    obtain ⟨b1, hb1⟩ := Option.ne_none_iff_exists'.1 (s2' hoff)
    refine ih hw1 (by rw [hrm]; exact hoff) (fun d hd => hpos d (List.mem_cons_of_mem _ hd)) (fun d hd => hshort d (List.mem_cons_of_mem _ hd))
      h2 ha1 hb1 (s1 a1 ha1) (s1' b1 hb1) (by rw [q4, ht, hx]) (by rw [k4, ht, hy]) q5 (le_trans hmin k5) ?_
    dsimp only at q6
    exact safe_mono hB.le q6 (by linarith) (by linarith)

/-! ### the condition at the beginning is needed -/

theorem loop_lower {p : Idm.Params} {r : Idm.Rel} {start dt v0 B : ℝ} (hB : 0 ≤ B) (hdt : 0 ≤ dt)
    (hacc : ∀ rel a, Idm.totalAcc p r v0 rel = .ok (.fin a) → -B ≤ a) : ∀ (n i : Nat) (s v rel : ℝ) (l : List (ℝ × Idm.Row)), v ≤ p.maxVel →
      Idm.genLoop p r start dt v0 n i s v rel = .ok l → p.minVel ≤ p.maxVel →
      s + v * (n * dt) - 1 / 2 * B * (n * dt) ^ 2 ≤ (reached l s v).1 ∧ v - B * (n * dt) ≤ (reached l s v).2
  | 0, i, s, v, rel, l, _, h, _ => by
    simp only [Idm.genLoop, Except.ok.injEq] at h
    subst h
    simp [reached]
  | n + 1, i, s, v, rel, l, hm, h, hmm => by
    obtain ⟨a, l', ha, hl, he⟩ := genLoop_cons h
    have haA := hacc _ _ ha
    have had : -B * dt ≤ a * dt := mul_le_mul_of_nonneg_right haA hdt
    have hadd : -B * dt * dt ≤ a * dt * dt := mul_le_mul_of_nonneg_right had hdt
    have hBdt : 0 ≤ B * dt := mul_nonneg hB hdt
    have hv' : v - B * dt ≤ max (min (v + a * dt) p.maxVel) p.minVel :=
      le_trans (le_min (by linarith) (by linarith)) (le_max_left _ _)
    obtain ⟨h1, h2⟩ := loop_lower hB hdt hacc n (i + 1) _ _ _ l' (max_le (min_le_right _ _) hmm) hl hmm
    rw [he]
    have hn : (0 : ℝ) ≤ n * dt := by positivity
    have := mul_le_mul_of_nonneg_right hv' hn
    push_cast
    constructor
    · nlinarith
    · nlinarith

/-- **C197, the limit of braking.** Whatever an agent with the IDM follows, after a time `t` it has moved at least as far as
with the strongest braking all the time. So if it closes in too fast on a vehicle of constant velocity it runs into it:
after the time in which the strongest braking takes away the difference of the velocities its front is beyond that vehicle's rear. -/
theorem C197_unavoidable {p : Idm.Params} (hp : Idm.Spec.Sane p) (hc : p.coolness = 0) (hn : 2 ≤ p.numPoints) (hm : p.minVel ≤ p.maxVel)
    (hl : p.accLower < 0) {rel : World ℝ St Ac Bh E Sh Box O → Nat → ℝ × ℝ × ℝ → Idm.Rel}
    (hP : Spec.Drives P lane (fun obs id dt x => planIdm p (rel obs id x) obs.time dt x) behav exec st)
    {w w' : World ℝ St Ac Bh E Sh Box O} (hw : Props.WellFormed w) (dts : List ℝ) (hpos : ∀ d ∈ dts, 0 < d)
    (h : run P w (Spec.steps dts) = .ok w') {id : Nat} {a : Agent ℝ St Ac Bh E Sh} (ha : w.getAgent id = some a)
    {x : ℝ × ℝ × ℝ} (hi' : Spec.Driving w.time behav exec st x a) (hx : x.1 = w.time) (hx0 : x.2.2 ≤ p.maxVel) :
    ∀ a', w'.getAgent id = some a' → ∃ z, a'.currentState = .ok (st z) ∧ z.1 = w'.time ∧
      x.2.1 + x.2.2 * (w'.time - w.time) - 1 / 2 * (-p.accLower) * (w'.time - w.time) ^ 2 ≤ z.2.1 ∧
      ∀ rear vel, 0 < x.2.2 - vel → 2 * (-p.accLower) * (rear - x.2.1) < (x.2.2 - vel) ^ 2 →
        w'.time - w.time = (x.2.2 - vel) / (-p.accLower) → rear + vel * (w'.time - w.time) < z.2.1 := by
  have hB : 0 < -p.accLower := by linarith
  obtain ⟨r1, -, -⟩ := drive_run hP hw dts hpos h ha hi' hx (fun z => x.1 ≤ z.1 ∧ z.2.2 ≤ p.maxVel ∧ x.2.2 - (-p.accLower) * (z.1 - x.1) ≤ z.2.2 ∧
      x.2.1 + x.2.2 * (z.1 - x.1) - 1 / 2 * (-p.accLower) * (z.1 - x.1) ^ 2 ≤ z.2.1) ⟨le_refl _, hx0, by simp, by simp⟩ (by
      intro obs dt hmem y hdt hoy hyd ⟨i0, i1, i2, i3⟩ hl'
      rw [hoy]
      obtain ⟨tr, z, e1, e2, e3, e4, e5, e6⟩ := planIdm_spec (T := dt) hp hn hm y (r := rel obs id y) (Or.inl hc)
      refine ⟨tr, z, e1, e2, e3, e4, by linarith, e6, ?_⟩
      unfold planIdm at e1
      cases hg : Idm.generate p (rel obs id y) y.1 (Idm.stepSize p dt) y.2.1 y.2.2 with
      | error f => rw [hg] at e1; cases e1
      | ok l =>
        rw [hg] at e1
        simp only [Except.ok.injEq] at e1
        subst e1
        have hlen : l.length = p.numPoints - 1 := (Idm.genLoop_spec _ _ _ _ _ hg).1
        have hne : l ≠ [] := by rintro rfl; simp at hlen; omega
        have hz : reached l y.2.1 y.2.2 = (z.2.1, z.2.2) := by
          rw [List.getLast?_cons, List.getLast?_map, List.getLast?_eq_some_getLast hne] at e3
          simp only [Option.map_some, Option.getD_some, Option.some.injEq] at e3
          unfold reached
          rw [List.getLast?_eq_some_getLast hne, ← e3]
          rfl
        have hst := step_total hn dt 1
        rw [one_mul, one_mul] at hst
        have hacc : ∀ rl a, Idm.totalAcc p (rel obs id y) y.2.2 rl = .ok (.fin a) → - -p.accLower ≤ a := by
          intro rl a h
          obtain ⟨a', ha', hb, -⟩ := Idm.C21_acc_within_bounds hp (rel obs id y) y.2.2 rl (fun _ hs => absurd hs.1 (by rw [hc]; exact lt_irrefl _))
          rw [Idm.Spec.Returns, h] at ha'
          cases ha'
          rw [neg_neg]; exact hb
        obtain ⟨u1, u2⟩ := loop_lower hB.le (stepSize_nonneg hn hdt.le) hacc _ _ _ _ _ l i1 hg hm
        rw [hz, hst] at u1 u2
        dsimp only at u1 u2
        rw [e4]
        have := mul_le_mul_of_nonneg_right i2 hdt.le
        constructor
        · linarith
        · nlinarith)
  intro a' ha'
  obtain ⟨z, d, e1, -, -, -, e5⟩ := r1 a' ha'
  rw [e1, hx] at e5
  refine ⟨z, d.2.2.2, e1, e5, fun rear vel hu hlt ht => ?_⟩
  rw [ht] at e5 ⊢
  have hBne : -p.accLower ≠ 0 := hB.ne'
  have e : x.2.2 * ((x.2.2 - vel) / (-p.accLower)) - 1 / 2 * (-p.accLower) * ((x.2.2 - vel) / (-p.accLower)) ^ 2 -
      vel * ((x.2.2 - vel) / (-p.accLower)) = (x.2.2 - vel) ^ 2 / (2 * (-p.accLower)) := by
    field_simp; ring
  have h3 : rear - x.2.1 < (x.2.2 - vel) ^ 2 / (2 * (-p.accLower)) := by
    rw [lt_div_iff₀ (by linarith)]; linarith
  linarith

end

/-- **C197, the defaults.** With the default parameters of the IDM (base_idm.cpp:37-90) every step of at most 0.2 seconds is
short enough. -/
theorem C197_defaults {T : ℝ} (h0 : 0 ≤ T) (h1 : T ≤ 1 / 5) : Roomy 1.7 5 1.67 2 1.5 T := by
  have hT2 : T ^ 2 ≤ 1 / 25 := by nlinarith
  have hT0 : 0 ≤ T ^ 2 := sq_nonneg T
  refine ⟨by norm_num, ?_, ?_⟩
  · have k0 : 0 < √(1.67 * (1.7 + 5)) := Real.sqrt_pos.2 (by norm_num)
    have k1 : √(1.67 * (1.7 + 5)) ≤ 3.4 := by
      rw [Real.sqrt_le_left (by norm_num)]; norm_num
    have k2 : (0.5 : ℝ) ≤ √(1.7 / (1.7 + 5)) := Real.le_sqrt_of_sq_le (by norm_num)
    have k3 : (0.4 : ℝ) ≤ 5 / √(1.67 * (1.7 + 5)) - 1 := by
      rw [le_sub_iff_add_le, le_div_iff₀ k0]; linarith
    have k4 : (7 : ℝ) ≤ 2 * 5 * 2 * √(1.7 / (1.7 + 5)) - (1.7 ^ 2 + 3 * 1.7 * 5 + 5 ^ 2) * T ^ 2 := by
      norm_num at k2 ⊢
      linarith
    have k5 := mul_le_mul k3 k4 (by norm_num) (by linarith)
    refine le_trans ?_ k5
    rw [mul_pow]
    norm_num
    linarith
  · have k2 : (1 : ℝ) ≤ √(1.7 * 1.67) := Real.le_sqrt_of_sq_le (by norm_num)
    linarith

/-- the default parameters, base_idm.cpp:37-90 -/
noncomputable def dflt : Idm.Params :=
  { minSpacing := 2, headway := 1.5, maxAcc := 1.7, desiredVel := 15, comfBraking := 1.67, minVel := 0, maxVel := 50,
    accLower := -5, accUpper := 8, exponent := 4, numPoints := 11, coolness := 0, tiny := 1 / 2 ^ 1022 }

theorem dflt_sane : Idm.Spec.Sane dflt :=
  ⟨by norm_num [dflt], by norm_num [dflt], by norm_num [dflt], by norm_num [dflt], by norm_num [dflt], by norm_num [dflt], by
    show (0 : ℝ) < 1 / 2 ^ 1022; positivity⟩

/-- a vehicle ahead that drives with 8 m/s, 40 m away at the beginning -/
noncomputable def truck (t : ℝ) : ℝ × ℝ := (40 + 8 * t, 8)

/-- the hypotheses of C197 are met by a vehicle with 10 m/s behind it -/
example : ∃ w', run (drivePlug (fun _ _ => true) fun obs _ dt x => planIdm dflt ⟨(truck obs.time).1 - x.2.1, (truck obs.time).2, 0, true⟩ obs.time dt x)
      drivenWorld (Spec.steps [0.2, 0.1, 0.2]) = .ok w' ∧
      ∀ a', w'.getAgent 0 = some a' → ∃ z, a'.currentState = .ok z ∧ z.2.1 < (truck w'.time).1 := by
  obtain ⟨w', h, ht⟩ := C180_clock (drivePlug (fun _ _ => true) fun obs _ dt x =>
    planIdm dflt ⟨(truck obs.time).1 - x.2.1, (truck obs.time).2, 0, true⟩ obs.time dt x) drivenWorld_wf [0.2, 0.1, 0.2]
  have r := C197_no_collision dflt_sane rfl (by norm_num [dflt]) (by norm_num [dflt]) (by norm_num [dflt]) (by norm_num [dflt])
    (by norm_num [dflt]) (by norm_num [dflt]) (by norm_num [dflt]) (lead := truck)
    ⟨fun _ _ _ => le_refl _, fun t t' _ => by unfold truck; dsimp only; linarith⟩ (la := fun _ => 0)
    (drivePlug_drives _ _) drivenWorld_wf [0.2, 0.1, 0.2] (by norm_num)
    (by
      intro d hd
      have hd' : 0 ≤ d ∧ d ≤ 1 / 5 := by
        simp only [List.mem_cons, List.not_mem_nil, or_false] at hd
        rcases hd with rfl | rfl | rfl <;> norm_num
      have e := C197_defaults hd'.1 hd'.2
      simpa [dflt] using e) h (id := 0)
    (a := driven 0 0 10) rfl (x := (0, 0, 10)) ⟨le_refl _, ⟨_, rfl⟩, ⟨_, rfl, rfl⟩, rfl⟩ rfl (by norm_num [dflt])
    (by norm_num [dflt, truck]) (by unfold Safe; norm_num [dflt, truck, drivenWorld])
  refine ⟨w', h, fun a' ha' => ?_⟩
  obtain ⟨z, e1, -, -, e2, -⟩ := r a' ha'
  exact ⟨z, e1, e2⟩

/-- two vehicles: 0 follows 1, which keeps its velocity -/
noncomputable def pairTraj (obs : World ℝ (ℝ × ℝ × ℝ) Unit Drive (Res (Interp.Exec (ℝ × ℝ × ℝ))) Unit Unit Unit) (id : Nat) (dt : ℝ)
    (x : ℝ × ℝ × ℝ) : Res (List (ℝ × ℝ × ℝ)) :=
  if id = 0 then
    match obs.getAgent 1 with
    | some b =>
      match b.currentState with
      | .ok y => planIdm dflt ⟨y.2.1 - 5 - x.2.1, y.2.2, 0, true⟩ obs.time dt x
      | .error f => .error f
    | none => .error .thrown
  else .ok [x, (x.1 + dt, x.2.1 + x.2.2 * dt, x.2.2)]

/-- they are 30 m apart and drive with 12 and 8 m/s -/
noncomputable def pairWorld : World ℝ (ℝ × ℝ × ℝ) Unit Drive (Res (Interp.Exec (ℝ × ℝ × ℝ))) Unit Unit Unit :=
  { agents := [(0, driven 0 0 12), (1, driven 1 30 8)], time := 0, rtree := [], removeAgents := false, mapBox := none, observer := () }

theorem pairWorld_wf : Props.WellFormed pairWorld := by
  refine ⟨by simp [OMap.Sorted, pairWorld], ?_, by simp [pairWorld]⟩
  intro id a h
  have hm := OMap.find_some_mem h
  simp only [pairWorld, List.mem_cons, List.not_mem_nil, or_false, Prod.mk.injEq] at hm
  rcases hm with ⟨rfl, rfl⟩ | ⟨rfl, rfl⟩ <;> simp [driven]

/-- the hypotheses of the second part are met: for any number of steps of 0.2 s they stay apart -/
example (n : Nat) : ∃ w', run (drivePlug (fun _ _ => true) pairTraj) pairWorld (Spec.steps (List.replicate n 0.2)) = .ok w' ∧
    ∃ a' b' x' y', w'.getAgent 0 = some a' ∧ w'.getAgent 1 = some b' ∧ a'.currentState = .ok x' ∧ b'.currentState = .ok y' ∧
      x'.2.1 + 5 < y'.2.1 := by
  obtain ⟨w', h, ht⟩ := C180_clock (drivePlug (fun _ _ => true) pairTraj) pairWorld_wf (List.replicate n 0.2)
  refine ⟨w', h, ?_⟩
  obtain ⟨a', b', x', y', r1, r2, r3, r4, -, -, r5, -⟩ := C197_two_vehicles dflt_sane rfl (by norm_num [dflt]) (by norm_num [dflt])
    (by norm_num [dflt]) (by norm_num [dflt]) (by norm_num [dflt]) (by norm_num [dflt]) (by norm_num [dflt])
    (drivePlug_drives (fun _ _ => true) pairTraj) (i := 0) (j := 1) (len := 5) (la := fun _ => 0) (fun _ _ => rfl) (fun _ => ⟨rfl, rfl⟩)
    (by
      intro obs dt x y b hb hs
      unfold pairTraj
      rw [if_pos rfl, hb]
      dsimp only
      rw [hs])
    (by
      intro obs dt y hdt hot
      refine ⟨[y, (y.1 + dt, y.2.1 + y.2.2 * dt, y.2.2)], (y.1 + dt, y.2.1 + y.2.2 * dt, y.2.2), ?_, rfl, rfl, rfl, le_refl _, le_refl _⟩
      unfold pairTraj
      rw [if_neg (by decide)])
    pairWorld_wf rfl (List.replicate n 0.2) (by intro d hd; rw [List.eq_of_mem_replicate hd]; norm_num)
    (by
      intro d hd
      rw [List.eq_of_mem_replicate hd]
      have e := C197_defaults (T := 0.2) (by norm_num) (by norm_num)
      simpa [dflt] using e) h
    (a := driven 0 0 12) (b := driven 1 30 8) rfl rfl (x := (0, 0, 12)) (y := (0, 30, 8))
    ⟨le_refl _, ⟨_, rfl⟩, ⟨_, rfl, rfl⟩, rfl⟩ ⟨le_refl _, ⟨_, rfl⟩, ⟨_, rfl, rfl⟩, rfl⟩ rfl rfl (by norm_num [dflt]) (by norm_num [dflt])
    (by unfold Safe; norm_num [dflt])
  exact ⟨a', b', x', y', r1, r2, r3, r4, by linarith⟩

end Bark.Loop
