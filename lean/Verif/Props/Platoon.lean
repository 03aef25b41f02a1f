import Verif.Spec.Platoon
import Verif.Props.Follow

/-! C200: a platoon of vehicles with the IDM never runs into itself. -/
namespace Bark.Loop
open Bark World
set_option linter.unusedSectionVars false

open Spec (Clear Gentle brakingWay)

theorem clear_mono {g g' v v' w w' : ℝ} (h : Clear g v w) (hg : g ≤ g') (hv' : 0 ≤ v') (hv : v' ≤ v) (hw : 0 ≤ w) (hw' : w ≤ w') : Clear g' v' w' := by
  obtain ⟨h1, h2⟩ := h
  refine ⟨lt_of_lt_of_le h1 hg, ?_⟩
  have e1 : v' ^ 2 ≤ v ^ 2 := pow_le_pow_left₀ hv' hv 2
  have e2 : w ^ 2 ≤ w' ^ 2 := pow_le_pow_left₀ hw hw' 2
  linarith

/-- `w < 5 h` -/
theorem slow_step {w h : ℝ} (hh : 0 ≤ h) (h1 : h ≤ 1 / 50) (hw : 0 ≤ w) (hc : w ≤ 5 * h) :
    0 ≤ w * h - 5 / 2 * h ^ 2 + h / 10 - w ^ 2 / 10 - w / 50 := by
  have e : w * h - 5 / 2 * h ^ 2 + h / 10 - w ^ 2 / 10 - w / 50 = (5 * h - w) * (1 / 50 - (5 * h - w) / 10) := by ring
  rw [e]
  exact mul_nonneg (by linarith) (by linarith)

theorem clear_brake {g v w h : ℝ} (hh : 0 ≤ h) (h1 : h ≤ 1 / 50) (hs : Clear g v w) (hv : 0 ≤ v) (hw : 0 ≤ w) :
    Clear (g + (w - v) * h) (max (v - 5 * h) 0) (max (w - 5 * h) 0) := by
  rcases le_or_gt v w with c | c
  · refine clear_mono (g := g) (v := max (v - 5 * h) 0) (w := max (v - 5 * h) 0) ⟨hs.1, by linarith [hs.1]⟩ ?_ (le_max_right _ _) (le_refl _)
      (le_max_right _ _) (max_le_max (by linarith) (le_refl _))
    have := mul_nonneg (sub_nonneg.2 c) hh
    linarith
  obtain ⟨h2, h3⟩ := hs
  rcases le_or_gt (5 * h) w with k | k
  · rw [max_eq_left (by linarith), max_eq_left (by linarith)]
    have e : (v - 5 * h) ^ 2 / 10 + (v - 5 * h) / 50 < g + (w - v) * h + ((w - 5 * h) ^ 2 / 10 + (w - 5 * h) / 50) := by nlinarith
    refine ⟨?_, e⟩
    have e2 : (w - 5 * h) ^ 2 ≤ (v - 5 * h) ^ 2 := pow_le_pow_left₀ (by linarith) (by linarith) 2
    linarith
  · rw [max_eq_right (show w - 5 * h ≤ 0 by linarith)]
    have hsl := slow_step hh h1 hw k.le
    rcases le_or_gt (5 * h) v with j | j
    · rw [max_eq_left (by linarith)]
      have e : (v - 5 * h) ^ 2 / 10 + (v - 5 * h) / 50 < g + (w - v) * h := by nlinarith
      have := sq_nonneg (v - 5 * h)
      exact ⟨by linarith, by linarith⟩
    · rw [max_eq_right (by linarith)]
      have e : (v - w) * h ≤ (v - w) * (1 / 50) := mul_le_mul_of_nonneg_left h1 (by linarith)
      have e2 : w ^ 2 ≤ v ^ 2 := pow_le_pow_left₀ hw c.le 2
      have e3 : 0 < g + (w - v) * h := by linarith
      exact ⟨e3, by linarith⟩

/-- `n` pieces of length `h` with the strongest braking, as the discretised motion has it -/
noncomputable def brk (h : ℝ) : Nat → ℝ → ℝ → ℝ × ℝ
  | 0, s, v => (s, v)
  | n + 1, s, v => brk h n (s + (v * h - 5 / 2 * h ^ 2)) (max (v - 5 * h) 0)

theorem brk_mono {h : ℝ} (hh : 0 ≤ h) : ∀ (n : Nat) {s s' v v' : ℝ}, s ≤ s' → v ≤ v' →
    (brk h n s v).1 ≤ (brk h n s' v').1 ∧ (brk h n s v).2 ≤ (brk h n s' v').2
  | 0, s, s', v, v', hs, hv => ⟨hs, hv⟩
  | n + 1, s, s', v, v', hs, hv => by
    refine brk_mono hh n ?_ (max_le_max (by linarith) (le_refl _))
    have := mul_le_mul_of_nonneg_right hv hh
    linarith

theorem brk_nonneg {h : ℝ} : ∀ (n : Nat) (s v : ℝ), 0 ≤ v → 0 ≤ (brk h n s v).2
  | 0, _, _, hv => hv
  | n + 1, _, _, _ => brk_nonneg n _ _ (le_max_right _ _)

theorem brk_shift {h : ℝ} : ∀ (n : Nat) (s v d : ℝ), brk h n (s + d) v = ((brk h n s v).1 + d, (brk h n s v).2)
  | 0, s, v, d => rfl
  | n + 1, s, v, d => by
    unfold brk
    rw [← brk_shift n]
    congr 1
    ring

/-- how much the braking vehicle loses of its way and remaining braking way -/
theorem brk_potential {h : ℝ} (hh : 0 ≤ h) (h1 : h ≤ 1 / 50) : ∀ (n : Nat) (s v : ℝ), 0 ≤ v →
    s + (v ^ 2 / 10 + v / 50) - n * h / 10 ≤ (brk h n s v).1 + ((brk h n s v).2 ^ 2 / 10 + (brk h n s v).2 / 50) ∧
    s + v * (n * h) - 5 / 2 * (n * h) ^ 2 ≤ (brk h n s v).1
  | 0, s, v, hv => by simp [brk]
  | n + 1, s, v, hv => by
    obtain ⟨i1, i2⟩ := brk_potential hh h1 n (s + (v * h - 5 / 2 * h ^ 2)) (max (v - 5 * h) 0) (le_max_right _ _)
    unfold brk
    push_cast
    have hn : (0 : ℝ) ≤ n * h := by positivity
    constructor
    · rcases le_or_gt (5 * h) v with k | k
      · rw [max_eq_left (by linarith)] at i1 ⊢
        nlinarith
      · rw [max_eq_right (show v - 5 * h ≤ 0 by linarith)] at i1 ⊢
        have := slow_step hh h1 hv k.le
        nlinarith
    · have := mul_le_mul_of_nonneg_right (le_max_left (v - 5 * h) 0) hn
      nlinarith

theorem brk_way {h : ℝ} (hh : 0 ≤ h) : ∀ (n : Nat) (s v : ℝ), 0 ≤ v →
    (brk h n s v).1 ≤ s + brakingWay v (n * h) ∧ (brk h n s v).2 = max (v - 5 * (n * h)) 0
  | 0, s, v, hv => by simp [brk, brakingWay, hv]
  | n + 1, s, v, hv => by
    obtain ⟨i1, i2⟩ := brk_way hh n (s + (v * h - 5 / 2 * h ^ 2)) (max (v - 5 * h) 0) (le_max_right _ _)
    unfold brk
    have hn : (0 : ℝ) ≤ n * h := by positivity
    push_cast
    constructor
    · refine le_trans i1 ?_
      unfold brakingWay
      rcases le_or_gt (5 * h) v with k | k
      · rw [max_eq_left (by linarith)]
        by_cases c : 5 * (n * h) ≤ v - 5 * h
        · rw [if_pos c, if_pos (by linarith)]
          nlinarith
        · rw [if_neg c, if_neg (by intro hc; exact c (by linarith))]
          nlinarith
      · rw [max_eq_right (show v - 5 * h ≤ 0 by linarith), if_neg (show ¬ 5 * ((n + 1) * h) ≤ v by intro hc; linarith)]
        have h2 : (if 5 * (n * h) ≤ 0 then 0 * (n * h) - 5 / 2 * (n * h) ^ 2 else 0 ^ 2 / 10) ≤ 0 := by
          split_ifs
          · have := sq_nonneg (n * h); linarith
          · norm_num
        nlinarith [sq_nonneg (v - 5 * h)]
    · rw [i2, ← max_sub_sub_right]
      rw [max_assoc]
      congr 1
      · ring
      · exact max_eq_right (by linarith)

theorem gentle_brk {y z : ℝ × ℝ × ℝ} {t h : ℝ} {n : Nat} (hh : 0 ≤ h) (hn : n * h = t) (hy : 0 ≤ y.2.2) (hg : Gentle y z t) :
    (brk h n y.2.1 y.2.2).1 ≤ z.2.1 ∧ (brk h n y.2.1 y.2.2).2 ≤ z.2.2 := by
  obtain ⟨-, g1, g2, g3⟩ := hg
  obtain ⟨b1, b2⟩ := brk_way hh n y.2.1 y.2.2 hy
  rw [hn] at b1 b2
  exact ⟨by linarith, by rw [b2]; exact max_le g2 g1⟩

/-- the IDM brakes no harder -/
theorem loop_brk {p : Idm.Params} {r : Idm.Rel} {start h v0 : ℝ} (hh : 0 ≤ h) (hmin : p.minVel = 0) (hmm : 0 ≤ p.maxVel)
    (hacc : ∀ rel a, Idm.totalAcc p r v0 rel = .ok (.fin a) → -5 ≤ a) : ∀ (n i : Nat) (s v rel : ℝ) (l : List (ℝ × Idm.Row)), 0 ≤ v → v ≤ p.maxVel →
      Idm.genLoop p r start h v0 n i s v rel = .ok l →
      (brk h n s v).1 ≤ (reached l s v).1 ∧ (brk h n s v).2 ≤ (reached l s v).2
  | 0, i, s, v, rel, l, _, _, hl => by
    simp only [Idm.genLoop, Except.ok.injEq] at hl
    subst hl
    simp [reached, brk]
  | n + 1, i, s, v, rel, l, h0, h1, hl => by
    obtain ⟨a, l', ha, hl', he⟩ := genLoop_cons hl
    have haA := hacc _ _ ha
    have had : -5 * h ≤ a * h := mul_le_mul_of_nonneg_right haA hh
    have hadd : -5 * h * h ≤ a * h * h := mul_le_mul_of_nonneg_right had hh
    obtain ⟨i1, i2⟩ := loop_brk hh hmin hmm hacc n (i + 1) _ _ _ l' (by rw [hmin]; exact le_max_right _ _)
      (max_le (min_le_right _ _) (by rw [hmin]; exact hmm)) hl'
    obtain ⟨m1, m2⟩ := brk_mono hh n (s := s + (v * h - 5 / 2 * h ^ 2)) (s' := s + (1 / 2 * a * h * h + v * h)) (v := max (v - 5 * h) 0)
      (v' := max (min (v + a * h) p.maxVel) p.minVel) (by nlinarith) (by
        rw [hmin]
        exact max_le_max (le_min (by linarith) (by nlinarith)) (le_refl _))
    rw [he]
    unfold brk
    exact ⟨le_trans m1 i1, le_trans m2 i2⟩

/-- either it stays clear of a vehicle braking as hard as possible, or at some time it sees no need to brake that hard -/
theorem loop_clear {p : Idm.Params} {r : Idm.Rel} {start h v0 e : ℝ} (hh : 0 ≤ h) (h1 : h ≤ 1 / 50) (hmin : p.minVel = 0) (he : 0 ≤ e)
    (hfar : ∀ rel a, Idm.totalAcc p r v0 rel = .ok (.fin a) → Idm.nextDist r v0 rel a h ≤ rel + e) :
    ∀ (n i : Nat) (s v rel D w : ℝ) (l : List (ℝ × Idm.Row)), Idm.genLoop p r start h v0 n i s v rel = .ok l → 0 ≤ v → 0 ≤ w → Clear (D - s) v w →
      Clear ((brk h n D w).1 - (reached l s v).1) (reached l s v).2 (brk h n D w).2 ∨
        ∃ rel' a, rel' ≤ rel + n * e ∧ Idm.totalAcc p r v0 rel' = .ok (.fin a) ∧ -5 < a
  | 0, i, s, v, rel, D, w, l, hl, _, _, hs => by
    simp only [Idm.genLoop, Except.ok.injEq] at hl
    subst hl
    left
    simpa [reached, brk] using hs
  | n + 1, i, s, v, rel, D, w, l, hl, hv, hw, hs => by
    obtain ⟨a, l', ha, hl', hr⟩ := genLoop_cons hl
    have hn : (0 : ℝ) ≤ n * e := by positivity
    rcases lt_or_ge (-5) a with c | c
    · exact Or.inr ⟨rel, a, by push_cast; nlinarith, ha, c⟩
    · have k1 := clear_brake hh h1 hs hv hw
      have hah : a * h ≤ -5 * h := mul_le_mul_of_nonneg_right c hh
      have hahh : a * h * h ≤ -5 * h * h := mul_le_mul_of_nonneg_right hah hh
      have k2 : Clear (D + (w * h - 5 / 2 * h ^ 2) - (s + (1 / 2 * a * h * h + v * h))) (max (min (v + a * h) p.maxVel) p.minVel) (max (w - 5 * h) 0) := by
        rw [hmin]
        refine clear_mono k1 (by nlinarith) (le_max_right _ _) (max_le_max (le_trans (min_le_left _ _) (by linarith)) (le_refl _)) (le_max_right _ _) (le_refl _)
      rcases loop_clear hh h1 hmin he hfar n (i + 1) _ _ _ _ _ l' hl' (by rw [hmin]; exact le_max_right _ _) (le_max_right _ _) k2 with g | ⟨rel', a', g1, g2, g3⟩
      · left
        rw [hr]
        exact g
      · refine Or.inr ⟨rel', a', ?_, g2, g3⟩
        have := hfar _ _ ha
        push_cast
        linarith

/-- numbers, closing in: `m` is the difference of the velocities -/
theorem closing_room {T v w g c s : ℝ} (hT : 0 ≤ T) (h1 : T ≤ 1 / 5) (hv : v ≤ 15) (hw : 0 ≤ w) (hm : w ≤ v) (hc : 0.296 ≤ c)
    (hs : s = 2 + v * 1.5 + c * (v * (v - w))) (h2 : s < 2 * (g + T ^ 2 / 4)) :
    0 < g + (w * T - 5 / 2 * T ^ 2) - (v * T + 0.85 * T ^ 2) ∧
      (v + 1.7 * T) ^ 2 / 10 + (v + 1.7 * T) / 50 < g + (w ^ 2 / 10 + w / 50) - T / 10 - (v * T + 0.85 * T ^ 2) := by
  obtain ⟨m, rfl⟩ : ∃ m, w = v - m := ⟨v - w, by ring⟩
  have hm0 : 0 ≤ m := by linarith
  have hmv : m ≤ v := by linarith
  have hv0 : 0 ≤ v := by linarith
  have hT2 : T ^ 2 ≤ 1 / 25 := by nlinarith
  have hvm : 0 ≤ v * m := mul_nonneg hv0 hm0
  have hcc : 0.296 * (v * m) ≤ c * (v * m) := mul_le_mul_of_nonneg_right hc hvm
  have hg : 0.99 + 0.75 * v + 0.148 * (v * m) ≤ g := by
    have e : v * (v - (v - m)) = v * m := by ring
    rw [e] at hs
    linarith
  have hmT : m * T ≤ m * (1 / 5) := mul_le_mul_of_nonneg_left h1 hm0
  have hvT : v * T ≤ v * (1 / 5) := mul_le_mul_of_nonneg_left h1 hv0
  constructor
  · nlinarith
  · have key : 0 < 0.91 + 0.482 * v - 0.052 * (v * m) + 0.1 * m ^ 2 - 0.02 * m := by
      rcases le_or_gt m 9 with k | k
      · have := mul_nonneg hv0 (sub_nonneg.2 k)
        nlinarith [sq_nonneg (m - 0.1)]
      · have := mul_nonneg (sub_nonneg.2 hv) (sub_nonneg.2 k.le)
        nlinarith [sq_nonneg (m - 4)]
    nlinarith

theorem falling_room {T v w g c s : ℝ} (hT : 0 ≤ T) (h1 : T ≤ 1 / 5) (hv : 0 ≤ v) (hm : v < w) (hc : c ≤ 0.297) (hg0 : 0 < g)
    (hs : s = 2 + v * 1.5 + c * (v * (v - w))) (h2 : s < 2 * (g + (w - v) * T + T ^ 2 / 4)) :
    0 < g + (w * T - 5 / 2 * T ^ 2) - (v * T + 0.85 * T ^ 2) ∧
      (v + 1.7 * T) ^ 2 / 10 + (v + 1.7 * T) / 50 < g + (w ^ 2 / 10 + w / 50) - T / 10 - (v * T + 0.85 * T ^ 2) := by
  obtain ⟨m, rfl⟩ : ∃ m, w = v + m := ⟨w - v, by ring⟩
  have hm0 : 0 < m := by linarith
  have hT2 : T ^ 2 ≤ 1 / 25 := by nlinarith
  have hvm : 0 ≤ v * m := mul_nonneg hv hm0.le
  have hcc : c * (v * m) ≤ 0.297 * (v * m) := mul_le_mul_of_nonneg_right hc hvm
  have hg : 0.99 + 0.75 * v - 0.1485 * (v * m) - m * T ≤ g := by
    have e : v * (v - (v + m)) = - (v * m) := by ring
    rw [e] at hs
    nlinarith
  have hmT : m * T ≤ m * (1 / 5) := mul_le_mul_of_nonneg_left h1 hm0.le
  have hvT : v * T ≤ v * (1 / 5) := mul_le_mul_of_nonneg_left h1 hv
  constructor
  · rcases le_or_gt (3.35 * T) m with k | k
    · have := mul_le_mul_of_nonneg_right k hT
      nlinarith
    · have k' : m ≤ 0.67 := by linarith
      have := mul_le_mul_of_nonneg_left k' hv
      nlinarith
  · nlinarith [sq_nonneg (m - 0.9)]

theorem dflt_gap (v w : ℝ) : ∃ c : ℝ, 0.296 ≤ c ∧ c ≤ 0.297 ∧ Idm.Spec.desiredGap dflt v w = 2 + v * 1.5 + c * (v * (v - w)) := by
  have h1 : (1.684 : ℝ) ≤ √(1.7 * 1.67) := Real.le_sqrt_of_sq_le (by norm_num)
  have h2 : √(1.7 * 1.67) ≤ (1.685 : ℝ) := by rw [Real.sqrt_le_left (by norm_num)]; norm_num
  refine ⟨1 / (2 * √(1.7 * 1.67)), ?_, ?_, ?_⟩
  · rw [le_div_iff₀ (by linarith)]; linarith
  · rw [div_le_iff₀ (by linarith)]; linarith
  · unfold Idm.Spec.desiredGap dflt
    dsimp only
    have : √(1.7 * 1.67) ≠ 0 := by linarith
    field_simp

theorem not_hard {s ρ : ℝ} (hρ : 0 < ρ) (h : 1.7 * (s / ρ) ^ 2 < 1.7 - -5) : s < 2 * ρ := by
  by_contra hc
  have h1 : 2 ≤ s / ρ := by rw [le_div_iff₀ hρ]; linarith
  have h2 : (2 : ℝ) ^ 2 ≤ (s / ρ) ^ 2 := pow_le_pow_left₀ (by norm_num) h1 2
  linarith

set_option maxHeartbeats 800000 in
/-- one plan behind a vehicle: the planner brakes no harder than with 5 m/s², and stays clear of the vehicle ahead however it brakes -/
theorem plan_clear {r : Idm.Rel} (hr : r.hasLeader = true) (hw : 0 ≤ r.velocity) {T : ℝ} (hT : 0 ≤ T) (hT1 : T ≤ 1 / 5) (y : ℝ × ℝ × ℝ)
    (h0 : 0 ≤ y.2.2) (h15 : y.2.2 ≤ 15) (hs : Clear r.distance y.2.2 r.velocity) :
    ∃ tr z, planIdm dflt r y.1 T y = .ok tr ∧ tr.head? = some y ∧ tr.getLast? = some z ∧ z.1 = y.1 + T ∧ 0 ≤ z.2.2 ∧ z.2.2 ≤ 15 ∧
      ((brk (T / 10) 10 y.2.1 y.2.2).1 ≤ z.2.1 ∧ (brk (T / 10) 10 y.2.1 y.2.2).2 ≤ z.2.2) ∧
      ∀ D q u, D - y.2.1 = r.distance → (brk (T / 10) 10 D r.velocity).1 ≤ q → (brk (T / 10) 10 D r.velocity).2 ≤ u → Clear (q - z.2.1) z.2.2 u := by
  obtain ⟨tr, z, e1, e2, e3, e4, e5, -, e6, -⟩ := planIdm_desired (r := r) dflt_sane rfl (by norm_num [dflt]) (by norm_num [dflt]) (by norm_num [dflt])
    (by norm_num [dflt]) (by norm_num [dflt]) (by norm_num [dflt]) (by norm_num [dflt]) hT (by norm_num [dflt]; linarith) y h0 h15
  refine ⟨tr, z, e1, e2, e3, e4, e5, e6, ?_⟩
  unfold planIdm at e1
  cases hg : Idm.generate dflt r y.1 (Idm.stepSize dflt T) y.2.1 y.2.2 with
  | error f => rw [hg] at e1; cases e1
  | ok l =>
    rw [hg] at e1
    simp only [Except.ok.injEq] at e1
    subst e1
    have hlen : l.length = dflt.numPoints - 1 := (Idm.genLoop_spec _ _ _ _ _ hg).1
    have hne : l ≠ [] := by rintro rfl; norm_num [dflt] at hlen
    have hz : reached l y.2.1 y.2.2 = (z.2.1, z.2.2) := by
      rw [List.getLast?_cons, List.getLast?_map, List.getLast?_eq_some_getLast hne] at e3
      simp only [Option.map_some, Option.getD_some, Option.some.injEq] at e3
      unfold reached
      rw [List.getLast?_eq_some_getLast hne, ← e3]
      rfl
    have hst : Idm.stepSize dflt T = T / 10 := by unfold Idm.stepSize; norm_num [dflt]
    rw [hst] at hg
    unfold Idm.generate at hg
    have hn10 : dflt.numPoints - 1 = 10 := rfl
    rw [hn10] at hg
    have hdt : 0 ≤ T / 10 := by linarith
    have hdt1 : T / 10 ≤ 1 / 50 := by linarith
    have hac : ∀ rel a, Idm.totalAcc dflt r y.2.2 rel = .ok (.fin a) → -5 ≤ a ∧ a ≤ 1.7 ∧
        (-5 < a → 0 < rel ∧ 1.7 * (Idm.Spec.desiredGap dflt y.2.2 r.velocity / rel) ^ 2 < 1.7 - -5) := fun rel a h =>
      acc_follow dflt_sane rfl (by norm_num [dflt]) (by norm_num [dflt]) hr h0 h
    have lb := loop_brk hdt rfl (by norm_num [dflt]) (fun rel a h => (hac rel a h).1) 10 _ _ _ _ l h0 (by norm_num [dflt]; linarith) hg
    rw [hz] at lb
    refine ⟨lb, fun D q u hD hq hu => ?_⟩
    obtain ⟨u1, u2⟩ := loop_upper (A := 1.7) (by norm_num) hdt (fun rel a h => (hac rel a h).2.1) 10 _ _ _ _ l h0 hg
    rw [hz] at u1 u2
    have e10 : ((10 : ℕ) : ℝ) * (T / 10) = T := by push_cast; ring
    rw [e10] at u1 u2
    dsimp only at u1 u2
    obtain ⟨p1, p2⟩ := brk_potential hdt hdt1 10 D r.velocity hw
    have p0 := brk_nonneg (h := T / 10) 10 D r.velocity hw
    rw [e10] at p1 p2
    set bp := (brk (T / 10) 10 D r.velocity).1 with hbp
    set bv := (brk (T / 10) 10 D r.velocity).2 with hbv
    have fin : ∀ {g v w : ℝ}, r.distance = g → y.2.2 = v → r.velocity = w → 0 < g + (w * T - 5 / 2 * T ^ 2) - (v * T + 0.85 * T ^ 2) ∧
      (v + 1.7 * T) ^ 2 / 10 + (v + 1.7 * T) / 50 < g + (w ^ 2 / 10 + w / 50) - T / 10 - (v * T + 0.85 * T ^ 2) → Clear (bp - z.2.1) z.2.2 bv := by
      intro g v w hg' hv' hw' ⟨f1, f2⟩
      rw [hw'] at p1 p2
      rw [hv'] at u1 u2
      rw [hg'] at hD
      have hsq : z.2.2 ^ 2 ≤ (v + 1.7 * T) ^ 2 := pow_le_pow_left₀ e5 u2 2
      exact ⟨by linarith, by linarith⟩
    have hne : 0 ≤ max 0 (r.velocity - y.2.2) := le_max_left _ _
    have he0 : 0 ≤ max 0 (r.velocity - y.2.2) * (T / 10) + 5 / 2 * (T / 10) ^ 2 := by positivity
    have hfar : ∀ rel a, Idm.totalAcc dflt r y.2.2 rel = .ok (.fin a) → Idm.nextDist r y.2.2 rel a (T / 10) ≤
        rel + (max 0 (r.velocity - y.2.2) * (T / 10) + 5 / 2 * (T / 10) ^ 2) := by
      intro rel a h
      have k1 := (hac rel a h).1
      unfold Idm.nextDist
      rw [if_pos hr]
      have h1 := mul_le_mul_of_nonneg_right (le_max_right 0 (r.velocity - y.2.2)) hdt
      have h2 := mul_le_mul_of_nonneg_right k1 (mul_nonneg hdt hdt)
      nlinarith
    rcases loop_clear hdt hdt1 rfl he0 hfar 10 _ _ _ _ D r.velocity l hg h0 hw (by rw [hD]; exact hs) with g | ⟨ρ, a, g1, g2, g3⟩
    · rw [hz] at g
      exact clear_mono g (by linarith) e5 (le_refl _) p0 hu
    · obtain ⟨k1, k2⟩ := (hac _ _ g2).2.2 g3
      have k3 := not_hard k1 k2
      obtain ⟨c, c1, c2, c3⟩ := dflt_gap y.2.2 r.velocity
      have g1' : ρ ≤ r.distance + max 0 (r.velocity - y.2.2) * T + T ^ 2 / 4 := by
        refine le_trans g1 (le_of_eq ?_)
        push_cast
        ring
      refine clear_mono (fin rfl rfl rfl ?_) (by linarith) e5 (le_refl _) p0 hu
      rcases le_or_gt r.velocity y.2.2 with m | m
      · rw [max_eq_left (by linarith), zero_mul, add_zero] at g1'
        exact closing_room hT hT1 h15 hw m c1 c3 (by linarith)
      · rw [max_eq_right (by linarith)] at g1'
        exact falling_room hT hT1 h0 m c2 hs.1 c3 (by linarith)

theorem before_mem {front i : Nat} : ∀ {others : List Nat}, i ∈ others → ∃ j, [j, i] <:+: front :: others := by
  intro others h
  obtain ⟨l, r, rfl⟩ := List.append_of_mem h
  rcases List.eq_nil_or_concat l with rfl | ⟨l', j, rfl⟩
  · exact ⟨front, [], r, by simp⟩
  · exact ⟨j, front :: l', r, by simp⟩

theorem mem_of_before {front j i : Nat} {others : List Nat} (h : [j, i] <:+: front :: others) : i ∈ others := by
  obtain ⟨l, r, h⟩ := h
  cases l with
  | nil => simp at h; rw [← h.2]; simp
  | cons a l => simp at h; rw [← h.2]; simp

section
variable {St Ac Bh E Sh Box O : Type}
variable {P : Plug ℝ St Ac Bh E Sh Box O} {lane : World ℝ St Ac Bh E Sh Box O → Nat → Bool}
  {behav : Drive → Bh} {exec : Res (Interp.Exec (ℝ × ℝ × ℝ)) → E} {st : ℝ × ℝ × ℝ → St}

/-- **C200.** A platoon of agents, however many: the first one drives on any trajectories that neither reverse nor brake harder than
with 5 m/s²; every other one drives with the IDM in its default configuration behind the agent before it in the order (`len j` metres
long), which it sees as it is. If at the beginning nobody but the first is faster than 15 m/s and each is `Clear` of the one before,
then after any number of steps of at most 0.2 s nobody has run into the one before (and all that still holds). -/
theorem C200_platoon {traj : World ℝ St Ac Bh E Sh Box O → Nat → ℝ → ℝ × ℝ × ℝ → Res (List (ℝ × ℝ × ℝ))}
    (hP : Spec.Drives P lane traj behav exec st) {front : Nat} {others : List Nat} {len : Nat → ℝ} {la : World ℝ St Ac Bh E Sh Box O → Nat → ℝ}
    (hsee : ∀ j i, [j, i] <:+: front :: others → ∀ o w, (P.observe o w i).2.getAgent j = w.getAgent j)
    (hlane : ∀ i ∈ front :: others, ∀ obs, lane obs i = true)
    (hfol : ∀ j i, [j, i] <:+: front :: others → ∀ obs dt x y b, obs.getAgent j = some b → b.currentState = .ok (st y) →
      traj obs i dt x = planIdm dflt ⟨y.2.1 - len j - x.2.1, y.2.2, la obs i, true⟩ obs.time dt x)
    (hlead : ∀ obs dt y, 0 < dt → obs.time = y.1 → ∃ tr z, traj obs front dt y = .ok tr ∧ tr.head? = some y ∧ tr.getLast? = some z ∧ Gentle y z dt)
    {w w' : World ℝ St Ac Bh E Sh Box O} (hw : Props.WellFormed w) (hoff : w.removeAgents = false) (dts : List ℝ)
    (hpos : ∀ d ∈ dts, 0 < d ∧ d ≤ 1 / 5) (h : run P w (Spec.steps dts) = .ok w') {x : Nat → ℝ × ℝ × ℝ}
    (hstart : ∀ i ∈ front :: others, ∃ a, w.getAgent i = some a ∧ Spec.Driving w.time behav exec st (x i) a ∧ (x i).1 = w.time ∧ 0 ≤ (x i).2.2)
    (hfast : ∀ i ∈ others, (x i).2.2 ≤ 15)
    (hclear : ∀ j i, [j, i] <:+: front :: others → Clear ((x j).2.1 - len j - (x i).2.1) (x i).2.2 (x j).2.2) :
    ∃ x' : Nat → ℝ × ℝ × ℝ, (∀ i ∈ front :: others, ∃ a', w'.getAgent i = some a' ∧ a'.currentState = .ok (st (x' i)) ∧ (x' i).1 = w'.time ∧
        0 ≤ (x' i).2.2) ∧
      (∀ i ∈ others, (x' i).2.2 ≤ 15) ∧
      ∀ j i, [j, i] <:+: front :: others → (x' i).2.1 < (x' j).2.1 - len j ∧ Clear ((x' j).2.1 - len j - (x' i).2.1) (x' i).2.2 (x' j).2.2 := by
  induction dts generalizing w x with
  | nil =>
    unfold Spec.steps run at h; cases h
    refine ⟨x, fun i hi => ?_, hfast, fun j i hij => ⟨by have := (hclear j i hij).1; linarith, hclear j i hij⟩⟩
    obtain ⟨a, h1, h2, h3, h4⟩ := hstart i hi
    exact ⟨a, h1, h2.2.2.2, h3, h4⟩
  | cons dt dts ih =>
    unfold Spec.steps at h
    rw [List.map_cons] at h
    unfold run at h
    obtain ⟨w1, h1, h2⟩ := Res.bind_ok h
    obtain ⟨w1', h1', hw1⟩ := Props.apply_wf P hw (Op.step dt) trivial
    rw [h1] at h1'; cases h1'
    have h1s : step P dt w = .ok w1 := h1
    obtain ⟨ht, hrm⟩ := step_keeps P h1s
    obtain ⟨hdt, hdt5⟩ := hpos dt (by simp)
    have h10 : ((10 : ℕ) : ℝ) * (dt / 10) = dt := by push_cast; ring
    have one : ∀ i ∈ front :: others, ∃ z, (∃ a1, w1.getAgent i = some a1 ∧ Spec.Driving w1.time behav exec st z a1 ∧ z.1 = w1.time ∧ 0 ≤ z.2.2) ∧
        ((brk (dt / 10) 10 (x i).2.1 (x i).2.2).1 ≤ z.2.1 ∧ (brk (dt / 10) 10 (x i).2.1 (x i).2.2).2 ≤ z.2.2) ∧ (i ∈ others → z.2.2 ≤ 15) ∧
        ∀ j, [j, i] <:+: front :: others → ∀ q u, (brk (dt / 10) 10 (x j).2.1 (x j).2.2).1 ≤ q → (brk (dt / 10) 10 (x j).2.1 (x j).2.2).2 ≤ u →
          Clear (q - len j - z.2.1) z.2.2 u := by
      intro i hi
      obtain ⟨a, ha, hd, hx, hx0⟩ := hstart i hi
      obtain ⟨obs, ⟨o, index, ho⟩, hot, -, hyes⟩ := drive_step hP hw h1s ha hdt hd hx
      have follow : ∀ j, [j, i] <:+: front :: others → (x i).2.2 ≤ 15 → ∃ tr z, traj obs i dt (x i) = .ok tr ∧ tr.head? = some (x i) ∧ tr.getLast? = some z ∧
          z.1 = (x i).1 + dt ∧ 0 ≤ z.2.2 ∧ z.2.2 ≤ 15 ∧
          ((brk (dt / 10) 10 (x i).2.1 (x i).2.2).1 ≤ z.2.1 ∧ (brk (dt / 10) 10 (x i).2.1 (x i).2.2).2 ≤ z.2.2) ∧
          ∀ q u, (brk (dt / 10) 10 (x j).2.1 (x j).2.2).1 ≤ q → (brk (dt / 10) 10 (x j).2.1 (x j).2.2).2 ≤ u → Clear (q - len j - z.2.1) z.2.2 u := by
        intro j hij h15
        obtain ⟨b, hb, hbd, -, hy0⟩ := hstart j (hij.subset (by simp))
        have ht' := hfol j i hij obs dt (x i) (x j) b (by rw [ho, hsee j i hij]; exact hb) hbd.2.2.2
        obtain ⟨tr, z, q1, q2, q3, q4, q5, q6, q7, q8⟩ := plan_clear
          (r := ⟨(x j).2.1 - len j - (x i).2.1, (x j).2.2, la obs i, true⟩) rfl hy0 hdt.le hdt5 (x i) hx0 h15 (hclear j i hij)
        refine ⟨tr, z, by rw [ht', hot, ← hx]; exact q1, q2, q3, q4, q5, q6, q7, fun q u hq hu => ?_⟩
        have sh := brk_shift (h := dt / 10) 10 (x j).2.1 (x j).2.2 (-len j)
        refine q8 ((x j).2.1 + -len j) (q - len j) u (by dsimp only; ring) ?_ ?_
        · dsimp only; rw [sh]; dsimp only; linarith
        · dsimp only; rw [sh]; exact hu
      have go : ∀ tr z, traj obs i dt (x i) = .ok tr → tr.head? = some (x i) → tr.getLast? = some z → z.1 = (x i).1 + dt → 0 ≤ z.2.2 →
          ∃ a1, w1.getAgent i = some a1 ∧ Spec.Driving w1.time behav exec st z a1 ∧ z.1 = w1.time ∧ 0 ≤ z.2.2 := by
        intro tr z t1 t2 t3 t4 t5
        obtain ⟨s1, s2⟩ := hyes tr z (hlane i hi obs) t1 t2 t3 (by rw [t4, hx])
        obtain ⟨a1, ha1⟩ := Option.ne_none_iff_exists'.1 (s2 hoff)
        exact ⟨a1, ha1, s1 a1 ha1, by rw [t4, ht, hx], t5⟩
      by_cases hio : i ∈ others
      · obtain ⟨j0, hj0⟩ : ∃ j, [j, i] <:+: front :: others := before_mem hio
        obtain ⟨tr, z, t1, t2, t3, t4, t5, t6, t7, -⟩ := follow j0 hj0 (hfast i hio)
        refine ⟨z, go tr z t1 t2 t3 t4 t5, t7, fun _ => t6, fun j hij => ?_⟩
        obtain ⟨tr', z', t1', t2', t3', t4', t5', t6', t7', t8'⟩ := follow j hij (hfast i hio)
        rw [t1] at t1'; cases t1'
        rw [t3] at t3'; cases t3'
        exact t8'
      · have hif : i = front := by
          rcases List.mem_cons.1 hi with e | e
          · exact e
          · exact absurd e hio
        obtain ⟨tr, z, t1, t2, t3, t4⟩ := hlead obs dt (x i) hdt (by rw [hot, hx])
        rw [← hif] at t1
        exact ⟨z, go tr z t1 t2 t3 t4.1 t4.2.1, gentle_brk (by linarith) h10 hx0 t4, fun e => absurd e hio, fun j hij => absurd (mem_of_before hij) hio⟩
    classical
    choose! x1 f1 f2 f3 f4 using one
    exact ih hw1 (by rw [hrm]; exact hoff) (fun d hd => hpos d (List.mem_cons_of_mem _ hd)) h2 f1
      (fun i hi => f3 i (List.mem_cons_of_mem _ hi) hi)
      (fun j i hij => by
        have hj := hij.subset (show j ∈ [j, i] by simp)
        have hi := hij.subset (show i ∈ [j, i] by simp)
        exact f4 i hi j hij _ _ (f2 j hj).1 (f2 j hj).2)

/-- **C200, it cannot be had for less.** An agent with the default IDM that is too fast to stop before the place where the vehicle
ahead comes to a standstill when that one brakes with 5 m/s² (`rear` its rear and `vel` its velocity now) is beyond that place after
the time of its own full braking, whatever it sees. -/
theorem C200_needed {rel : World ℝ St Ac Bh E Sh Box O → Nat → ℝ × ℝ × ℝ → Idm.Rel}
    (hP : Spec.Drives P lane (fun obs id dt x => planIdm dflt (rel obs id x) obs.time dt x) behav exec st)
    {w w' : World ℝ St Ac Bh E Sh Box O} (hw : Props.WellFormed w) (dts : List ℝ) (hpos : ∀ d ∈ dts, 0 < d)
    (h : run P w (Spec.steps dts) = .ok w') {id : Nat} {a : Agent ℝ St Ac Bh E Sh} (ha : w.getAgent id = some a)
    {x : ℝ × ℝ × ℝ} (hd : Spec.Driving w.time behav exec st x a) (hx : x.1 = w.time) (h0 : 0 < x.2.2) (h50 : x.2.2 ≤ 50)
    {rear vel : ℝ} (hfast : rear - x.2.1 + vel ^ 2 / 10 < x.2.2 ^ 2 / 10) (ht : w'.time - w.time = x.2.2 / 5) :
    ∀ a', w'.getAgent id = some a' → ∃ z, a'.currentState = .ok (st z) ∧ z.1 = w'.time ∧ rear + vel ^ 2 / 10 < z.2.1 := by
  intro a' ha'
  obtain ⟨z, z1, z2, -, z3⟩ := C197_unavoidable dflt_sane rfl (by norm_num [dflt]) (by norm_num [dflt]) (by norm_num [dflt]) hP hw dts hpos h ha hd hx
    (by norm_num [dflt]; exact h50) a' ha'
  refine ⟨z, z1, z2, ?_⟩
  have := z3 (rear + vel ^ 2 / 10) 0 (by linarith) (by norm_num [dflt]; linarith) (by rw [ht]; norm_num [dflt])
  linarith

end

/-- at the same velocity every positive gap is clear -/
example (g v : ℝ) : Clear g v v ↔ 0 < g := ⟨fun h => h.1, fun h => ⟨h, by linarith⟩⟩

/-- the way of a braking vehicle really is the one at constant deceleration up to the standstill -/
example : brakingWay 10 1 = 7.5 ∧ brakingWay 10 2 = 10 ∧ brakingWay 10 7 = 10 := by
  unfold brakingWay
  refine ⟨?_, ?_, ?_⟩ <;> norm_num

/-- three vehicles: 0 brakes with 5 m/s² all the time, 1 follows 0, 2 follows 1 -/
noncomputable def queueTraj (obs : World ℝ (ℝ × ℝ × ℝ) Unit Drive (Res (Interp.Exec (ℝ × ℝ × ℝ))) Unit Unit Unit) (id : Nat) (dt : ℝ)
    (x : ℝ × ℝ × ℝ) : Res (List (ℝ × ℝ × ℝ)) :=
  if id = 0 then .ok [x, (x.1 + dt, x.2.1 + brakingWay x.2.2 dt, max (x.2.2 - 5 * dt) 0)]
  else
    match obs.getAgent (id - 1) with
    | some b =>
      match b.currentState with
      | .ok y => planIdm dflt ⟨y.2.1 - 5 - x.2.1, y.2.2, 0, true⟩ obs.time dt x
      | .error f => .error f
    | none => .error .thrown

/-- they drive with 15, 14 and 15 m/s, 10 and 20 m apart from bumper to bumper -/
noncomputable def queueWorld : World ℝ (ℝ × ℝ × ℝ) Unit Drive (Res (Interp.Exec (ℝ × ℝ × ℝ))) Unit Unit Unit :=
  { agents := [(0, driven 0 40 15), (1, driven 1 25 14), (2, driven 2 0 15)], time := 0, rtree := [], removeAgents := false, mapBox := none, observer := () }

theorem queueWorld_wf : Props.WellFormed queueWorld := by
  refine ⟨by simp [OMap.Sorted, queueWorld], ?_, by simp [queueWorld]⟩
  intro id a h
  have hm := OMap.find_some_mem h
  simp only [queueWorld, List.mem_cons, List.not_mem_nil, or_false, Prod.mk.injEq] at hm
  rcases hm with ⟨rfl, rfl⟩ | ⟨rfl, rfl⟩ | ⟨rfl, rfl⟩ <;> simp [driven]

theorem queue_pairs {j i : Nat} (h : [j, i] <:+: [0, 1, 2]) : (j = 0 ∧ i = 1) ∨ (j = 1 ∧ i = 2) := by
  rcases List.infix_cons_iff.1 h with h | h
  · simp [List.cons_prefix_cons] at h; omega
  · rcases List.infix_cons_iff.1 h with h | h
    · simp [List.cons_prefix_cons] at h; omega
    · have := h.length_le
      simp at this

/-- the hypotheses of C200 are met: for any number of steps of 0.2 s they stay apart -/
example (n : Nat) : ∃ w', ∃ x' : Nat → ℝ × ℝ × ℝ, run (drivePlug (fun _ _ => true) queueTraj) queueWorld (Spec.steps (List.replicate n 0.2)) = .ok w' ∧
    (∀ i, i < 3 → ∃ a', w'.getAgent i = some a' ∧ a'.currentState = .ok (x' i)) ∧
    (x' 1).2.1 + 5 < (x' 0).2.1 ∧ (x' 2).2.1 + 5 < (x' 1).2.1 := by
  obtain ⟨w', h, ht⟩ := C180_clock (drivePlug (fun _ _ => true) queueTraj) queueWorld_wf (List.replicate n 0.2)
  obtain ⟨x', r1, -, r3⟩ := C200_platoon (drivePlug_drives (fun _ _ => true) queueTraj) (front := 0) (others := [1, 2]) (len := fun _ => 5)
    (la := fun _ _ => 0) (fun _ _ _ _ _ => rfl) (fun _ _ _ => rfl)
    (by
      intro j i hij obs dt x y b hb hs
      unfold queueTraj
      rcases queue_pairs hij with ⟨rfl, rfl⟩ | ⟨rfl, rfl⟩
      · rw [if_neg (by decide), hb]; dsimp only; rw [hs]
      · rw [if_neg (by decide), hb]; dsimp only; rw [hs])
    (by
      intro obs dt y hdt hot
      refine ⟨[y, (y.1 + dt, y.2.1 + brakingWay y.2.2 dt, max (y.2.2 - 5 * dt) 0)], (y.1 + dt, y.2.1 + brakingWay y.2.2 dt, max (y.2.2 - 5 * dt) 0), ?_, rfl, rfl,
        rfl, le_max_right _ _, le_max_left _ _, le_refl _⟩
      unfold queueTraj
      rw [if_pos rfl])
    queueWorld_wf rfl (List.replicate n 0.2) (by intro d hd; rw [List.eq_of_mem_replicate hd]; norm_num) h
    (x := fun i => if i = 0 then (0, 40, 15) else if i = 1 then (0, 25, 14) else (0, 0, 15))
    (by
      intro i hi
      simp only [List.mem_cons, List.not_mem_nil, or_false] at hi
      rcases hi with rfl | rfl | rfl
      · exact ⟨driven 0 40 15, rfl, ⟨le_refl _, ⟨_, rfl⟩, ⟨_, rfl, rfl⟩, rfl⟩, rfl, by norm_num⟩
      · exact ⟨driven 1 25 14, rfl, ⟨le_refl _, ⟨_, rfl⟩, ⟨_, rfl, rfl⟩, rfl⟩, rfl, by norm_num⟩
      · exact ⟨driven 2 0 15, rfl, ⟨le_refl _, ⟨_, rfl⟩, ⟨_, rfl, rfl⟩, rfl⟩, rfl, by norm_num⟩)
    (by
      intro i hi
      simp only [List.mem_cons, List.not_mem_nil, or_false] at hi
      rcases hi with rfl | rfl <;> norm_num)
    (by
      intro j i hij
      rcases queue_pairs hij with ⟨rfl, rfl⟩ | ⟨rfl, rfl⟩ <;> unfold Clear <;> norm_num)
  refine ⟨w', x', h, fun i hi => ?_, ?_, ?_⟩
  · obtain ⟨a', e1, e2, -⟩ := r1 i (by simp; omega)
    exact ⟨a', e1, e2⟩
  · have := (r3 0 1 ⟨[], [2], rfl⟩).1; linarith
  · have := (r3 1 2 ⟨[0], [], rfl⟩).1; linarith

end Bark.Loop
