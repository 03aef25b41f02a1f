import Verif.Props.TrafficFront
import Mathlib.Data.Set.Card

/-!
C205: everybody in the traffic makes its way.
-/
set_option linter.unusedSectionVars false
namespace Bark.Flow
open Bark Bark.Ln Bark.Ln.Spec Bark.Fren Bark.Flow.Spec Bark.Angle

variable {Box Lane : Type}

/-- the rounds of a plan, when the acceleration is at least `A` as long as the distance is at least `R` -/
theorem loop_far {p : Idm.Params} {r : Idm.Rel} {start h v0 A R e : ℝ} (hh : 0 ≤ h) (hmm : p.minVel ≤ p.maxVel) (hmin : 0 ≤ p.minVel)
    (hacc : ∀ rel a, R ≤ rel → Idm.totalAcc p r v0 rel = .ok (.fin a) → A ≤ a ∧ a ≤ 2 ∧ rel - e ≤ Idm.nextDist r v0 rel a h) (hA : A ≤ 2) :
    ∀ (n i : Nat) (s v rel : ℝ) (l : List (ℝ × Idm.Row)), Idm.genLoop p r start h v0 n i s v rel = .ok l → p.minVel ≤ v →
      v + n * (2 * h) ≤ p.maxVel → R + n * e ≤ rel → 0 ≤ e →
      s + v * (n * h) + 1 / 2 * A * (n * h) ^ 2 ≤ (Loop.reached l s v).1 ∧ v + A * (n * h) ≤ (Loop.reached l s v).2
  | 0, i, s, v, rel, l, hl, _, _, _, _ => by
    simp only [Idm.genLoop, Except.ok.injEq] at hl
    subst hl
    simp [Loop.reached]
  | n + 1, i, s, v, rel, l, hl, hv, hm, hR, he => by
    obtain ⟨a, l', ha, hl', hr⟩ := Loop.genLoop_cons hl
    have hne : (0 : ℝ) ≤ n * e := by positivity
    have hnh : (0 : ℝ) ≤ n * (2 * h) := by positivity
    have hn : (0 : ℝ) ≤ n * h := by positivity
    push_cast at hm hR ⊢
    obtain ⟨a1, a2, a3⟩ := hacc rel a (by linarith) ha
    have b1 : A * h ≤ a * h := mul_le_mul_of_nonneg_right a1 hh
    have b2 : a * h ≤ 2 * h := mul_le_mul_of_nonneg_right a2 hh
    have b3 : A * h * h ≤ a * h * h := mul_le_mul_of_nonneg_right b1 hh
    have hv' : v + A * h ≤ max (min (v + a * h) p.maxVel) p.minVel :=
      le_trans (le_min (by linarith) (by linarith)) (le_max_left _ _)
    have hv'' : max (min (v + a * h) p.maxVel) p.minVel ≤ v + 2 * h :=
      max_le ((min_le_left _ _).trans (by linarith)) (by linarith)
    obtain ⟨i1, i2⟩ := loop_far hh hmm hmin hacc hA n (i + 1) _ _ _ l' hl' (le_max_right _ _) (by linarith) (by linarith) he
    rw [hr]
    have := mul_le_mul_of_nonneg_right hv' hn
    constructor
    · refine le_trans ?_ i1
      nlinarith
    · linarith

/-- far behind someone the IDM accelerates almost freely -/
theorem far_value {v w rel g : ℝ} (h0 : 0 ≤ v) (h15 : v ≤ 15) (w0 : 0 ≤ w) (w15 : w ≤ 15) (hrel : 296 ≤ rel)
    (hg : ∃ c : ℝ, 0.296 ≤ c ∧ c ≤ 0.297 ∧ g = 2 + v * 1.5 + c * (v * (v - w))) : (g / rel) ^ 2 ≤ 0.1 := by
  obtain ⟨c, c1, c2, rfl⟩ := hg
  have e1 : v * (v - w) ≤ 225 := by nlinarith
  have e2 : -225 ≤ v * (v - w) := by nlinarith
  have u1 : c * (v * (v - w)) ≤ 67 := by nlinarith
  have u2 : -67 ≤ c * (v * (v - w)) := by nlinarith
  have a1 : 2 + v * 1.5 + c * (v * (v - w)) ≤ 93 := by linarith
  have a2 : -93 ≤ 2 + v * 1.5 + c * (v * (v - w)) := by linarith
  have hp : 0 < rel := by linarith
  rw [div_pow, div_le_iff₀ (by positivity)]
  nlinarith

/-- acceleration far behind the vehicle ahead, or without one -/
theorem far_acc {r : Idm.Rel} {v : ℝ} (h0 : 0 ≤ v) (h15 : v ≤ 15) (hr : r.hasLeader = true → 0 ≤ r.velocity ∧ r.velocity ≤ 15) {rel a : ℝ}
    (hrel : r.hasLeader = true → 296 ≤ rel) (h : Idm.totalAcc Loop.dflt r v rel = .ok (.fin a)) : 1.7 * (0.9 - (v / 15) ^ 4) ≤ a := by
  have hq : 0 ≤ (v / 15) ^ 4 := by positivity
  have hq1 : (v / 15) ^ 4 ≤ 1 := pow_le_one₀ (by positivity) (by linarith)
  cases hl : r.hasLeader with
  | true =>
    have e := Idm.C23_value Loop.dflt_sane rfl hl v rel
    rw [Idm.Spec.Returns, h, if_pos (by linarith [hrel hl])] at e
    simp only [Except.ok.injEq, Num.fin.injEq] at e
    have f := far_value h0 h15 (hr hl).1 (hr hl).2 (hrel hl) (Loop.dflt_gap v r.velocity)
    rw [e]
    refine le_trans (le_min ?_ ?_) (le_max_left _ _)
    · unfold Idm.Spec.textbook
      have : (Loop.dflt.maxAcc, Loop.dflt.desiredVel, Loop.dflt.exponent) = ((1.7 : ℝ), (15 : ℝ), 4) := rfl
      simp only [Prod.mk.injEq] at this
      rw [this.1, this.2.1, this.2.2]
      linarith
    · have : Loop.dflt.accUpper = 8 := rfl
      rw [this]
      linarith
  | false =>
    have e := Idm.free_value Loop.dflt_sane hl v rel
    rw [Idm.Spec.Returns, h] at e
    simp only [Except.ok.injEq, Num.fin.injEq] at e
    rw [e]
    have k : (Loop.dflt.maxAcc, Loop.dflt.desiredVel, Loop.dflt.exponent, Loop.dflt.accUpper) = ((1.7 : ℝ), (15 : ℝ), 4, (8 : ℝ)) := rfl
    simp only [Prod.mk.injEq] at k
    rw [k.1, k.2.1, k.2.2.1, k.2.2.2]
    exact le_trans (le_min (by linarith) (by linarith)) (le_max_left _ _)

/-- a plan far behind the vehicle ahead, or without one -/
theorem far_plan {r : Idm.Rel} {T : ℝ} (hT : 0 ≤ T) (hT1 : T ≤ 1 / 5) {y : ℝ × ℝ × ℝ} (h0 : 0 ≤ y.2.2) (h15 : y.2.2 ≤ 15)
    (hr : r.hasLeader = true → 0 ≤ r.velocity ∧ r.velocity ≤ 15 ∧ 300 ≤ r.distance) {tr z} (e1 : Loop.planIdm Loop.dflt r y.1 T y = .ok tr)
    (e3 : tr.getLast? = some z) :
    y.2.1 + y.2.2 * T + 1 / 2 * (1.7 * (0.9 - (y.2.2 / 15) ^ 4)) * T ^ 2 ≤ z.2.1 ∧ y.2.2 + 1.7 * (0.9 - (y.2.2 / 15) ^ 4) * T ≤ z.2.2 := by
  obtain ⟨l, q, hg, hq, hz, -⟩ := plan_rows hT hT1 h0 h15 e1 e3
  have hst : Idm.stepSize Loop.dflt T = T / 10 := by unfold Idm.stepSize; norm_num [Loop.dflt]
  rw [hst] at hg
  unfold Idm.generate at hg
  have hn10 : Loop.dflt.numPoints - 1 = 10 := rfl
  rw [hn10] at hg
  have hdt : 0 ≤ T / 10 := by linarith
  have hqv : 0 ≤ (y.2.2 / 15) ^ 4 := by positivity
  have hreach : Loop.reached l y.2.1 y.2.2 = (z.2.1, z.2.2) := by
    unfold Loop.reached
    rw [hq, hz]
  have main := loop_far (A := 1.7 * (0.9 - (y.2.2 / 15) ^ 4)) (R := r.distance - 4) (e := 0.4) hdt (by norm_num [Loop.dflt]) (by norm_num [Loop.dflt]) (r := r)
    (p := Loop.dflt) (v0 := y.2.2) (start := y.1) (by
      intro rel a hR ha
      refine ⟨far_acc h0 h15 (fun hl => ⟨(hr hl).1, (hr hl).2.1⟩) (fun hl => by linarith [(hr hl).2.2]) ha, ?_, ?_⟩
      · linarith [(acc_range r h0 ha).2]
      · have ha2 := (acc_range r h0 ha).2
        unfold Idm.nextDist
        split
        · rename_i hl
          have w0 := (hr hl).1
          have k1 : 0 ≤ r.velocity * (T / 10) := mul_nonneg w0 hdt
          have k2 : y.2.2 * (T / 10) ≤ 15 * (T / 10) := mul_le_mul_of_nonneg_right h15 hdt
          have k3 : a * (T / 10) * (T / 10) ≤ 1.7 * (T / 10) * (T / 10) :=
            mul_le_mul_of_nonneg_right (mul_le_mul_of_nonneg_right ha2 hdt) hdt
          have k4 : 1.7 * (T / 10) * (T / 10) ≤ 1.7 * (1 / 50) * (1 / 50) := by
            have : T / 10 ≤ 1 / 50 := by linarith
            nlinarith
          linarith
        · linarith) (by linarith) 10 1 y.2.1 y.2.2 r.distance l hg (by norm_num [Loop.dflt]; exact h0)
    (by norm_num [Loop.dflt]; linarith) (by norm_num) (by norm_num)
  rw [hreach] at main
  have e10 : ((10 : ℕ) : ℝ) * (T / 10) = T := by push_cast; ring
  rw [e10] at main
  exact main

/-- one step of a vehicle with room ahead -/
theorem far_step {u : Setup Box Lane} {lane : Lane} {L : ℝ} {At : ℝ → Pt → ℝ → Prop} (hu : Setting u lane L At) {τ dt : ℝ} (hdt : 0 < dt) (hdt5 : dt ≤ 1 / 5) (hτ : dt ≤ τ)
    {w w1 : W Box} {x : Nat → ℝ × ℝ} (hg : Good u L At τ w x) (h : World.step (plug u) dt w = .ok w1) {i ag} (hi : w.getAgent i = some ag)
    (hfar : ∀ k ak, w.getAgent k = some ak → k ≠ i → (x i).1 ≤ (x k).1 → 300 ≤ gap ag.shape ak.shape (x i).1 (x k).1) :
    ∃ a1 s v, w1.getAgent i = some a1 ∧ Rides At w1.time s v a1 ∧ (x i).1 - dt / 20 ≤ s ∧ s ≤ (x i).1 + 16 * dt ∧
      (x i).1 + (x i).2 * dt + 1 / 2 * (1.7 * (0.9 - ((x i).2 / 15) ^ 4)) * dt ^ 2 ≤ s ∧ (x i).2 + 1.7 * (0.9 - ((x i).2 / 15) ^ 4) * dt ≤ v := by
  obtain ⟨hr, h0, h15, hs, hL⟩ := hg.rides i ag hi
  obtain ⟨o, index, -, f1, -, -⟩ := step_fresh (plug u) hg.wf h hi
  rw [rtreeOf_same] at f1
  have hin : ∀ j aj, w.getAgent j = some aj → Rides At w.time (x j).1 (x j).2 aj ∧ 0 ≤ (x j).1 ∧ (x j).1 ≤ L := by
    intro j aj hj
    obtain ⟨k1, -, -, k2, k3⟩ := hg.rides j aj hj
    exact ⟨k1, by linarith, by linarith⟩
  obtain ⟨r, hrel, hcase⟩ := reacts hu (w := { w with rtree := index }) hg.wf f1 hg.many (x := x) hin hg.clear hi 0 hr.action
  have hlead : r.hasLeader = true → 0 ≤ r.velocity ∧ r.velocity ≤ 15 ∧ 300 ≤ r.distance := by
    intro hl
    rcases hcase with ⟨hn, -⟩ | ⟨k, ak, hk, hne, hle, -, hd, hv, -⟩
    · rw [hn] at hl; cases hl
    · have := hg.rides k ak hk
      rw [hd, hv]
      exact ⟨this.2.1, this.2.2.1, hfar k ak hk hne hle⟩
  obtain ⟨tr, z, t1, t2, t3, -, -⟩ := free_plan (r := r) hdt.le hdt5 (w.time, (x i).1, (x i).2) h0 h15
  obtain ⟨-, -, -, -, -, -, -, p3, p4⟩ := plan_rows (y := (w.time, (x i).1, (x i).2)) hdt.le hdt5 h0 h15 t1 t2
  obtain ⟨p5, p6⟩ := far_plan (y := (w.time, (x i).1, (x i).2)) hdt.le hdt5 h0 h15 hlead t1 t2
  obtain ⟨a1, g1, -, g2⟩ := agent_step hu hg.wf hg.off hdt hdt5 h hi hr h0 h15 (by linarith) (by linarith)
    (fun len index' hidx => by
      rw [f1] at hidx; cases hidx
      rw [observed_len hu.brake len 0]
      exact hrel) t1 t2 t3
  exact ⟨a1, z.2.1, z.2.2, g1, g2, p3, p4, p5, p6⟩

/-- position and velocity together grow by 13.4 m/s -/
theorem far_gain {v A dt s s' v' : ℝ} (h0 : 0 ≤ v) (h15 : v ≤ 15) (hdt : 0 < dt) (hdt5 : dt ≤ 1 / 5) (hA : A = 1.7 * (0.9 - (v / 15) ^ 4))
    (h1 : s + v * dt + 1 / 2 * A * dt ^ 2 ≤ s') (h2 : v + A * dt ≤ v') : s + 15 / 1.7 * v + 13.4 * dt ≤ s' + 15 / 1.7 * v' := by
  have hu0 : 0 ≤ v / 15 := by positivity
  have hu1 : v / 15 ≤ 1 := by linarith
  set q := v / 15 with hq
  have hv : v = 15 * q := by rw [hq]; ring
  have p2 : q ^ 2 ≤ q := by nlinarith
  have p4 : q ^ 4 ≤ q := by nlinarith [sq_nonneg q]
  have a0 : -0.17 ≤ A := by rw [hA]; nlinarith
  have a1 : 1.7 * (0.9 - q) ≤ A := by rw [hA]; nlinarith
  have b1 : 1.7 * (0.9 - q) * dt ≤ A * dt := mul_le_mul_of_nonneg_right a1 hdt.le
  have b2 : -0.17 * dt ^ 2 ≤ A * dt ^ 2 := mul_le_mul_of_nonneg_right a0 (by positivity)
  have b3 : dt ^ 2 ≤ 1 / 5 * dt := by nlinarith
  have b4 : 15 / 1.7 * (v + A * dt) ≤ 15 / 1.7 * v' := mul_le_mul_of_nonneg_left h2 (by norm_num)
  have b5 : 15 / 1.7 * (1.7 * (0.9 - q) * dt) ≤ 15 / 1.7 * (A * dt) := mul_le_mul_of_nonneg_left b1 (by norm_num)
  have b6 : 15 / 1.7 * (1.7 * (0.9 - q) * dt) = 13.5 * dt - v * dt := by rw [hv]; ring
  linarith

/-- what is known of everybody: those behind are allowed to be `M` later than those ahead -/
structure Flows (M t : ℝ) (f : Nat → ℝ) (w : W Box) (x : Nat → ℝ × ℝ) : Prop where
  behind : ∀ i j ai aj, w.getAgent i = some ai → w.getAgent j = some aj → i ≠ j → (x i).1 ≤ (x j).1 → f i + M ≤ f j
  gone : ∀ i ai, w.getAgent i = some ai → f i + 13.4 * t ≤ (x i).1 + 15 / 1.7 * (x i).2

/-- front and rear extents of two vehicles together are at most `ℓ` -/
def Extent (ℓ : ℝ) (w : W Box) : Prop :=
  ∀ i j ai aj, w.getAgent i = some ai → w.getAgent j = some aj → i ≠ j → ai.shape.front + aj.shape.rear ≤ ℓ

/-- one step of everybody -/
theorem flow_step {u : Setup Box Lane} {lane : Lane} {L : ℝ} {At : ℝ → Pt → ℝ → Prop} (hu : Setting u lane L At) {τ dt t ℓ : ℝ} (hdt : 0 < dt) (hdt5 : dt ≤ 1 / 5) (hτ : 0 ≤ τ)
    {f : Nat → ℝ} {w w1 : W Box} {x : Nat → ℝ × ℝ} (hg : Good u L At (dt + τ) w x) (hℓ : Extent ℓ w) (hf : Flows (436 + ℓ) t f w x) (h : World.step (plug u) dt w = .ok w1) :
    ∃ x1 : Nat → ℝ × ℝ, Good u L At τ w1 x1 ∧ Extent ℓ w1 ∧ Flows (436 + ℓ) (t + dt) f w1 x1 ∧ (∀ i, w1.getAgent i = none ↔ w.getAgent i = none) ∧
      ∀ i ag, w.getAgent i = some ag → ∃ a1, w1.getAgent i = some a1 ∧ a1.shape = ag.shape ∧ (x1 i).1 ≤ (x i).1 + 16 * dt := by
  obtain ⟨x1, g1, n1, s1, o1⟩ := good_step hu hg hdt hdt5 hτ h
  have old : ∀ {i a1}, w1.getAgent i = some a1 → ∃ ag, w.getAgent i = some ag ∧ a1.shape = ag.shape := by
    intro i a1 hi
    obtain ⟨ag, ha⟩ := Option.ne_none_iff_exists'.1 (show w.getAgent i ≠ none from fun e => by rw [(n1 i).2 e] at hi; cases hi)
    exact ⟨ag, ha, s1 i ag a1 ha hi⟩
  refine ⟨x1, g1, ?_, ⟨?_, ?_⟩, n1, ?_⟩
  · intro i j ai aj hi hj hne
    obtain ⟨bi, hbi, ei⟩ := old hi
    obtain ⟨bj, hbj, ej⟩ := old hj
    rw [ei, ej]
    exact hℓ i j bi bj hbi hbj hne
  · intro i j ai aj hi hj hne hle
    obtain ⟨bi, hbi, -⟩ := old hi
    obtain ⟨bj, hbj, -⟩ := old hj
    rcases le_total (x i).1 (x j).1 with hl | hl
    · exact hf.behind i j bi bj hbi hbj hne hl
    · exfalso
      have h1 := o1 j i bj bi hbj hbi hne.symm hl
      have hc := (g1.clear i j ai aj hi hj hne hle).1
      have h2 := (g1.rides i ai hi).1.shape.front
      have h3 := (g1.rides j aj hj).1.shape.rear
      unfold gap at hc
      linarith
  · intro i a1 hi1
    obtain ⟨ag, hi, -⟩ := old hi1
    obtain ⟨hr, hv0, hv15, hs, hL⟩ := hg.rides i ag hi
    obtain ⟨r1, rv0, rv15, rs, rL⟩ := g1.rides i a1 hi1
    have hgi := hf.gone i ag hi
    by_cases hfar : ∀ k ak, w.getAgent k = some ak → k ≠ i → (x i).1 ≤ (x k).1 → 300 ≤ gap ag.shape ak.shape (x i).1 (x k).1
    · obtain ⟨a1', s, v, e1, e2, e3, e4, e5, e6⟩ := far_step hu hdt hdt5 (by linarith) hg h hi hfar
      rw [hi1] at e1
      cases e1
      obtain ⟨k1, k2⟩ := rides_unique hu r1 e2 (by linarith) (by linarith) (by linarith) (by linarith)
      have := far_gain hv0 hv15 hdt hdt5 rfl e5 e6
      rw [k1, k2]
      linarith
    · push Not at hfar
      obtain ⟨k, ak, hk, hne, hle, hd⟩ := hfar
      obtain ⟨z, hz⟩ := good_agent hu hg hdt hdt5 (by linarith) h i
      obtain ⟨⟨a1', e1, -, e2⟩, -, -, -, e3, e4, -⟩ := hz ag hi
      rw [hi1] at e1
      cases e1
      obtain ⟨k1, -⟩ := rides_unique hu r1 e2 (by linarith) (by linarith) (by linarith) (by linarith)
      have c1 := hℓ i k ag ak hi hk hne.symm
      have c2 := hf.behind i k ag ak hi hk hne.symm hle
      have c3 := hf.gone k ak hk
      have c4 := (hg.rides k ak hk).2.2.1
      have c5 : 0 ≤ 15 / 1.7 * (x1 i).2 := by positivity
      have c6 : 15 / 1.7 * (x k).2 ≤ 15 / 1.7 * 15 := mul_le_mul_of_nonneg_left c4 (by norm_num)
      unfold gap at hd
      norm_num at c6 c3 c5 ⊢
      linarith
  · intro i ag hi
    obtain ⟨-, -, -, hs, hL⟩ := hg.rides i ag hi
    obtain ⟨z, hz⟩ := good_agent hu hg hdt hdt5 (by linarith) h i
    obtain ⟨⟨a1, e1, e5, e2⟩, -, -, -, e3, e4, -⟩ := hz ag hi
    obtain ⟨r1, -, -, rs, rL⟩ := g1.rides i a1 e1
    obtain ⟨k1, -⟩ := rides_unique hu r1 e2 (by linarith) (by linarith) (by linarith) (by linarith)
    exact ⟨a1, e1, e5, by linarith⟩

theorem flow_run {u : Setup Box Lane} {lane : Lane} {L : ℝ} {At : ℝ → Pt → ℝ → Prop} (hu : Setting u lane L At) {ℓ : ℝ} {f : Nat → ℝ} (dts : List ℝ)
    (hpos : ∀ d ∈ dts, 0 < d ∧ d ≤ 1 / 5) :
    ∀ {w : W Box} {x : Nat → ℝ × ℝ} {t : ℝ}, Good u L At dts.sum w x → Extent ℓ w → Flows (436 + ℓ) t f w x →
      ∃ (w' : W Box) (x' : Nat → ℝ × ℝ), World.run (plug u) w (Loop.Spec.steps dts) = .ok w' ∧ Good u L At 0 w' x' ∧ Flows (436 + ℓ) (t + dts.sum) f w' x' ∧
        ∀ i, w'.getAgent i = none ↔ w.getAgent i = none := by
  induction dts with
  | nil =>
    intro w x t hg _ hf
    exact ⟨w, x, rfl, by simpa using hg, by simpa using hf, fun i => Iff.rfl⟩
  | cons dt dts ih =>
    intro w x t hg hℓ hf
    obtain ⟨w1, h1, hw1⟩ := Props.apply_wf (plug u) hg.wf (World.Op.step dt) trivial
    have h1s : World.step (plug u) dt w = .ok w1 := h1
    obtain ⟨hdt, hdt5⟩ := hpos dt (by simp)
    have hsum : 0 ≤ dts.sum := List.sum_nonneg fun d hd => (hpos d (by simp [hd])).1.le
    rw [List.sum_cons] at hg
    obtain ⟨x1, g1, e1, f1, n1, -⟩ := flow_step hu hdt hdt5 hsum hg hℓ hf h1s
    obtain ⟨w', x', r, gg, ff, nn⟩ := ih (fun d hd => hpos d (by simp [hd])) g1 e1 f1
    refine ⟨w', x', ?_, gg, ?_, fun i => (nn i).trans (n1 i)⟩
    · unfold Loop.Spec.steps
      rw [List.map_cons]
      unfold World.run
      rw [h1, Res.ok_bind]
      exact r
    · rw [List.sum_cons, ← add_assoc]
      exact ff

/-- fewer vehicles are ahead of a vehicle ahead -/
theorem ahead_lt {w : W Box} {x : Nat → ℝ × ℝ} {i j : Nat} {aj} (hj : w.getAgent j = some aj) (h : (x i).1 < (x j).1) : Spec.ahead w x j < Spec.ahead w x i := by
  unfold Spec.ahead
  apply Set.ncard_lt_ncard
  · refine ⟨?_, ?_⟩
    · rintro k ⟨ak, hk, hlt⟩
      exact ⟨ak, hk, h.trans hlt⟩
    · intro hsub
      obtain ⟨-, -, hlt⟩ := hsub (show j ∈ {k | ∃ ak, w.getAgent k = some ak ∧ (x i).1 < (x k).1} from ⟨aj, hj, h⟩)
      exact lt_irrefl _ hlt
  · refine (List.finite_toSet (OMap.keys w.agents)).subset ?_
    rintro k ⟨ak, hk, -⟩
    exact List.mem_map.2 ⟨_, OMap.find_some_mem hk, rfl⟩

/-- at the beginning -/
theorem flow_start {At : ℝ → Pt → ℝ → Prop} {w : W Box} {x : Nat → ℝ × ℝ} (hride : ∀ i ag, w.getAgent i = some ag → Rides At w.time (x i).1 (x i).2 ag ∧ 0 ≤ (x i).2)
    (hclear : AllClear w x) {ℓ : ℝ} (hℓ0 : 0 ≤ ℓ) : Flows (436 + ℓ) 0 (fun i => (x i).1 - Spec.ahead w x i * (436 + ℓ)) w x := by
  constructor
  · intro i j ai aj hi hj hne hle
    have hc := (hclear i j ai aj hi hj hne hle).1
    have h2 := (hride i ai hi).1.shape.front
    have h3 := (hride j aj hj).1.shape.rear
    unfold gap at hc
    have hlt : (Spec.ahead w x j : ℝ) + 1 ≤ Spec.ahead w x i := by exact_mod_cast ahead_lt hj (by linarith : (x i).1 < (x j).1)
    have := mul_le_mul_of_nonneg_right hlt (by linarith : 0 ≤ 436 + ℓ)
    linarith
  · intro i ai hi
    have h1 : 0 ≤ (Spec.ahead w x i : ℝ) * (436 + ℓ) := mul_nonneg (by positivity) (by linarith)
    have h2 : 0 ≤ 15 / 1.7 * (x i).2 := mul_nonneg (by norm_num) (hride i ai hi).2
    linarith

/-- C205: on a lane as in C202 everybody makes its way: a vehicle with `n` vehicles ahead keeps up an average of 13.4 m/s, up to 133 m for the start and, for each
vehicle ahead, 436 m and the extents of two vehicles -/
theorem C205_everybody {u : Setup Box Lane} {lane : Lane} {pts : List Pt} (hu : Winding u lane pts) {w : W Box} (hw : Props.WellFormed w) (hoff : w.removeAgents = false)
    (hmany : w.agents.length ≤ u.maxAgents + 1) (dts : List ℝ) (hpos : ∀ d ∈ dts, 0 < d ∧ d ≤ 1 / 5) {x : Nat → ℝ × ℝ}
    (hride : ∀ i ag, w.getAgent i = some ag → Rides (alongAt pts) w.time (x i).1 (x i).2 ag ∧ 0 ≤ (x i).2 ∧ (x i).2 ≤ 15 ∧
      dts.sum / 20 ≤ (x i).1 ∧ (x i).1 + 16 * dts.sum ≤ Ln.length pts)
    (hclear : AllClear w x) {ℓ : ℝ} (hℓ0 : 0 ≤ ℓ)
    (hℓ : ∀ i j ai aj, w.getAgent i = some ai → w.getAgent j = some aj → i ≠ j → ai.shape.front + aj.shape.rear ≤ ℓ) :
    ∃ w', World.run (plug u) w (Loop.Spec.steps dts) = .ok w' ∧ (∀ i, w'.getAgent i = none ↔ w.getAgent i = none) ∧
      ∀ i a', w'.getAgent i = some a' → ∃ s v, Rides (alongAt pts) w'.time s v a' ∧ 0 ≤ v ∧ v ≤ 15 ∧
        (x i).1 + 13.4 * dts.sum - 133 - Spec.ahead w x i * (436 + ℓ) ≤ s := by
  obtain ⟨w', x', r, gg, ff, nn⟩ := flow_run (setting_winding hu) dts hpos ⟨hw, hoff, hmany, hride, hclear⟩ hℓ (flow_start (fun i ag hi => ⟨(hride i ag hi).1, (hride i ag hi).2.1⟩) hclear hℓ0)
  refine ⟨w', r, nn, fun i a' hi => ?_⟩
  obtain ⟨k1, k2, k3, -⟩ := gg.rides i a' hi
  refine ⟨(x' i).1, (x' i).2, k1, k2, k3, ?_⟩
  have h1 := ff.gone i a' hi
  have h2 : 15 / 1.7 * (x' i).2 ≤ 15 / 1.7 * 15 := mul_le_mul_of_nonneg_left k3 (by norm_num)
  norm_num at h1 h2 ⊢
  linarith

/-- the hypotheses are met: the one behind at the corner of `corner` is round the corner, at 1170 m or more, after a minute -/
example : ∃ w' a' s v, World.run (plug bentRoad) corner (Loop.Spec.steps (List.replicate 300 (1 / 5))) = .ok w' ∧ w'.getAgent 1 = some a' ∧
    Rides (alongAt bend) w'.time s v a' ∧ 1170 ≤ s := by
  have hsum : (List.replicate 300 (1 / 5 : ℝ)).sum = 60 := by rw [List.sum_replicate]; norm_num
  have hpos : ∀ d ∈ List.replicate 300 (1 / 5 : ℝ), 0 < d ∧ d ≤ 1 / 5 := by intro d hd; rw [List.eq_of_mem_replicate hd]; norm_num
  have hr := corner_ride (T := (List.replicate 300 (1 / 5 : ℝ)).sum) (by rw [hsum]; norm_num) (by rw [hsum])
  obtain ⟨w', h1, h2, h3⟩ := C205_everybody bent_winding corner_wf rfl (by decide) _ hpos hr corner_clear (ℓ := 10) (by norm_num) (by
    intro i j ai aj hi hj _
    rcases corner_get hi with ⟨rfl, rfl⟩ | ⟨rfl, rfl⟩ <;> rcases corner_get hj with ⟨rfl, rfl⟩ | ⟨rfl, rfl⟩ <;> norm_num [turned, mover, block])
  obtain ⟨a', ha⟩ := Option.ne_none_iff_exists'.1 (show w'.getAgent 1 ≠ none from fun e => by have := (h2 1).1 e; cases this)
  obtain ⟨s, v, g1, -, -, g2⟩ := h3 1 a' ha
  have hone : Spec.ahead corner cornerAt 1 = 1 := by
    unfold Spec.ahead
    rw [Set.ncard_eq_one]
    refine ⟨0, Set.ext fun k => ⟨?_, ?_⟩⟩
    · rintro ⟨ak, hk, hlt⟩
      rcases corner_get hk with ⟨rfl, rfl⟩ | ⟨rfl, rfl⟩
      · rfl
      · exact absurd hlt (lt_irrefl _)
    · rintro rfl
      exact ⟨turned, rfl, by norm_num [cornerAt]⟩
  refine ⟨w', a', s, v, h1, ha, g1, ?_⟩
  rw [hsum, hone] at g2
  norm_num [cornerAt] at g2
  linarith

end Bark.Flow
