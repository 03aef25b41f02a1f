import Verif.Props.TrafficRun

/-!
C203: the vehicle at the front of the traffic makes its way. Also a lane with a corner for C202.
-/
set_option linter.unusedSectionVars false
namespace Bark.Flow
open Bark Bark.Ln Bark.Ln.Spec Bark.Fren Bark.Flow.Spec Bark.Angle

variable {Box Lane : Type}

/-- the state says where on the lane a vehicle is -/
theorem rides_unique {u : Setup Box Lane} {lane : Lane} {L : ℝ} {At : ℝ → Pt → ℝ → Prop} (hu : Setting u lane L At) {t s v s' v' : ℝ} {ag}
    (h : Rides At t s v ag) (h' : Rides At t s' v' ag) (h0 : 0 ≤ s) (h1 : s ≤ L) (h0' : 0 ≤ s') (h1' : s' ≤ L) : s = s' ∧ v = v' := by
  obtain ⟨p, θ, a, e⟩ := h.state
  obtain ⟨p', θ', a', e'⟩ := h'.state
  rw [e] at e'
  simp only [Except.ok.injEq, Prod.mk.injEq] at e'
  obtain ⟨-, e1, e2, -, e3⟩ := e'
  have hp : p = p' := Prod.ext e1 e2
  subst hp
  have k := hu.foot s p θ h0 h1 a
  rw [hu.foot s' p θ' h0' h1' a'] at k
  injection k with k
  exact ⟨k.symm, e3⟩

/-- no one is ahead -/
def First (w : W Box) (x : Nat → ℝ × ℝ) (i : Nat) : Prop := ∀ j aj, w.getAgent j = some aj → j ≠ i → (x j).1 < (x i).1

/-- one step of free driving -/
theorem free_bounds {v A dt : ℝ} (h0 : 0 ≤ v) (h1 : v ≤ 15) (hdt : 0 < dt) (hdt5 : dt ≤ 1 / 5) (hA : A = 1.7 * (1 - (v / 15) ^ 4)) :
    0 ≤ A ∧ 1.7 / 15 * (15 - v) ≤ A ∧ v + A * dt ≤ 15 := by
  have hu0 : 0 ≤ v / 15 := by positivity
  have hu1 : v / 15 ≤ 1 := by linarith
  set q := v / 15 with hq
  have hv : v = 15 * q := by rw [hq]; ring
  have p2 : q ^ 2 ≤ q := by nlinarith
  have p4 : q ^ 4 ≤ q := by nlinarith [sq_nonneg q]
  have p4' : 1 - q ^ 4 ≤ 4 * (1 - q) := by nlinarith [sq_nonneg q, sq_nonneg (q - 1), sq_nonneg (q ^ 2 - 1)]
  have a1 : 0 ≤ A := by rw [hA]; nlinarith
  refine ⟨a1, by rw [hA, hv]; nlinarith, ?_⟩
  have : A * dt ≤ A * (1 / 5) := mul_le_mul_of_nonneg_left hdt5 a1
  rw [hv]
  rw [hA] at this ⊢
  nlinarith

/-- one step of the vehicle ahead of all others -/
theorem front_step {u : Setup Box Lane} {lane : Lane} {L : ℝ} {At : ℝ → Pt → ℝ → Prop} (hu : Setting u lane L At) {dt τ : ℝ} (hdt : 0 < dt) (hdt5 : dt ≤ 1 / 5) (hsum : 0 ≤ τ)
    {w w1 : W Box} {x : Nat → ℝ × ℝ} (hg : Good u L At (dt + τ) w x) {i ag} (hi : w.getAgent i = some ag) (hf : First w x i) (h1s : World.step (plug u) dt w = .ok w1) :
    ∃ (x1 : Nat → ℝ × ℝ) (a1 : _), w1.getAgent i = some a1 ∧ a1.shape = ag.shape ∧ Good u L At τ w1 x1 ∧ First w1 x1 i ∧
      (x i).2 ≤ (x1 i).2 ∧ 15 - (x1 i).2 ≤ (15 - (x i).2) * (1 - 1.7 / 15 * dt) ∧
      (x i).1 + 15 * dt - 15 / 1.7 * ((x1 i).2 - (x i).2) ≤ (x1 i).1 ∧ (x1 i).1 ≤ (x i).1 + 15 * dt := by
  obtain ⟨x1, g1, n1, s1, o1⟩ := good_step hu hg hdt hdt5 hsum h1s
  obtain ⟨hr, hv0, hv15, hs, hL⟩ := hg.rides i ag hi
  have hin : ∀ j aj, w.getAgent j = some aj → Rides At w.time (x j).1 (x j).2 aj ∧ 0 ≤ (x j).1 ∧ (x j).1 ≤ L := by
    intro j aj hj
    obtain ⟨k1, -, -, k2, k3⟩ := hg.rides j aj hj
    exact ⟨k1, by linarith, by linarith⟩
  obtain ⟨a1, ga, -, ra⟩ := unseen hu hg.wf hg.off hin hg.clear hi hv0 hv15 (fun _ _ _ _ j aj _ hj _ hne => hf j aj hj hne) hdt hdt5
    (by linarith) (by linarith) h1s
  obtain ⟨r1, rv0, rv15, rs, rL⟩ := g1.rides i a1 ga
  obtain ⟨A0, A1, A2⟩ := free_bounds hv0 hv15 hdt hdt5 rfl
  set A := 1.7 * (1 - ((x i).2 / 15) ^ 4) with hA
  have hv1 : (x1 i).2 = (x i).2 + A * dt ∧ (x1 i).1 = (x i).1 + (x i).2 * dt + 1 / 2 * A * dt ^ 2 := by
    have e1 : 0 ≤ (x i).2 * dt := mul_nonneg hv0 hdt.le
    have e2 : 0 ≤ 1 / 2 * A * dt ^ 2 := by positivity
    have e3 : (x i).2 * dt + 1 / 2 * A * dt ^ 2 ≤ 16 * dt := by nlinarith
    obtain ⟨k1, k2⟩ := rides_unique hu r1 ra (by linarith) (by linarith) (by linarith) (by linarith)
    exact ⟨k2, k1⟩
  have hf1 : First w1 x1 i := by
    intro j aj hj hne
    obtain ⟨aj0, hj0⟩ := Option.ne_none_iff_exists'.1 (show w.getAgent j ≠ none from fun e => by rw [(n1 j).2 e] at hj; cases hj)
    have hle := o1 j i aj0 ag hj0 hi hne (hf j aj0 hj0 hne).le
    have hc := (g1.clear j i aj a1 hj ga hne hle).1
    have h2 := (g1.rides j aj hj).1.shape.front
    have h3 := r1.shape.rear
    unfold gap at hc
    linarith
  refine ⟨x1, a1, ga, s1 i ag a1 hi ga, g1, hf1, ?_, ?_, ?_, ?_⟩
  · have : 0 ≤ A * dt := mul_nonneg A0 hdt.le
    linarith [hv1.1]
  · rw [hv1.1]
    have := mul_le_mul_of_nonneg_right A1 hdt.le
    linarith
  · have e1 := mul_le_mul_of_nonneg_right A1 hdt.le
    have e2 : 0 ≤ 1 / 2 * A * dt ^ 2 := by positivity
    have e3 : (15 - (x i).2) * dt ≤ 15 / 1.7 * ((x1 i).2 - (x i).2) := by
      rw [hv1.1]
      have : 15 / 1.7 * (1.7 / 15 * (15 - (x i).2) * dt) ≤ 15 / 1.7 * (A * dt) := mul_le_mul_of_nonneg_left e1 (by norm_num)
      norm_num at this ⊢
      linarith
    linarith [hv1.2]
  · have e1 : (x i).2 * dt + 1 / 2 * A * dt ^ 2 ≤ 15 * dt := by
      have : ((x i).2 + A * dt) * dt ≤ 15 * dt := mul_le_mul_of_nonneg_right A2 hdt.le
      have : 0 ≤ A * dt ^ 2 := by positivity
      nlinarith
    linarith [hv1.2]

theorem front_run {u : Setup Box Lane} {lane : Lane} {L : ℝ} {At : ℝ → Pt → ℝ → Prop} (hu : Setting u lane L At) (dts : List ℝ) (hpos : ∀ d ∈ dts, 0 < d ∧ d ≤ 1 / 5) :
    ∀ {w : W Box} {x : Nat → ℝ × ℝ}, Good u L At dts.sum w x → ∀ {i ag}, w.getAgent i = some ag → First w x i →
      ∃ (w' : W Box) (x' : Nat → ℝ × ℝ) (a' : _), World.run (plug u) w (Loop.Spec.steps dts) = .ok w' ∧ w'.getAgent i = some a' ∧ Good u L At 0 w' x' ∧
        (x i).2 ≤ (x' i).2 ∧ (15 - (x' i).2) * (1 + 1.7 / 15 * dts.sum) ≤ 15 - (x i).2 ∧
        (x i).1 + 15 * dts.sum - 15 / 1.7 * ((x' i).2 - (x i).2) ≤ (x' i).1 ∧ (x' i).1 ≤ (x i).1 + 15 * dts.sum := by
  induction dts with
  | nil =>
    intro w x hg i ag hi hf
    refine ⟨w, x, ag, rfl, hi, by simpa using hg, le_refl _, ?_, ?_, ?_⟩ <;> simp
  | cons dt dts ih =>
    intro w x hg i ag hi hf
    obtain ⟨w1, h1, hw1⟩ := Props.apply_wf (plug u) hg.wf (World.Op.step dt) trivial
    have h1s : World.step (plug u) dt w = .ok w1 := h1
    obtain ⟨hdt, hdt5⟩ := hpos dt (by simp)
    have hsum : 0 ≤ dts.sum := List.sum_nonneg fun d hd => (hpos d (by simp [hd])).1.le
    rw [List.sum_cons] at hg
    obtain ⟨x1, a1, ga, -, g1, hf1, b1, b2, b3, b4⟩ := front_step hu hdt hdt5 hsum hg hi hf h1s
    obtain ⟨-, -, hv15, -⟩ := hg.rides i ag hi
    obtain ⟨w', x', a', r, gi, gg, q1, q2, q3, q4⟩ := ih (fun d hd => hpos d (by simp [hd])) g1 ga hf1
    refine ⟨w', x', a', ?_, gi, gg, ?_, ?_, ?_, ?_⟩
    · unfold Loop.Spec.steps
      rw [List.map_cons]
      unfold World.run
      rw [h1, Res.ok_bind]
      exact r
    · linarith
    · rw [List.sum_cons]
      have e1 : 15 - (x' i).2 ≤ 15 - (x1 i).2 := by linarith
      have e3 : (15 - (x' i).2) * (1.7 / 15 * dt) ≤ (15 - (x1 i).2) * (1.7 / 15 * dt) := mul_le_mul_of_nonneg_right e1 (by positivity)
      have e4 : (15 - (x1 i).2) * (1 + 1.7 / 15 * dt) ≤ (15 - (x i).2) * (1 - 1.7 / 15 * dt) * (1 + 1.7 / 15 * dt) := mul_le_mul_of_nonneg_right b2 (by positivity)
      have e5 : 0 ≤ (15 - (x i).2) * (1.7 / 15 * dt) ^ 2 := mul_nonneg (by linarith) (by positivity)
      linarith
    · rw [List.sum_cons]
      linarith
    · rw [List.sum_cons]
      linarith

/-- C203: on a lane as in C202 the vehicle ahead of all others never slows down, approaches the desired velocity, and loses by its start no more than 15/1.7 m
per m/s it was slower than that: it passes every point of the lane in due time -/
theorem C203_front {u : Setup Box Lane} {lane : Lane} {pts : List Pt} (hu : Winding u lane pts) {w : W Box} (hw : Props.WellFormed w) (hoff : w.removeAgents = false)
    (hmany : w.agents.length ≤ u.maxAgents + 1) (dts : List ℝ) (hpos : ∀ d ∈ dts, 0 < d ∧ d ≤ 1 / 5) {x : Nat → ℝ × ℝ}
    (hride : ∀ i ag, w.getAgent i = some ag → Rides (alongAt pts) w.time (x i).1 (x i).2 ag ∧ 0 ≤ (x i).2 ∧ (x i).2 ≤ 15 ∧
      dts.sum / 20 ≤ (x i).1 ∧ (x i).1 + 16 * dts.sum ≤ Ln.length pts)
    (hclear : AllClear w x) {i : Nat} {ag : Agent ℝ V5 CAcc.Act Beh (Res (Interp.Exec V5)) Shape.Poly} (hi : w.getAgent i = some ag)
    (hfront : ∀ j aj, w.getAgent j = some aj → j ≠ i → (x j).1 < (x i).1) :
    ∃ w' a' s v, World.run (plug u) w (Loop.Spec.steps dts) = .ok w' ∧ w'.getAgent i = some a' ∧ Rides (alongAt pts) w'.time s v a' ∧
      (x i).2 ≤ v ∧ v ≤ 15 ∧ (15 - v) * (1 + 1.7 / 15 * dts.sum) ≤ 15 - (x i).2 ∧
      (x i).1 + 15 * dts.sum - 15 / 1.7 * (15 - (x i).2) ≤ s ∧ s ≤ (x i).1 + 15 * dts.sum := by
  obtain ⟨w', x', a', r, gi, gg, q1, q2, q3, q4⟩ := front_run (setting_winding hu) dts hpos (w := w) (x := x) ⟨hw, hoff, hmany, hride, hclear⟩ hi hfront
  obtain ⟨k1, k2, k3, -⟩ := gg.rides i a' gi
  refine ⟨w', a', (x' i).1, (x' i).2, r, gi, k1, q1, k3, q2, ?_, q4⟩
  have : 15 / 1.7 * ((x' i).2 - (x i).2) ≤ 15 / 1.7 * (15 - (x i).2) := mul_le_mul_of_nonneg_left (by linarith) (by norm_num)
  linarith

/-! ### a lane with a corner -/

/-- 1 km east, then 1 km north -/
noncomputable def bend : List Pt := [(0, 0), (1000, 0), (1000, 1000)]

theorem leg1 : pdist (0, 0) (1000, 0) = 1000 := road_len

theorem leg2 : pdist (1000, 0) (1000, 1000) = 1000 := by
  unfold pdist
  norm_num
  rw [show (1000000 : ℝ) = 1000 ^ 2 by norm_num, Real.sqrt_sq (by norm_num)]

theorem bend_len : Ln.length bend = 2000 := by
  show pdist (0, 0) (1000, 0) + (pdist (1000, 0) (1000, 1000) + 0) = 2000
  rw [leg1, leg2]
  norm_num

/-- where a point of the lane is -/
theorem bend_at {s : ℝ} {q : Pt} (h : AtArc bend s q) : (q.1 = s ∧ q.2 = 0 ∧ s ≤ 1000) ∨ (q.1 = 1000 ∧ q.2 = s - 1000 ∧ 1000 ≤ s) := by
  obtain ⟨i, a, b, t, h1, h2, t0, t1, rfl, rfl⟩ := h
  match i, h1, h2 with
  | 0, h1, h2 =>
    simp only [bend, List.getElem?_cons_zero, Option.some.injEq, zero_add, List.getElem?_cons_succ] at h1 h2
    subst h1; subst h2
    left
    have : Ln.length (bend.take (0 + 1)) = 0 := rfl
    rw [this, leg1]
    unfold lerp
    norm_num
    exact t1
  | 1, h1, h2 =>
    simp only [bend, List.getElem?_cons_zero, Option.some.injEq, List.getElem?_cons_succ] at h1 h2
    subst h1; subst h2
    right
    have : Ln.length (bend.take (1 + 1)) = 1000 := by
      show pdist (0, 0) (1000, 0) + 0 = 1000
      rw [leg1, add_zero]
    rw [this, leg2]
    unfold lerp
    norm_num
    exact t0
  | k + 2, h1, h2 => simp [bend] at h2

theorem bend_simple : Simple bend := by
  refine ⟨by norm_num [bend], ?_, ?_, ?_⟩
  · unfold NoDup bend
    simp
  · intro s s' q h h'
    rcases bend_at h with ⟨a1, a2, a3⟩ | ⟨a1, a2, a3⟩ <;> rcases bend_at h' with ⟨b1, b2, b3⟩ | ⟨b1, b2, b3⟩ <;> linarith
  · intro i a b c h1 h2 h3
    match i, h1, h2, h3 with
    | 0, h1, h2, h3 =>
      simp only [bend, List.getElem?_cons_zero, Option.some.injEq, zero_add, List.getElem?_cons_succ] at h1 h2 h3
      subst h1; subst h2; subst h3
      intro e
      have := congrArg Prod.fst e
      unfold unit at this
      rw [leg1, leg2] at this
      norm_num at this
    | k + 1, h1, h2, h3 => simp [bend] at h3

/-- the road of C201 with the corner -/
noncomputable def bentRoad : Setup ℝ Unit := { road with roads := ⟨fun _ => ofArray bend, fun _ _ => True⟩ }

theorem bent_winding : Winding bentRoad () bend := by
  have d := road_straight.toDefault
  refine ⟨⟨d.idm, d.thr, d.brake, d.nearest⟩, bend_simple, rfl, fun _ _ => rfl, ?_⟩
  rw [bend_len]
  show (2000 : ℝ) < 10 ^ 300
  exact lt_of_lt_of_le (by norm_num : (2000 : ℝ) < 10 ^ 4) (pow_le_pow_right₀ (by norm_num) (by norm_num))

/-- at rest north of the corner -/
noncomputable def turned : Agent ℝ V5 CAcc.Act Beh (Res (Interp.Exec V5)) Shape.Poly :=
  { mover 0 1000 0 with history := [((0, 1000, 20, Real.pi / 2, 0), .continuous 0)] }

/-- one has turned the corner and stands, one approaches it -/
noncomputable def corner : W ℝ := traffic [(0, turned), (1, mover 1 960 15)]

theorem corner_get {i : Nat} {ag} (h : corner.getAgent i = some ag) : (i = 0 ∧ ag = turned) ∨ (i = 1 ∧ ag = mover 1 960 15) := by
  have hm := OMap.find_some_mem h
  simpa only [corner, traffic, List.mem_cons, List.not_mem_nil, or_false, Prod.mk.injEq] using hm

theorem corner_wf : Props.WellFormed corner := by
  refine ⟨by simp [OMap.Sorted, corner, traffic], ?_, by simp [corner, traffic]⟩
  intro id a h
  rcases corner_get h with ⟨rfl, rfl⟩ | ⟨rfl, rfl⟩ <;> simp [mover, turned]

theorem turned_rides : Rides (alongAt bend) 0 1020 0 turned := by
  refine ⟨le_refl _, rfl, .continuous 0, ⟨_, rfl, rfl⟩, ⟨(1000, 20), Real.pi / 2, ⟨?_, ?_⟩, rfl⟩, block_placed⟩
  · refine ⟨1, (1000, 0), (1000, 1000), 1 / 50, rfl, rfl, by norm_num, by norm_num, ?_, ?_⟩
    · unfold lerp; norm_num
    · show (1020 : ℝ) = pdist (0, 0) (1000, 0) + 0 + 1 / 50 * pdist (1000, 0) (1000, 1000)
      rw [leg1, leg2]; norm_num
  · refine Or.inr (Or.inr (Or.inl ⟨1, (1000, 0), (1000, 1000), rfl, rfl, ?_, ?_, 1000, by norm_num, ?_⟩))
    · show pdist (0, 0) (1000, 0) + 0 < (1020 : ℝ)
      rw [leg1]; norm_num
    · show (1020 : ℝ) < pdist (0, 0) (1000, 0) + (pdist (1000, 0) (1000, 1000) + 0)
      rw [leg1, leg2]; norm_num
    · rw [Real.cos_pi_div_two, Real.sin_pi_div_two]; simp [vec]

theorem before_rides : Rides (alongAt bend) 0 960 15 (mover 1 960 15) := by
  refine ⟨le_refl _, rfl, .continuous 0, ⟨_, rfl, rfl⟩, ⟨(960, 0), 0, ⟨?_, ?_⟩, rfl⟩, block_placed⟩
  · refine ⟨0, (0, 0), (1000, 0), 24 / 25, rfl, rfl, by norm_num, by norm_num, ?_, ?_⟩
    · unfold lerp; norm_num
    · show (960 : ℝ) = 0 + 24 / 25 * pdist (0, 0) (1000, 0)
      rw [leg1]; norm_num
  · refine Or.inr (Or.inr (Or.inl ⟨0, (0, 0), (1000, 0), rfl, rfl, ?_, ?_, 1000, by norm_num, ?_⟩))
    · show (0 : ℝ) < 960
      norm_num
    · show (960 : ℝ) < pdist (0, 0) (1000, 0) + 0
      rw [leg1]; norm_num
    · rw [Real.cos_zero, Real.sin_zero]; simp [vec]

/-- where they are and how fast -/
noncomputable def cornerAt (i : Nat) : ℝ × ℝ := if i = 0 then (1020, 0) else (960, 15)

theorem corner_ride {T : ℝ} (h0 : 0 ≤ T) (hT : T ≤ 60) (i : Nat) (ag) (h : corner.getAgent i = some ag) :
    Rides (alongAt bend) corner.time (cornerAt i).1 (cornerAt i).2 ag ∧ 0 ≤ (cornerAt i).2 ∧ (cornerAt i).2 ≤ 15 ∧ T / 20 ≤ (cornerAt i).1 ∧
      (cornerAt i).1 + 16 * T ≤ Ln.length bend := by
  rw [bend_len]
  rcases corner_get h with ⟨rfl, rfl⟩ | ⟨rfl, rfl⟩
  · exact ⟨turned_rides, by norm_num [cornerAt], by norm_num [cornerAt], by norm_num [cornerAt]; linarith, by norm_num [cornerAt]; linarith⟩
  · exact ⟨before_rides, by norm_num [cornerAt], by norm_num [cornerAt], by norm_num [cornerAt]; linarith, by norm_num [cornerAt]; linarith⟩

theorem corner_clear : AllClear corner cornerAt := by
  intro i j ai aj hi hj hij hle
  rcases corner_get hi with ⟨rfl, rfl⟩ | ⟨rfl, rfl⟩ <;> rcases corner_get hj with ⟨rfl, rfl⟩ | ⟨rfl, rfl⟩ <;>
    first
    | exact absurd rfl hij
    | (exfalso; unfold cornerAt at hle; norm_num at hle; done)
    | (unfold Loop.Spec.Clear gap turned mover block cornerAt; norm_num)

/-- the hypotheses of C202 and C203 are met: after a minute the one behind is still behind, and the first one has gone 767 m or more -/
example : ∃ (w' : W ℝ) (x' : Nat → ℝ × ℝ), World.run (plug bentRoad) corner (Loop.Spec.steps (List.replicate 300 (1 / 5))) = .ok w' ∧ (x' 1).1 ≤ (x' 0).1 ∧
    AllClear w' x' ∧ ∃ a' s v, w'.getAgent 0 = some a' ∧ Rides (alongAt bend) w'.time s v a' ∧ 1787 ≤ s := by
  have hsum : (List.replicate 300 (1 / 5 : ℝ)).sum = 60 := by rw [List.sum_replicate]; norm_num
  have hpos : ∀ d ∈ List.replicate 300 (1 / 5 : ℝ), 0 < d ∧ d ≤ 1 / 5 := by intro d hd; rw [List.eq_of_mem_replicate hd]; norm_num
  have hr := corner_ride (T := (List.replicate 300 (1 / 5 : ℝ)).sum) (by rw [hsum]; norm_num) (by rw [hsum])
  obtain ⟨w', x', h1, -, -, -, -, h2, h3⟩ := C202_winding bent_winding corner_wf rfl (by decide) _ hpos hr corner_clear
  obtain ⟨w2, a', s, v, h4, h5, h6, -, -, -, h7, -⟩ := C203_front bent_winding corner_wf rfl (by decide) _ hpos hr corner_clear (i := 0) (ag := turned) rfl
    (by
      intro j aj hj hne
      rcases corner_get hj with ⟨rfl, rfl⟩ | ⟨rfl, rfl⟩
      · exact absurd rfl hne
      · norm_num [cornerAt])
  rw [h1] at h4
  cases h4
  refine ⟨w', x', h1, h2 1 0 _ _ rfl rfl (by decide) (by norm_num [cornerAt]), h3, a', s, v, h5, h6, ?_⟩
  rw [hsum] at h7
  norm_num [cornerAt] at h7
  linarith

end Bark.Flow
