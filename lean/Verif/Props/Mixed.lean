import Verif.Spec.Mixed
import Verif.Props.TrafficRun
import Verif.Props.LanesRun

/-!
C219: traffic of the classic IDM together with vehicles driven by anything.
-/
namespace Bark.Mix
open Bark Bark.Ln Bark.Ln.Spec Bark.Flow Bark.Flow.Spec Bark.Mix.Spec

variable {Box Lane : Type}

section
variable {K St Act B E Sh Box O : Type} [Field K] [LinearOrder K] [IsStrictOrderedRing K] (P : Plug K St Act B E Sh Box O)

/-- all a step does to one agent -/
theorem step_full {w w' : World K St Act B E Sh Box O} (hw : Props.WellFormed w) {dt : K} (h : World.step P dt w = .ok w') {id : Nat}
    {a : Agent K St Act B E Sh} (ha : w.getAgent id = some a) :
    ∃ o index s, World.rtreeOf P w.agents = .ok index ∧ a.currentState = .ok s ∧
      (Bark.Spec.dropped P w (P.envelope a.shape s) (Bark.Spec.planned P w.time dt (P.observe o { w with rtree := index } id).2 id a) → w'.getAgent id = none) ∧
      (¬Bark.Spec.dropped P w (P.envelope a.shape s) (Bark.Spec.planned P w.time dt (P.observe o { w with rtree := index } id).2 id a) →
        w'.getAgent id = some (Bark.Spec.moved P w.time (Bark.Spec.planned P w.time dt (P.observe o { w with rtree := index } id).2 id a))) := by
  obtain ⟨obs, s, hs, ⟨w1, h1, h2⟩, hy, hn⟩ := (Props.step_effect P hw h id).2 a ha
  have hk : id ∈ OMap.keys w.agents := by
    rw [← OMap.find_isSome_iff]; unfold World.getAgent at ha; rw [ha]; rfl
  obtain ⟨pre, post, hsp⟩ := List.append_of_mem hk
  obtain ⟨index, h3, h4⟩ := World.planAgentsIn_find P _ dt w w1 h1 pre post id a hsp (OMap.sorted_keys_nodup hw.1)
    (fun j hj => OMap.find_isSome_iff.2 hj) ha
  rw [Props.planOne_eq] at h4
  unfold World.getAgent at h2
  rw [h2] at h4
  have e := Option.some.inj h4
  rw [e] at hy hn
  exact ⟨_, index, s, h3, hs, hy, hn⟩

end

theorem rtreeOf_mixed (u : Setup Box Lane) (F : Nat → Bool) (f : Planner Box) : ∀ m, World.rtreeOf (mixed u F f) m = World.rtreeOf (plug u) m
  | [] => rfl
  | (id, a) :: m => by
    unfold World.rtreeOf
    rw [rtreeOf_mixed u F f m]
    rfl

/-- an IDM vehicle moves as it would if all were driven by the IDM -/
theorem same_effect {u : Setup Box Lane} {F : Nat → Bool} {f : Planner Box} {w w1 w2 : W Box} (hw : Props.WellFormed w) {dt : ℝ}
    (h1 : World.step (mixed u F f) dt w = .ok w1) (h2 : World.step (plug u) dt w = .ok w2) {i : Nat} (hi : F i = false) : w1.getAgent i = w2.getAgent i := by
  cases ha : w.getAgent i with
  | none => rw [(Props.step_effect _ hw h1 i).1 ha, (Props.step_effect _ hw h2 i).1 ha]
  | some a =>
    obtain ⟨o1, x1, s1, e1, c1, y1, n1⟩ := step_full _ hw h1 ha
    obtain ⟨o2, x2, s2, e2, c2, y2, n2⟩ := step_full _ hw h2 ha
    rw [rtreeOf_mixed, e2, Except.ok.injEq] at e1
    rw [c2, Except.ok.injEq] at c1
    subst e1 c1
    have hp : Bark.Spec.planned (mixed u F f) w.time dt ((mixed u F f).observe o1 { w with rtree := x2 } i).2 i a =
        Bark.Spec.planned (plug u) w.time dt ((plug u).observe o2 { w with rtree := x2 } i).2 i a := by
      have hq : ∀ b obs, (mixed u F f).plan b dt obs i = (plug u).plan b dt obs i := by
        intro b obs
        show (if F i = true then f b dt obs i else plan u b dt obs i) = plan u b dt obs i
        rw [hi]; rfl
      show Bark.Spec.planned (mixed u F f) w.time dt { w with rtree := x2 } i a = Bark.Spec.planned (plug u) w.time dt { w with rtree := x2 } i a
      unfold Bark.Spec.planned
      rw [hq]
      rfl
    rw [hp] at y1 n1
    by_cases hd : Bark.Spec.dropped (plug u) w ((plug u).envelope a.shape s2) (Bark.Spec.planned (plug u) w.time dt ((plug u).observe o2 { w with rtree := x2 } i).2 i a)
    · rw [y1 hd, y2 hd]
    · rw [n1 hd, n2 hd]
      rfl

/-- everything is in order and stays so for another `τ` seconds -/
structure Fine (u : Setup Box Lane) (F : Nat → Bool) (L : ℝ) (At : ℝ → Pt → ℝ → Prop) (τ : ℝ) (w : W Box) (x : Nat → ℝ × ℝ) : Prop where
  wf : Props.WellFormed w
  off : w.removeAgents = false
  many : w.agents.length ≤ u.maxAgents + 1
  rides : ∀ i ag, w.getAgent i = some ag → Rides At w.time (x i).1 (x i).2 ag ∧ 0 ≤ (x i).2 ∧ 0 ≤ (x i).1 ∧ (x i).1 ≤ L ∧
    (F i = false → (x i).2 ≤ 15 ∧ τ / 20 ≤ (x i).1 ∧ (x i).1 + 16 * τ ≤ L)
  clear : AllClear w x

/-- one step of an IDM vehicle: its next position and velocity, no less than by full braking, and clear of the vehicle ahead if there is one -/
theorem fine_idm {u : Setup Box Lane} {F : Nat → Bool} {f : Planner Box} {lane : Lane} {L : ℝ} {At : ℝ → Pt → ℝ → Prop} (hu : Setting u lane L At) {τ : ℝ} {w w1 : W Box}
    {x : Nat → ℝ × ℝ} (hg : Fine u F L At τ w x) {dt : ℝ} (hdt : 0 < dt) (hdt5 : dt ≤ 1 / 5) (hτ : dt ≤ τ) (h : World.step (mixed u F f) dt w = .ok w1) {i : Nat}
    (hF : F i = false) {ag : Agent ℝ V5 CAcc.Act Beh (Res (Interp.Exec V5)) Shape.Poly} (hi : w.getAgent i = some ag) :
    ∃ z : ℝ × ℝ, (∃ a1, w1.getAgent i = some a1 ∧ a1.shape = ag.shape ∧ Rides At w1.time z.1 z.2 a1) ∧ 0 ≤ z.2 ∧ z.2 ≤ 15 ∧
      ((Loop.brk (dt / 10) 10 (x i).1 (x i).2).1 ≤ z.1 ∧ (Loop.brk (dt / 10) 10 (x i).1 (x i).2).2 ≤ z.2) ∧ (x i).1 - dt / 20 ≤ z.1 ∧ z.1 ≤ (x i).1 + 16 * dt ∧
      ((∀ j aj, w.getAgent j = some aj → j ≠ i → (x j).1 < (x i).1) ∨ ∃ k ak, w.getAgent k = some ak ∧ k ≠ i ∧ (x i).1 ≤ (x k).1 ∧
        (∀ j aj, w.getAgent j = some aj → j ≠ i → (x i).1 ≤ (x j).1 → (x k).1 ≤ (x j).1) ∧
        ∀ q v, (Loop.brk (dt / 10) 10 (x k).1 (x k).2).1 ≤ q → (Loop.brk (dt / 10) 10 (x k).1 (x k).2).2 ≤ v → Loop.Spec.Clear (gap ag.shape ak.shape z.1 q) z.2 v) := by
  obtain ⟨w2, h2', -⟩ := Props.apply_wf (plug u) hg.wf (World.Op.step dt) trivial
  have h2 : World.step (plug u) dt w = .ok w2 := h2'
  have hsame := same_effect hg.wf h h2 hF
  have htime : w1.time = w2.time := by rw [(Loop.step_keeps _ h).1, (Loop.step_keeps _ h2).1]
  rw [hsame, htime]
  obtain ⟨hr, h0, -, -, hidm⟩ := hg.rides i ag hi
  obtain ⟨h15, hs, hL⟩ := hidm hF
  obtain ⟨o, index, -, f1, -, -⟩ := step_fresh (plug u) hg.wf h2 hi
  rw [rtreeOf_same] at f1
  have hin : ∀ j aj, w.getAgent j = some aj → Rides At w.time (x j).1 (x j).2 aj ∧ 0 ≤ (x j).1 ∧ (x j).1 ≤ L := by
    intro j aj hj
    obtain ⟨k1, -, k2, k3, -⟩ := hg.rides j aj hj
    exact ⟨k1, k2, k3⟩
  obtain ⟨r, hrel, hcase⟩ := reacts hu (w := { w with rtree := index }) hg.wf f1 hg.many (x := x) hin hg.clear hi 0 hr.action
  have hrel' : ∀ len index', World.rtreeOf (queries u) w.agents = .ok index' → Lead.observedRel (queries u) (geo u) u.thr u.maxAgents u.idm.coolness u.laneEnd len
      lane i ag.behavior.action { w with rtree := index' } = .ok r := by
    intro len index' h'
    rw [f1] at h'
    cases h'
    rw [observed_len hu.brake len 0]
    exact hrel
  have finish : ∀ tr z, Loop.planIdm Loop.dflt r w.time dt (w.time, (x i).1, (x i).2) = .ok tr → tr.getLast? = some z → z.1 = w.time + dt →
      (∃ a1, w2.getAgent i = some a1 ∧ a1.shape = ag.shape ∧ Rides At w2.time z.2.1 z.2.2 a1) ∧
      ((Loop.brk (dt / 10) 10 (x i).1 (x i).2).1 ≤ z.2.1 ∧ (Loop.brk (dt / 10) 10 (x i).1 (x i).2).2 ≤ z.2.2) ∧
        (x i).1 - dt / 20 ≤ z.2.1 ∧ z.2.1 ≤ (x i).1 + 16 * dt := by
    intro tr z t1 t2 t3
    obtain ⟨-, -, -, -, -, p1, p2, p3, p4⟩ := plan_rows (y := (w.time, (x i).1, (x i).2)) hdt.le hdt5 h0 h15 t1 t2
    exact ⟨agent_step hu hg.wf hg.off hdt hdt5 h2 hi hr h0 h15 (by linarith) (by linarith) hrel' t1 t2 t3, ⟨p1, p2⟩, p3, p4⟩
  rcases hcase with ⟨-, hnone⟩ | ⟨k, ak, hk, hne, hle, hl, hd, hv, hnext⟩
  · obtain ⟨tr, z, t1, t2, t3, t4, t5⟩ := free_plan (r := r) hdt.le hdt5 (w.time, (x i).1, (x i).2) h0 h15
    obtain ⟨s1, s2, s3, s4⟩ := finish tr z t1 t2 t3
    exact ⟨z.2, s1, t4, t5, s2, s3, s4, Or.inl hnone⟩
  · have hcl := hg.clear i k ag ak hi hk hne.symm hle
    rw [← hd, ← hv] at hcl
    obtain ⟨tr, z, t1, -, t2, t3, t4, t5, -, t6⟩ := Loop.plan_clear (r := r) hl (by rw [hv]; exact (hg.rides k ak hk).2.1) hdt.le hdt5 (w.time, (x i).1, (x i).2) h0 h15 hcl
    obtain ⟨s1, s2, s3, s4⟩ := finish tr z t1 t2 t3
    refine ⟨z.2, s1, t4, t5, s2, s3, s4, Or.inr ⟨k, ak, hk, hne, hle, hnext, fun q v hq hv' => ?_⟩⟩
    have sh := Loop.brk_shift (h := dt / 10) 10 (x k).1 (x k).2 (-ak.shape.rear - ag.shape.front)
    have := t6 ((x k).1 + (-ak.shape.rear - ag.shape.front)) (q + (-ak.shape.rear - ag.shape.front)) v
      (by rw [hd]; unfold gap; dsimp only; ring) (by rw [hv, sh]; dsimp only; linarith) (by rw [hv, sh]; exact hv')
    have e : gap ag.shape ak.shape z.2.1 q = q + (-ak.shape.rear - ag.shape.front) - z.2.1 := by unfold gap; ring
    rw [e]
    exact this

/-- braking no harder than 5 m/s² gets no less far than the IDM's full braking -/
theorem gentle_brk {s v t s1 v1 dt : ℝ} (hdt : 0 ≤ dt) (hv : 0 ≤ v) (h : Loop.Spec.Gentle (t, s, v) (t + dt, s1, v1) dt) :
    (Loop.brk (dt / 10) 10 s v).1 ≤ s1 ∧ (Loop.brk (dt / 10) 10 s v).2 ≤ v1 := by
  obtain ⟨-, h1, h2, h3⟩ := h
  dsimp only at h1 h2 h3
  obtain ⟨b1, b2⟩ := Loop.brk_way (h := dt / 10) (by linarith) 10 s v hv
  rw [show ((10 : ℕ) : ℝ) * (dt / 10) = dt by norm_num; ring] at b1 b2
  exact ⟨b1.trans h3, by rw [b2]; exact max_le h2 h1⟩

/-- one step, one vehicle -/
theorem fine_agent {u : Setup Box Lane} {F : Nat → Bool} {f : Planner Box} {lane : Lane} {L : ℝ} {At : ℝ → Pt → ℝ → Prop} (hu : Setting u lane L At) {τ : ℝ} {w w1 : W Box}
    {x : Nat → ℝ × ℝ} {dt : ℝ} (hg : Fine u F L At (dt + τ) w x) (hdt : 0 < dt) (hdt5 : dt ≤ 1 / 5) (hτ : 0 ≤ τ) (h : World.step (mixed u F f) dt w = .ok w1)
    (hb : Decent F At L dt w w1) (i : Nat) :
    ∃ z : ℝ × ℝ, ∀ ag, w.getAgent i = some ag → (∃ a1, w1.getAgent i = some a1 ∧ a1.shape = ag.shape ∧ Rides At w1.time z.1 z.2 a1) ∧ 0 ≤ z.2 ∧ 0 ≤ z.1 ∧ z.1 ≤ L ∧
      ((Loop.brk (dt / 10) 10 (x i).1 (x i).2).1 ≤ z.1 ∧ (Loop.brk (dt / 10) 10 (x i).1 (x i).2).2 ≤ z.2) ∧
      (F i = false → z.2 ≤ 15 ∧ (x i).1 - dt / 20 ≤ z.1 ∧ z.1 ≤ (x i).1 + 16 * dt ∧
        ((∀ j aj, w.getAgent j = some aj → j ≠ i → (x j).1 < (x i).1) ∨ ∃ k ak, w.getAgent k = some ak ∧ k ≠ i ∧ (x i).1 ≤ (x k).1 ∧
          (∀ j aj, w.getAgent j = some aj → j ≠ i → (x i).1 ≤ (x j).1 → (x k).1 ≤ (x j).1) ∧
          ∀ q v, (Loop.brk (dt / 10) 10 (x k).1 (x k).2).1 ≤ q → (Loop.brk (dt / 10) 10 (x k).1 (x k).2).2 ≤ v →
            Loop.Spec.Clear (gap ag.shape ak.shape z.1 q) z.2 v)) ∧
      (F i = true → ∀ j aj, w.getAgent j = some aj → j ≠ i → (x i).1 ≤ (x j).1 → ∀ aj1 sj1 vj1, w1.getAgent j = some aj1 → On At L w1.time sj1 vj1 aj1 →
        Loop.Spec.Clear (gap ag.shape aj1.shape z.1 sj1) z.2 vj1) := by
  cases hi : w.getAgent i with
  | none => exact ⟨0, fun ag e => (by cases e)⟩
  | some ag =>
    obtain ⟨hr, h0, hs0, hsL, hidm⟩ := hg.rides i ag hi
    cases hF : F i with
    | false =>
      obtain ⟨-, b1, b2⟩ := hidm hF
      obtain ⟨z, k1, k2, k3, k4, k5, k6, k7⟩ := fine_idm hu hg hdt hdt5 (by linarith) h hF hi
      refine ⟨z, fun ag' e => ?_⟩
      cases e
      exact ⟨k1, k2, by linarith, by linarith, k4, fun _ => ⟨k3, k5, k6, k7⟩, fun e => (by cases e)⟩
    | true =>
      obtain ⟨a1, s1, v1, k1, k2, ⟨k3, k4, k5⟩, k6, k7⟩ := hb i ag (x i).1 (x i).2 hF hi ⟨hr, hs0, hsL⟩
      refine ⟨(s1, v1), fun ag' e => ?_⟩
      cases e
      refine ⟨⟨a1, k1, k2, k3⟩, k6.2.1, k4, k5, gentle_brk hdt.le h0 k6, fun e => (by cases e), fun _ j aj hj hne hle aj1 sj1 vj1 hj1 hr1 => ?_⟩
      rw [← k2]
      exact k7 j aj (x j).1 (x j).2 aj1 sj1 vj1 hne hj ⟨(hg.rides j aj hj).1, (hg.rides j aj hj).2.2.1, (hg.rides j aj hj).2.2.2.1⟩ hle hj1 hr1

/-- one step of the whole traffic -/
theorem fine_step {u : Setup Box Lane} {F : Nat → Bool} {f : Planner Box} {lane : Lane} {L : ℝ} {At : ℝ → Pt → ℝ → Prop} (hu : Setting u lane L At) {τ : ℝ} {w w1 : W Box}
    {x : Nat → ℝ × ℝ} {dt : ℝ} (hg : Fine u F L At (dt + τ) w x) (hdt : 0 < dt) (hdt5 : dt ≤ 1 / 5) (hτ : 0 ≤ τ) (h : World.step (mixed u F f) dt w = .ok w1)
    (hb : Decent F At L dt w w1) :
    ∃ x1 : Nat → ℝ × ℝ, Fine u F L At τ w1 x1 ∧ (∀ i, w1.getAgent i = none ↔ w.getAgent i = none) ∧
      (∀ i ag a1, w.getAgent i = some ag → w1.getAgent i = some a1 → a1.shape = ag.shape) ∧
      ∀ i j ai aj, w.getAgent i = some ai → w.getAgent j = some aj → i ≠ j → (x i).1 ≤ (x j).1 → (x1 i).1 ≤ (x1 j).1 := by
  choose x1 hx0 using fine_agent hu hg hdt hdt5 hτ h hb
  have hx1 : ∀ i ag, w.getAgent i = some ag → (∃ a1, w1.getAgent i = some a1 ∧ a1.shape = ag.shape ∧ Rides At w1.time (x1 i).1 (x1 i).2 a1) ∧
      0 ≤ (x1 i).2 ∧ 0 ≤ (x1 i).1 ∧ (x1 i).1 ≤ L ∧
      ((Loop.brk (dt / 10) 10 (x i).1 (x i).2).1 ≤ (x1 i).1 ∧ (Loop.brk (dt / 10) 10 (x i).1 (x i).2).2 ≤ (x1 i).2) ∧
      (F i = false → (x1 i).2 ≤ 15 ∧ (x i).1 - dt / 20 ≤ (x1 i).1 ∧ (x1 i).1 ≤ (x i).1 + 16 * dt ∧
        ((∀ j aj, w.getAgent j = some aj → j ≠ i → (x j).1 < (x i).1) ∨ ∃ k ak, w.getAgent k = some ak ∧ k ≠ i ∧ (x i).1 ≤ (x k).1 ∧
          (∀ j aj, w.getAgent j = some aj → j ≠ i → (x i).1 ≤ (x j).1 → (x k).1 ≤ (x j).1) ∧
          ∀ q v, (Loop.brk (dt / 10) 10 (x k).1 (x k).2).1 ≤ q → (Loop.brk (dt / 10) 10 (x k).1 (x k).2).2 ≤ v →
            Loop.Spec.Clear (gap ag.shape ak.shape (x1 i).1 q) (x1 i).2 v)) ∧
      (F i = true → ∀ j aj, w.getAgent j = some aj → j ≠ i → (x i).1 ≤ (x j).1 → Loop.Spec.Clear (gap ag.shape aj.shape (x1 i).1 (x1 j).1) (x1 i).2 (x1 j).2) := by
    intro i ag hi
    obtain ⟨k1, k2, k3, k4, k5, k6, k7⟩ := hx0 i ag hi
    refine ⟨k1, k2, k3, k4, k5, k6, fun hF j aj hj hne hle => ?_⟩
    obtain ⟨⟨aj1, e1, e2, e3⟩, -, e4, e5, -⟩ := hx0 j aj hj
    rw [← e2]
    exact k7 hF j aj hj hne hle aj1 _ _ e1 ⟨e3, e4, e5⟩
  have hrm := (Loop.step_keeps (mixed u F f) h).2
  have hsome : ∀ i a1, w1.getAgent i = some a1 → ∃ ag, w.getAgent i = some ag ∧ a1.shape = ag.shape ∧ Rides At w1.time (x1 i).1 (x1 i).2 a1 := by
    intro i a1 h1
    cases hi : w.getAgent i with
    | none => rw [((Props.step_effect (mixed u F f) hg.wf h i).1 hi)] at h1; cases h1
    | some ag =>
      obtain ⟨⟨a1', k1, k2, k3⟩, -⟩ := hx1 i ag hi
      rw [h1] at k1
      cases k1
      exact ⟨ag, rfl, k2, k3⟩
  -- whoever was behind stays clear
  have key : ∀ (n : Nat) i ai, w.getAgent i = some ai → ((OMap.keys w.agents).toFinset.filter fun k => (x i).1 < (x k).1).card ≤ n →
      ∀ j aj, w.getAgent j = some aj → i ≠ j → (x i).1 ≤ (x j).1 → Loop.Spec.Clear (gap ai.shape aj.shape (x1 i).1 (x1 j).1) (x1 i).2 (x1 j).2 := by
    intro n
    induction n with
    | zero =>
      intro i ai hi hn j aj hj hne hle
      exfalso
      have hlt : (x i).1 < (x j).1 := by
        have h1 := (hg.clear i j ai aj hi hj hne hle).1
        have h2 := (hg.rides i ai hi).1.shape.front
        have h3 := (hg.rides j aj hj).1.shape.rear
        unfold gap at h1
        linarith
      have hm : j ∈ (OMap.keys w.agents).toFinset.filter fun k => (x i).1 < (x k).1 := by
        rw [Finset.mem_filter, List.mem_toFinset, ← OMap.find_isSome_iff]
        unfold World.getAgent at hj
        rw [hj]
        exact ⟨rfl, hlt⟩
      rw [Nat.le_zero, Finset.card_eq_zero] at hn
      rw [hn] at hm
      simp at hm
    | succ n ih =>
      intro i ai hi hn j aj hj hne hle
      obtain ⟨-, -, -, -, -, hidm, hfor⟩ := hx1 i ai hi
      cases hFi : F i with
      | true => exact hfor hFi j aj hj hne.symm hle
      | false =>
      rcases (hidm hFi).2.2.2 with hnone | ⟨k, ak, hk, hki, hik, hnext, hcl⟩
      · exact absurd (hnone j aj hj hne.symm) (not_lt.2 hle)
      · obtain ⟨-, -, -, -, bk, -⟩ := hx1 k ak hk
        have c1 := hcl (x1 k).1 (x1 k).2 bk.1 bk.2
        by_cases hkj : k = j
        · subst hkj
          rw [hk] at hj
          cases hj
          exact c1
        · have hik' : (x i).1 < (x k).1 := by
            have h1 := (hg.clear i k ai ak hi hk hki.symm hik).1
            have h2 := (hg.rides i ai hi).1.shape.front
            have h3 := (hg.rides k ak hk).1.shape.rear
            unfold gap at h1
            linarith
          have hcard : ((OMap.keys w.agents).toFinset.filter fun l => (x k).1 < (x l).1).card < ((OMap.keys w.agents).toFinset.filter fun l => (x i).1 < (x l).1).card := by
            apply Finset.card_lt_card
            rw [Finset.ssubset_iff_of_subset]
            · refine ⟨k, ?_, ?_⟩
              · rw [Finset.mem_filter, List.mem_toFinset, ← OMap.find_isSome_iff]
                unfold World.getAgent at hk
                rw [hk]
                exact ⟨rfl, hik'⟩
              · rw [Finset.mem_filter]
                exact fun hh => lt_irrefl _ hh.2
            · intro l hl
              rw [Finset.mem_filter] at hl ⊢
              exact ⟨hl.1, hik'.trans hl.2⟩
          have c2 := ih k ak hk (by omega) j aj hj hkj (hnext j aj hj hne.symm hle)
          have h2 := (hg.rides k ak hk).1.shape.front
          have h3 := (hg.rides k ak hk).1.shape.rear
          have c3 := clear_trans c1 c2 (d := ak.shape.front + ak.shape.rear) (by linarith)
          have e : gap ai.shape aj.shape (x1 i).1 (x1 j).1 = gap ai.shape ak.shape (x1 i).1 (x1 k).1 + gap ak.shape aj.shape (x1 k).1 (x1 j).1 +
              (ak.shape.front + ak.shape.rear) := by unfold gap; ring
          rw [e]
          exact c3
  have order : ∀ i j ai aj, w.getAgent i = some ai → w.getAgent j = some aj → i ≠ j → (x i).1 ≤ (x j).1 → (x1 i).1 < (x1 j).1 := by
    intro i j ai aj hi hj hne hle
    have h1 := (key _ i ai hi (le_refl _) j aj hj hne hle).1
    have h2 := (hg.rides i ai hi).1.shape.front
    have h3 := (hg.rides j aj hj).1.shape.rear
    unfold gap at h1
    linarith
  obtain ⟨w1', h1', hw1⟩ := Props.apply_wf (mixed u F f) hg.wf (World.Op.step dt) trivial
  have hw1e : w1' = w1 := by
    have : World.step (mixed u F f) dt w = .ok w1' := h1'
    rw [h] at this
    cases this
    rfl
  subst hw1e
  refine ⟨x1, ⟨hw1, by rw [hrm]; exact hg.off, ?_, ?_, ?_⟩, ?_, ?_, fun i j ai aj hi hj hne hle => (order i j ai aj hi hj hne hle).le⟩
  · have hsubk : OMap.keys w1'.agents ⊆ OMap.keys w.agents := by
      intro k hk
      rw [← OMap.find_isSome_iff] at hk ⊢
      obtain ⟨a1, ha1⟩ := Option.isSome_iff_exists.1 hk
      obtain ⟨ag, hag, -⟩ := hsome k a1 ha1
      unfold World.getAgent at hag
      rw [hag]
      rfl
    have := (List.subperm_of_subset (OMap.sorted_keys_nodup hw1.1) hsubk).length_le
    have l1 : (OMap.keys w1'.agents).length = w1'.agents.length := by simp [OMap.keys]
    have l2 : (OMap.keys w.agents).length = w.agents.length := by simp [OMap.keys]
    have := hg.many
    omega
  · intro i a1 hi
    obtain ⟨ag, hag, -, hrd⟩ := hsome i a1 hi
    obtain ⟨-, z1, z2, z3, -, z4, -⟩ := hx1 i ag hag
    refine ⟨hrd, z1, z2, z3, fun hF => ?_⟩
    obtain ⟨-, -, -, -, s0⟩ := hg.rides i ag hag
    obtain ⟨-, s1, s2⟩ := s0 hF
    obtain ⟨y1, y2, y3, -⟩ := z4 hF
    exact ⟨y1, by linarith, by linarith⟩
  · intro i j ai aj hi hj hne hle
    obtain ⟨gi, hgi, si, -⟩ := hsome i ai hi
    obtain ⟨gj, hgj, sj, -⟩ := hsome j aj hj
    rw [si, sj]
    rcases le_or_gt (x i).1 (x j).1 with k | k
    · exact key _ i gi hgi (le_refl _) j gj hgj hne k
    · exact absurd (order j i gj gi hgj hgi hne.symm k.le) (not_lt.2 hle)
  · intro i
    constructor
    · intro hn
      cases hi : w.getAgent i with
      | none => rfl
      | some ag =>
        obtain ⟨⟨a1, k1, -⟩, -⟩ := hx1 i ag hi
        rw [hn] at k1
        cases k1
    · exact (Props.step_effect (mixed u F f) hg.wf h i).1
  · intro i ag a1 hi h1
    obtain ⟨ag', k1, k2, -⟩ := hsome i a1 h1
    rw [hi] at k1
    cases k1
    exact k2

end Bark.Mix
