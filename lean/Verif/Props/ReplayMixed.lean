import Verif.Spec.ReplayMixed
import Verif.Props.MixedRun
import Verif.Props.ClosedLoop

/-!
C220: IDM traffic behind replayed vehicles.
-/
namespace Bark.Mix
open Bark Bark.Ln Bark.Ln.Spec Bark.Flow Bark.Flow.Spec Bark.Mix.Spec

variable {Box Lane : Type}

/-- a foreign vehicle whose trajectory ends with the step goes to where the trajectory ends -/
theorem foreign_moves {u : Setup Box Lane} {F : Nat → Bool} {f : Planner Box} {w w1 : W Box} (hw : Props.WellFormed w) (hoff : w.removeAgents = false) {dt : ℝ}
    (h : World.step (mixed u F f) dt w = .ok w1) {i : Nat} (hF : F i = true) {At : ℝ → Pt → ℝ → Prop} {s v : ℝ}
    {ag : Agent ℝ V5 CAcc.Act Beh (Res (Interp.Exec V5)) Shape.Poly} (hi : w.getAgent i = some ag) (hr : Rides At w.time s v ag) (hdt : 0 < dt) {s1 v1 : ℝ} {act : CAcc.Act}
    (hf : ∀ index, ∃ T first p1 θ1, f ag.behavior dt { w with rtree := index } i = ⟨.valid, .ok T, act⟩ ∧ Lead.Spec.Known act ∧ T.head? = some first ∧ clock first = w.time ∧
      T.getLast? = some (w.time + dt, p1.1, p1.2, θ1, v1) ∧ At s1 p1 θ1) :
    ∃ a1, w1.getAgent i = some a1 ∧ a1.shape = ag.shape ∧ Rides At w1.time s1 v1 a1 ∧ a1.behavior.action = act := by
  obtain ⟨e, he, hes⟩ := hr.exec
  obtain ⟨o, index, x, f1, f2, f3⟩ := step_fresh (mixed u F f) hw h hi
  obtain ⟨T, first, p1, θ1, hst, hkn, hT1, hT2, hT3, hA⟩ := hf index
  have hobs : ((mixed u F f).observe o { w with rtree := index } i).2 = { w with rtree := index } := rfl
  rw [hobs] at f3
  have hplan : (mixed u F f).plan ag.behavior dt { w with rtree := index } i = ⟨.valid, .ok T, act⟩ := by
    show (if F i = true then f ag.behavior dt { w with rtree := index } i else _) = _
    rw [if_pos hF, hst]
  have hact' : ag.firstValid ≤ w.time + 1 / 2 ^ 52 := by
    have : (0 : ℝ) < 1 / 2 ^ 52 := by positivity
    linarith [hr.entered]
  have hpl : Bark.Spec.planned (mixed u F f) w.time dt { w with rtree := index } i ag =
      { ag with behavior := ⟨.valid, .ok T, act⟩, exec := .ok ⟨some (w.time + dt, p1.1, p1.2, θ1, v1), T, .valid⟩ } := by
    unfold Bark.Spec.planned
    rw [if_pos hact', hplan, he]
    have hex := Interp.C17_last_stamp (LinearMap.fst ℝ ℝ (ℝ × ℝ × ℝ × ℝ)) e hes T first (w.time + dt, p1.1, p1.2, θ1, v1) hT1 hT3 (by
      rw [hT2]
      show w.time < w.time + dt
      linarith)
    have e4 : (mixed u F f).execute (.ok e) (w.time + dt) ⟨.valid, .ok T, act⟩ =
        .ok ⟨some (w.time + dt, p1.1, p1.2, θ1, v1), T, .valid⟩ := hex
    rw [e4]
    rfl
  rw [hpl] at f3
  have hcond : (ag.firstValid ≤ w.time + 1 / 2 ^ 52 ∧ (mixed u F f).status ⟨.valid, .ok T, act⟩ = .valid ∧
      (mixed u F f).execStatus (.ok ⟨some (w.time + dt, p1.1, p1.2, θ1, v1), T, .valid⟩) = .valid) := ⟨hact', rfl, rfl⟩
  have hhist : ag.history ≠ [] := (hw.2.1 i ag hi).1
  have hcur := Loop.moved_current (mixed u F f) w.time
    { ag with behavior := ⟨.valid, .ok T, act⟩, exec := .ok ⟨some (w.time + dt, p1.1, p1.2, θ1, v1), T, .valid⟩ } hhist hcond
  obtain ⟨m1, m2, m3, m4⟩ := moved_fields (mixed u F f) w.time
    { ag with behavior := ⟨.valid, .ok T, act⟩, exec := .ok ⟨some (w.time + dt, p1.1, p1.2, θ1, v1), T, .valid⟩ }
  have ht := (Loop.step_keeps (mixed u F f) h).1
  refine ⟨_, f3 ?_, ?_, ?_, by rw [m1]⟩
  · rintro (k | ⟨k, -⟩)
    · cases k
    · rw [hoff] at k; cases k
  · rw [m4]
  · refine ⟨?_, ?_, ?_, ?_, ⟨p1, θ1, hA, ?_⟩, ?_⟩
    · rw [m3, ht]; dsimp only; linarith [hr.entered]
    · rw [m1]
    · rw [m1]; exact hkn
    · rw [m2]; exact ⟨_, rfl, rfl⟩
    · rw [hcur, ht]
      rfl
    · rw [m4]; exact hr.shape

/-- a replayed vehicle on the lane goes to where its recording is -/
theorem replays {u : Setup Box Lane} {lane : Lane} {L : ℝ} {At : ℝ → Pt → ℝ → Prop} (hu : Setting u lane L At) {F : Nat → Bool} {f : Planner Box} {rec : List V5} {w w1 : W Box}
    (hw : Props.WellFormed w) (hoff : w.removeAgents = false) {dt : ℝ} (hdt : 0 < dt) (h : World.step (mixed u F f) dt w = .ok w1) {i : Nat} (hF : F i = true)
    (hfi : ∀ b dt obs, f b dt obs i = replayer u (fun _ => rec) b dt obs i)
    {t0 t1 : ℝ} {y : ℝ → ℝ × ℝ} (hrec : Kept At L t0 t1 rec y) (ht0 : t0 ≤ w.time) (ht1 : w.time + dt ≤ t1)
    {ag : Agent ℝ V5 CAcc.Act Beh (Res (Interp.Exec V5)) Shape.Poly} (hi : w.getAgent i = some ag) {s v : ℝ} (hr : On At L w.time s v ag) :
    ∃ a1, w1.getAgent i = some a1 ∧ a1.shape = ag.shape ∧ On At L w1.time (y (w.time + dt)).1 (y (w.time + dt)).2 a1 ∧
      a1.behavior.action = .lonLat (((y (w.time + dt)).2 - (y w.time).2) / dt) 0 := by
  obtain ⟨r0, hr0, hr0t⟩ := hrec.begun
  obtain ⟨r1, hr1, hr1t⟩ := hrec.later
  obtain ⟨b', q1, q2, q3, q4, q5⟩ := Loop.replan_ok clock ⟨rec, .valid, []⟩ hrec.increasing (List.ne_nil_of_mem hr0) w.time dt hdt
  have hst : b'.status = .valid := by
    cases hs : b'.status with
    | valid => rfl
    | notStarted => exact absurd ⟨r0, hr0, hr0t.trans ht0⟩ (q3.1 hs)
    | expired =>
      have := (q4.1 hs).2 r1 hr1
      have : r1.1 ≤ w.time + dt := this
      linarith
  obtain ⟨x, m, z, k1, k2, k3, k4⟩ := q5 hst
  obtain ⟨p1, θ1, e1, e2, e3, e4⟩ := hrec.along (w.time + dt) z (by linarith) ht1 k4
  have hplan : StaticTraj.status clock (rec) w.time dt = .ok .valid ∧ StaticTraj.plan clock (rec) w.time dt = .ok (x :: m ++ [z]) := by
    unfold Loop.replan at q1
    dsimp only at q1
    cases c1 : StaticTraj.status clock (rec) w.time dt with
    | error f => rw [c1] at q1; cases q1
    | ok st =>
      rw [c1] at q1
      dsimp only at q1
      cases c2 : StaticTraj.plan clock (rec) w.time dt with
      | error f => rw [c2] at q1; cases q1
      | ok tr =>
        rw [c2] at q1
        dsimp only at q1
        rw [Except.ok.injEq] at q1
        subst q1
        dsimp only at hst k1
        rw [hst, k1]
        exact ⟨rfl, rfl⟩
  have hfirst : Interp.Spec.OnTrajectory clock (rec) w.time x := by
    have hne : rec ≠ [] := List.ne_nil_of_mem hr0
    have hsorted : ∀ (l : List V5) a r, Interp.Spec.Increasing clock l → l.head? = some a → r ∈ l → a.1 ≤ r.1 := by
      intro l a r hl ha hr
      cases l with
      | nil => cases ha
      | cons c l =>
        cases ha
        rcases List.mem_cons.1 hr with rfl | hr
        · exact le_refl _
        · exact ((List.pairwise_cons.1 hl).1 r hr).le
    have hlast : ∀ (l : List V5) z r, Interp.Spec.Increasing clock l → l.getLast? = some z → r ∈ l → r.1 ≤ z.1 := by
      intro l z r hl hz hr
      obtain ⟨l', rfl⟩ := List.getLast?_eq_some_iff.1 hz
      rcases List.mem_append.1 hr with hr | hr
      · exact ((List.pairwise_append.1 hl).2.2 r hr z (by simp)).le
      · rw [List.mem_singleton.1 hr]
    obtain ⟨s0, e0, c1, -, c2, -⟩ := StaticTraj.C19_replay clock (rec) hrec.increasing (List.head?_eq_some_head hne) (List.getLast?_eq_some_getLast hne) w.time dt hdt
      ((hsorted _ _ r0 hrec.increasing (List.head?_eq_some_head hne) hr0).trans (hr0t.trans ht0))
      (ht1.trans (hr1t.le.trans (hlast _ _ r1 hrec.increasing (List.getLast?_eq_some_getLast hne) hr1)))
    rw [hplan.2, Except.ok.injEq, List.cons_append, List.cons_append, List.cons.injEq] at c1
    rw [c1.1]
    exact c2
  obtain ⟨p0, θ0, e0, e02, e03, e04⟩ := hrec.along w.time x ht0 (by linarith) hfirst
  have fx : frenetOf (u.roads.line lane) x = ⟨(y w.time).1, 0, (y w.time).2, 0, 0⟩ := by rw [e0]; exact hu.frenet _ _ _ _ _ e03 e04 e02
  have fz : frenetOf (u.roads.line lane) z = ⟨(y (w.time + dt)).1, 0, (y (w.time + dt)).2, 0, 0⟩ := by rw [e1]; exact hu.frenet _ _ _ _ _ e3 e4 e2
  obtain ⟨hrd, hs0, hsL⟩ := hr
  obtain ⟨p, θ, hA, hcur⟩ := hrd.state
  have hgo := foreign_moves (At := At) hw hoff h hF hi hrd hdt (s1 := (y (w.time + dt)).1) (v1 := (y (w.time + dt)).2)
    (act := .lonLat (((y (w.time + dt)).2 - (y w.time).2) / dt) 0) (fun index => by
    have hco : u.corridor ((entries (w.time, p.1, p.2, θ, v)).x, (entries (w.time, p.1, p.2, θ, v)).y) = some lane := hu.corridor s p θ hs0 hsL hA
    refine ⟨x :: m ++ [z], x, p1, θ1, ?_, .lonLat _ _, rfl, k2, ?_, e2⟩
    · have hact : replayAction u dt { w with rtree := index } i x z = .ok (.lonLat (((y (w.time + dt)).2 - (y w.time).2) / dt) 0) := by
        unfold replayAction
        have : World.getAgent { w with rtree := index } i = some ag := hi
        rw [this]
        dsimp only
        rw [hcur]
        dsimp only
        rw [hco]
        dsimp only
        rw [fx, fz]
        dsimp only
        rw [sub_self, zero_div]
      rw [hfi]
      unfold replayer
      dsimp only
      rw [hplan.1, hplan.2]
      dsimp only
      have hl : (x :: m ++ [z]).getLast? = some z := by rw [List.getLast?_append]; rfl
      have hh : (x :: m ++ [z]).head? = some x := rfl
      rw [hl, hh]
      dsimp only
      rw [hact]
    · rw [List.getLast?_append, ← e1]
      rfl)
  obtain ⟨a1, g1, g2, g3, g4⟩ := hgo
  exact ⟨a1, g1, g2, ⟨g3, e3, e4⟩, g4⟩

theorem replay_moves {u : Setup Box Lane} {lane : Lane} {L : ℝ} {At : ℝ → Pt → ℝ → Prop} (hu : Setting u lane L At) {F : Nat → Bool} {recording : Nat → List V5} {w w1 : W Box}
    (hw : Props.WellFormed w) (hoff : w.removeAgents = false) {dt : ℝ} (hdt : 0 < dt) (h : World.step (mixed u F (replayer u recording)) dt w = .ok w1) {i : Nat} (hF : F i = true)
    {t0 t1 : ℝ} {y : ℝ → ℝ × ℝ} (hrec : Recorded At L t0 t1 (recording i) y) (ht0 : t0 ≤ w.time) (ht1 : w.time + dt ≤ t1)
    {ag : Agent ℝ V5 CAcc.Act Beh (Res (Interp.Exec V5)) Shape.Poly} (hi : w.getAgent i = some ag) {s v : ℝ} (hr : On At L w.time s v ag) :
    ∃ a1, w1.getAgent i = some a1 ∧ a1.shape = ag.shape ∧ On At L w1.time (y (w.time + dt)).1 (y (w.time + dt)).2 a1 ∧
      a1.behavior.action = .lonLat (((y (w.time + dt)).2 - (y w.time).2) / dt) 0 := by
  refine replays hu (rec := recording i) hw hoff hdt h hF (fun b dt obs => ?_) hrec.toKept ht0 ht1 hi hr
  rfl

/-- of two recorded vehicles one stays clear behind the other -/
def Apart (t0 t1 : ℝ) (F : Nat → Bool) (Y : Nat → ℝ → ℝ × ℝ) (w : W Box) : Prop :=
  ∀ i j ai aj, F i = true → F j = true → i ≠ j → w.getAgent i = some ai → w.getAgent j = some aj →
    (∀ t, t0 ≤ t → t ≤ t1 → Loop.Spec.Clear (gap ai.shape aj.shape (Y i t).1 (Y j t).1) (Y i t).2 (Y j t).2) ∨
    ∀ t, t0 ≤ t → t ≤ t1 → Loop.Spec.Clear (gap aj.shape ai.shape (Y j t).1 (Y i t).1) (Y j t).2 (Y i t).2

/-- replayed vehicles meet the contract of C219 -/
theorem replay_decent {u : Setup Box Lane} {lane : Lane} {L : ℝ} {At : ℝ → Pt → ℝ → Prop} (hu : Setting u lane L At) {F : Nat → Bool} {recording : Nat → List V5}
    {Y : Nat → ℝ → ℝ × ℝ} {t0 t1 τ : ℝ} {w w1 : W Box} {x : Nat → ℝ × ℝ} {dt : ℝ} (hg : Fine u F L At (dt + τ) w x) (hdt : 0 < dt) (hdt5 : dt ≤ 1 / 5)
    (h : World.step (mixed u F (replayer u recording)) dt w = .ok w1) (ht0 : t0 ≤ w.time) (ht1 : w.time + dt ≤ t1)
    (hrec : ∀ i ag, F i = true → w.getAgent i = some ag → Recorded At L t0 t1 (recording i) (Y i) ∧ x i = Y i w.time)
    (hlead : ∀ i j ai aj, F i = true → F j = false → w.getAgent i = some ai → w.getAgent j = some aj → (x j).1 < (x i).1)
    (hapart : Apart t0 t1 F Y w) :
    Decent F At L dt w w1 ∧ ∀ i ag, F i = true → w.getAgent i = some ag → ∃ a1, w1.getAgent i = some a1 ∧ On At L w1.time (Y i w1.time).1 (Y i w1.time).2 a1 := by
  have hwt : w1.time = w.time + dt := (Loop.step_keeps _ h).1
  have hon : ∀ i ag, w.getAgent i = some ag → On At L w.time (x i).1 (x i).2 ag := fun i ag hi =>
    ⟨(hg.rides i ag hi).1, (hg.rides i ag hi).2.2.1, (hg.rides i ag hi).2.2.2.1⟩
  have hmove : ∀ i ag, F i = true → w.getAgent i = some ag → ∃ a1, w1.getAgent i = some a1 ∧ a1.shape = ag.shape ∧ On At L w1.time (Y i (w.time + dt)).1 (Y i (w.time + dt)).2 a1 := by
    intro i ag hF hi
    obtain ⟨a1, k1, k2, k3, -⟩ := replay_moves hu hg.wf hg.off hdt h hF (hrec i ag hF hi).1 ht0 ht1 hi (hon i ag hi)
    exact ⟨a1, k1, k2, k3⟩
  have huniq : ∀ {t s v s' v' : ℝ} {ag}, On At L t s v ag → On At L t s' v' ag → s = s' ∧ v = v' := fun h h' =>
    rides_unique hu h.1 h'.1 h.2.1 h.2.2 h'.2.1 h'.2.2
  refine ⟨?_, fun i ag hF hi => ?_⟩
  · intro i ag s v hF hi hr
    obtain ⟨a1, k1, k2, k3⟩ := hmove i ag hF hi
    obtain ⟨hri, hxi⟩ := hrec i ag hF hi
    obtain ⟨e1, e2⟩ := huniq hr (hon i ag hi)
    subst e1 e2
    refine ⟨a1, _, _, k1, k2, k3, ?_, ?_⟩
    · rw [hxi]
      exact hri.gentle w.time dt ht0 hdt hdt5 ht1
    · intro j aj sj vj aj1 sj1 vj1 hne hj hrj hle hj1 hrj1
      rw [(huniq hrj (hon j aj hj)).1] at hle
      cases hFj : F j with
      | false => exact absurd (hlead i j ag aj hF hFj hi hj) (not_lt.2 hle)
      | true =>
        obtain ⟨b1, m1, m2, m3⟩ := hmove j aj hFj hj
        rw [hj1] at m1
        cases m1
        obtain ⟨c1, c2⟩ := huniq hrj1 m3
        rw [c1, c2, k2, m2]
        rcases hapart i j ag aj hF hFj hne.symm hi hj with hc | hc
        · exact hc (w.time + dt) (by linarith) ht1
        · exfalso
          have c := (hc w.time ht0 (by linarith)).1
          have h2 := (hg.rides i ag hi).1.shape.rear
          have h3 := (hg.rides j aj hj).1.shape.front
          rw [hxi, (hrec j aj hFj hj).2] at hle
          unfold gap at c
          linarith
  · obtain ⟨a1, k1, -, k3⟩ := hmove i ag hF hi
    refine ⟨a1, k1, ?_⟩
    have : Y i w1.time = Y i (w.time + dt) := by rw [hwt]
    rw [this]
    exact k3

theorem replay_run {u : Setup Box Lane} {lane : Lane} {L : ℝ} {At : ℝ → Pt → ℝ → Prop} (hu : Setting u lane L At) {F : Nat → Bool} {recording : Nat → List V5}
    {Y : Nat → ℝ → ℝ × ℝ} {t0 t1 : ℝ} : ∀ (dts : List ℝ) (_ : ∀ d ∈ dts, 0 < d ∧ d ≤ 1 / 5) {w : W Box} {x : Nat → ℝ × ℝ}, Fine u F L At dts.sum w x →
    t0 ≤ w.time → w.time + dts.sum ≤ t1 →
    (∀ i ag, F i = true → w.getAgent i = some ag → Recorded At L t0 t1 (recording i) (Y i) ∧ x i = Y i w.time) →
    (∀ i j ai aj, F i = true → F j = false → w.getAgent i = some ai → w.getAgent j = some aj → (x j).1 < (x i).1) →
    Apart t0 t1 F Y w →
    ∃ (w' : W Box) (x' : Nat → ℝ × ℝ), World.run (mixed u F (replayer u recording)) w (Loop.Spec.steps dts) = .ok w' ∧ w'.time = w.time + dts.sum ∧ Fine u F L At 0 w' x' ∧
      (∀ i, w'.getAgent i = none ↔ w.getAgent i = none) ∧
      (∀ i ag a1, w.getAgent i = some ag → w'.getAgent i = some a1 → a1.shape = ag.shape) ∧
      (∀ i j ai aj, w.getAgent i = some ai → w.getAgent j = some aj → i ≠ j → (x i).1 ≤ (x j).1 → (x' i).1 ≤ (x' j).1) ∧
      ∀ i ag, F i = true → w'.getAgent i = some ag → x' i = Y i w'.time
  | [], _, w, x, hg, _, _, hrec, _, _ => by
    refine ⟨w, x, rfl, by simp, by simpa using hg, fun i => Iff.rfl, ?_, fun i j ai aj _ _ _ h => h, fun i ag hF hi => (hrec i ag hF hi).2⟩
    intro i ag a1 h1 h2
    rw [h1] at h2; cases h2; rfl
  | dt :: dts, hpos, w, x, hg, ht0, ht1, hrec, hlead, hapart => by
    obtain ⟨w1, h1', -⟩ := Props.apply_wf (mixed u F (replayer u recording)) hg.wf (World.Op.step dt) trivial
    have h1 : World.step (mixed u F (replayer u recording)) dt w = .ok w1 := h1'
    obtain ⟨hdt, hdt5⟩ := hpos dt (by simp)
    have hsum : 0 ≤ dts.sum := List.sum_nonneg fun d hd => (hpos d (by simp [hd])).1.le
    rw [List.sum_cons] at hg ht1
    have hwt : w1.time = w.time + dt := (Loop.step_keeps _ h1).1
    obtain ⟨hd, hnew⟩ := replay_decent hu hg hdt hdt5 h1 ht0 (by linarith) hrec hlead hapart
    obtain ⟨x1, g1, n1, s1, o1⟩ := fine_step hu hg hdt hdt5 hsum h1 hd
    have back : ∀ i a1, w1.getAgent i = some a1 → ∃ ag, w.getAgent i = some ag := by
      intro i a1 hi
      refine Option.ne_none_iff_exists'.1 fun e => ?_
      rw [(n1 i).2 e] at hi; cases hi
    have ex : ∀ i ag, w.getAgent i = some ag → ∃ a1, w1.getAgent i = some a1 := by
      intro i ag hi
      refine Option.ne_none_iff_exists'.1 fun e => ?_
      rw [(n1 i).1 e] at hi; cases hi
    obtain ⟨w', x', r, ht, g2, n2, s2, o2, y2⟩ := replay_run hu (recording := recording) (Y := Y) (t0 := t0) (t1 := t1) dts (fun d hd => hpos d (by simp [hd])) g1 (by rw [hwt]; linarith) (by rw [hwt]; linarith)
      (fun i a1 hF hi => by
        obtain ⟨ag, hag⟩ := back i a1 hi
        obtain ⟨b1, c1, c2⟩ := hnew i ag hF hag
        rw [hi] at c1
        cases c1
        obtain ⟨k1, -, k2, k3, -⟩ := g1.rides i a1 hi
        obtain ⟨e1, e2⟩ := rides_unique hu k1 c2.1 k2 k3 c2.2.1 c2.2.2
        exact ⟨(hrec i ag hF hag).1, Prod.ext e1 e2⟩)
      (fun i j ai aj hFi hFj hi hj => by
        obtain ⟨bi, hbi⟩ := back i ai hi
        obtain ⟨bj, hbj⟩ := back j aj hj
        have hne : j ≠ i := by rintro rfl; rw [hFi] at hFj; cases hFj
        have hle := o1 j i bj bi hbj hbi hne (hlead i j bi bj hFi hFj hbi hbj).le
        have c := (g1.clear j i aj ai hj hi hne hle).1
        have h2 := (g1.rides i ai hi).1.shape.rear
        have h3 := (g1.rides j aj hj).1.shape.front
        unfold gap at c
        linarith)
      (fun i j ai aj hFi hFj hne hi hj => by
        obtain ⟨bi, hbi⟩ := back i ai hi
        obtain ⟨bj, hbj⟩ := back j aj hj
        rw [s1 i bi ai hbi hi, s1 j bj aj hbj hj]
        exact hapart i j bi bj hFi hFj hne hbi hbj)
    refine ⟨w', x', ?_, ?_, g2, fun i => (n2 i).trans (n1 i), ?_, ?_, y2⟩
    · unfold Loop.Spec.steps
      rw [List.map_cons]
      unfold World.run
      rw [h1', Res.ok_bind]
      exact r
    · rw [ht, hwt, List.sum_cons, add_assoc]
    · intro i ag a2 hi h2
      obtain ⟨a1, e1⟩ := ex i ag hi
      rw [s2 i a1 a2 e1 h2, s1 i ag a1 hi e1]
    · intro i j ai aj hi hj hne hle
      obtain ⟨ai', ei⟩ := ex i ai hi
      obtain ⟨aj', ej⟩ := ex j aj hj
      exact o2 i j ai' aj' ei ej hne (o1 i j ai aj hi hj hne hle)

/-- C220: replayed vehicles ahead of IDM vehicles on a straight lane. The recordings run along the lane, never reverse, never brake harder than 5 m/s², last longer than the
run, and of two of them one stays clear behind the other. Everyone has room to whoever is ahead and could stop before it. Then after any number of steps of at most
0.2 s nothing went wrong, the replayed vehicles are exactly where they are recorded, everyone is still there in the same order, the IDM vehicles neither reverse nor
exceed the desired velocity, any two have room and could stop, no two bodies touch, and the collision evaluator reports nothing. -/
theorem C220_replay_ahead {u : Setup Box Lane} {lane : Lane} {a b : Pt} (hu : Straight u lane a b) (replayed : Nat → Bool) (recording : Nat → List V5) (Y : Nat → ℝ → ℝ × ℝ)
    {w : W Box} (hw : Props.WellFormed w) (hoff : w.removeAgents = false) (hmany : w.agents.length ≤ u.maxAgents + 1) (dts : List ℝ) (hpos : ∀ d ∈ dts, 0 < d ∧ d ≤ 1 / 5)
    {x : Nat → ℝ × ℝ}
    (hride : ∀ i ag, w.getAgent i = some ag → Rides (straightAt a b) w.time (x i).1 (x i).2 ag ∧ 0 ≤ (x i).2 ∧ 0 ≤ (x i).1 ∧ (x i).1 ≤ pdist a b ∧
      (replayed i = false → (x i).2 ≤ 15 ∧ dts.sum / 20 ≤ (x i).1 ∧ (x i).1 + 16 * dts.sum ≤ pdist a b))
    (hclear : AllClear w x)
    (hrec : ∀ i ag, replayed i = true → w.getAgent i = some ag →
      Recorded (straightAt a b) (pdist a b) w.time (w.time + dts.sum) (recording i) (Y i) ∧ x i = Y i w.time)
    (hlead : ∀ i j ai aj, replayed i = true → replayed j = false → w.getAgent i = some ai → w.getAgent j = some aj → (x j).1 < (x i).1)
    (hapart : ∀ i j ai aj, replayed i = true → replayed j = true → i ≠ j → w.getAgent i = some ai → w.getAgent j = some aj →
      (∀ t, w.time ≤ t → t ≤ w.time + dts.sum → Loop.Spec.Clear (gap ai.shape aj.shape (Y i t).1 (Y j t).1) (Y i t).2 (Y j t).2) ∨
      ∀ t, w.time ≤ t → t ≤ w.time + dts.sum → Loop.Spec.Clear (gap aj.shape ai.shape (Y j t).1 (Y i t).1) (Y j t).2 (Y i t).2) :
    ∃ (w' : W Box) (x' : Nat → ℝ × ℝ), World.run (mixed u replayed (replayer u recording)) w (Loop.Spec.steps dts) = .ok w' ∧ w'.time = w.time + dts.sum ∧
      (∀ i, w'.getAgent i = none ↔ w.getAgent i = none) ∧
      (∀ i ag a1, w.getAgent i = some ag → w'.getAgent i = some a1 → a1.shape = ag.shape) ∧
      (∀ i a1, w'.getAgent i = some a1 → Rides (straightAt a b) w'.time (x' i).1 (x' i).2 a1 ∧ 0 ≤ (x' i).2 ∧ (replayed i = false → (x' i).2 ≤ 15) ∧
        (replayed i = true → x' i = Y i w'.time)) ∧
      (∀ i j ai aj, w.getAgent i = some ai → w.getAgent j = some aj → i ≠ j → (x i).1 ≤ (x j).1 → (x' i).1 ≤ (x' j).1) ∧
      AllClear w' x' ∧
      (∀ i j ai aj t p θ v t' p' θ' v', w'.getAgent i = some ai → w'.getAgent j = some aj → i ≠ j → ai.currentState = .ok (t, p.1, p.2, θ, v) →
        aj.currentState = .ok (t', p'.1, p'.2, θ', v') → Disjoint (body ai.shape p θ) (body aj.shape p' θ')) ∧
      ∀ collide, Sound collide → Eval.collisionAgents (plug u) outline collide w' = .ok false := by
  obtain ⟨w', x', r, ht, g, n, s, o, hy⟩ := replay_run (setting_straight hu) dts hpos (w := w) (x := x) ⟨hw, hoff, hmany, hride, hclear⟩ (le_refl _) (le_refl _) hrec hlead hapart
  obtain ⟨hbd, hn⟩ := no_contact (u := u) g.clear g.wf (fun i a1 hi => (g.rides i a1 hi).1)
  exact ⟨w', x', r, ht, n, s, fun i a1 hi => ⟨(g.rides i a1 hi).1, (g.rides i a1 hi).2.1, fun hF => ((g.rides i a1 hi).2.2.2.2 hF).1, fun hF => hy i a1 hF hi⟩,
    o, g.clear, hbd, hn⟩

/-- C220: in every step a replayed vehicle reports as its action the recorded mean acceleration of the step, and no lateral one -/
theorem C220_action {u : Setup Box Lane} {lane : Lane} {a b : Pt} (hu : Straight u lane a b) {replayed : Nat → Bool} {recording : Nat → List V5} {w w1 : W Box}
    (hw : Props.WellFormed w) (hoff : w.removeAgents = false) {dt : ℝ} (hdt : 0 < dt) (h : World.step (mixed u replayed (replayer u recording)) dt w = .ok w1) {i : Nat}
    (hF : replayed i = true) {t0 t1 : ℝ} {y : ℝ → ℝ × ℝ} (hrec : Recorded (straightAt a b) (pdist a b) t0 t1 (recording i) y) (ht0 : t0 ≤ w.time) (ht1 : w.time + dt ≤ t1)
    {ag : Agent ℝ V5 CAcc.Act Beh (Res (Interp.Exec V5)) Shape.Poly} (hi : w.getAgent i = some ag) {s v : ℝ} (hr : Rides (straightAt a b) w.time s v ag) (hs0 : 0 ≤ s)
    (hs1 : s ≤ pdist a b) :
    ∃ a1, w1.getAgent i = some a1 ∧ Rides (straightAt a b) w1.time (y w1.time).1 (y w1.time).2 a1 ∧ a1.behavior.status = .valid ∧
      a1.behavior.action = .lonLat (((y w1.time).2 - (y w.time).2) / dt) 0 := by
  have hwt : w1.time = w.time + dt := (Loop.step_keeps _ h).1
  obtain ⟨a1, k1, -, k3, k4⟩ := replay_moves (setting_straight hu) hw hoff hdt h hF hrec ht0 ht1 hi ⟨hr, hs0, hs1⟩
  have e : y w1.time = y (w.time + dt) := by rw [hwt]
  rw [e]
  exact ⟨a1, k1, k3.1, k3.1.valid, k4⟩

/-! ### example -/

/-- 50 s from 300 m on with 10 m/s -/
noncomputable def cruise : List V5 := [(0, 300, 0, 0, 10), (50, 800, 0, 0, 10)]

theorem cruise_recorded : Recorded (straightAt (0, 0) (1000, 0)) (pdist (0, 0) (1000, 0)) 0 40 cruise (fun t => (300 + 10 * t, 10)) := by
  refine ⟨⟨?_, ⟨_, List.mem_cons_self, le_refl _⟩, ⟨(50, 800, 0, 0, 10), by simp [cruise], by norm_num⟩, ?_⟩, ?_⟩
  · simp [Interp.Spec.Increasing, cruise, clock]
  · rintro t row h0 h1 ⟨l, a, b, r, e, -, -, hrow⟩
    have hab : a = (0, 300, 0, 0, 10) ∧ b = (50, 800, 0, 0, 10) := by
      cases l with
      | nil =>
        simp only [cruise, List.nil_append, List.cons.injEq] at e
        exact ⟨e.1.symm, e.2.1.symm⟩
      | cons c l =>
        have := congrArg List.length e
        simp [cruise] at this
        omega
    obtain ⟨rfl, rfl⟩ := hab
    refine ⟨(300 + 10 * t, 0), 0, ?_, at_road _, by dsimp only; linarith, by rw [road_len]; dsimp only; linarith⟩
    rw [hrow]
    unfold Interp.Spec.onLine
    simp only [clock, LinearMap.fst_apply, Prod.mk_add_mk, Prod.smul_mk, Prod.mk_sub_mk, smul_eq_mul, Prod.mk.injEq]
    refine ⟨by ring, by ring, by ring, by ring, by ring⟩
  · intro t d _ hd hd5 _
    refine ⟨rfl, by norm_num, by dsimp only; linarith, ?_⟩
    unfold Loop.Spec.brakingWay
    dsimp only
    rw [if_pos (by linarith)]
    nlinarith [sq_nonneg d]

/-- a replayed vehicle at 300 m with 10 m/s, one approaching it from 80 m behind with 15 m/s, a third one right behind -/
noncomputable def lead : W ℝ := traffic [(0, mover 0 300 10), (1, mover 1 220 15), (2, mover 2 215 14)]

theorem lead_get {i : Nat} {ag} (h : lead.getAgent i = some ag) : (i = 0 ∧ ag = mover 0 300 10) ∨ (i = 1 ∧ ag = mover 1 220 15) ∨ (i = 2 ∧ ag = mover 2 215 14) := by
  have hm := OMap.find_some_mem h
  simpa only [lead, traffic, List.mem_cons, List.not_mem_nil, or_false, Prod.mk.injEq] using hm

theorem lead_wf : Props.WellFormed lead := by
  refine ⟨by simp [OMap.Sorted, lead, traffic], ?_, by simp [lead, traffic]⟩
  intro id a h
  rcases lead_get h with ⟨rfl, rfl⟩ | ⟨rfl, rfl⟩ | ⟨rfl, rfl⟩ <;> simp [mover]

/-- the hypotheses are met: IDM vehicles close up to a replayed one and never hit it, and it is where it was recorded -/
example (n : Nat) (hn : n ≤ 200) : ∃ (w' : W ℝ) (x' : Nat → ℝ × ℝ), World.run (mixed road zeroth (replayer road fun _ => cruise)) lead
    (Loop.Spec.steps (List.replicate n (1 / 5))) = .ok w' ∧ w'.time = n / 5 ∧ x' 0 = (300 + 2 * (n : ℝ), 10) ∧
    (∀ i a1, w'.getAgent i = some a1 → Rides (straightAt (0, 0) (1000, 0)) w'.time (x' i).1 (x' i).2 a1) ∧
    ∀ collide, Sound collide → Eval.collisionAgents (plug road) outline collide w' = .ok false := by
  have hsum : (List.replicate n (1 / 5 : ℝ)).sum = n / 5 := by rw [List.sum_replicate]; simp; ring
  have hn' : (n : ℝ) ≤ 200 := by exact_mod_cast hn
  have hn0 : (0 : ℝ) ≤ n := Nat.cast_nonneg n
  obtain ⟨w', x', h1, h2, h4, -, h5, -, -, -, h3⟩ := C220_replay_ahead road_straight zeroth (fun _ => cruise) (fun _ t => (300 + 10 * t, 10)) lead_wf rfl (by decide)
    (List.replicate n (1 / 5))
    (by intro d hd; rw [List.eq_of_mem_replicate hd]; norm_num) (x := fun i => if i = 0 then (300, 10) else if i = 1 then (220, 15) else (215, 14))
    (by
      intro i ag h
      rw [hsum, road_len]
      rcases lead_get h with ⟨rfl, rfl⟩ | ⟨rfl, rfl⟩ | ⟨rfl, rfl⟩
      · exact ⟨mover_rides _ _ _, by norm_num, by norm_num, by norm_num, fun hf => (by cases hf)⟩
      · exact ⟨mover_rides _ _ _, by norm_num, by norm_num, by norm_num, fun _ => ⟨by norm_num, by norm_num; linarith, by norm_num; linarith⟩⟩
      · exact ⟨mover_rides _ _ _, by norm_num, by norm_num, by norm_num, fun _ => ⟨by norm_num, by norm_num; linarith, by norm_num; linarith⟩⟩)
    (by
      intro i j ai aj hi hj hij hle
      rcases lead_get hi with ⟨rfl, rfl⟩ | ⟨rfl, rfl⟩ | ⟨rfl, rfl⟩ <;> rcases lead_get hj with ⟨rfl, rfl⟩ | ⟨rfl, rfl⟩ | ⟨rfl, rfl⟩ <;>
        first
        | exact absurd rfl hij
        | (norm_num at hle; done)
        | (unfold Loop.Spec.Clear gap mover block; norm_num))
    (by
      intro i ag hF hi
      have hi0 : i = 0 := by simpa [zeroth] using hF
      subst hi0
      refine ⟨?_, by norm_num [lead, traffic]⟩
      have := cruise_recorded
      exact ⟨⟨this.increasing, this.begun, ⟨(50, 800, 0, 0, 10), by simp [cruise], by rw [hsum]; norm_num [lead, traffic]; linarith⟩,
        fun t row a1 a2 => this.along t row a1 (a2.trans (by rw [hsum]; norm_num [lead, traffic]; linarith))⟩,
        fun t d a1 a2 a3 a4 => this.gentle t d a1 a2 a3 (a4.trans (by rw [hsum]; norm_num [lead, traffic]; linarith))⟩)
    (by
      intro i j ai aj hFi hFj hi hj
      have hi0 : i = 0 := by simpa [zeroth] using hFi
      subst hi0
      rcases lead_get hj with ⟨rfl, rfl⟩ | ⟨rfl, rfl⟩ | ⟨rfl, rfl⟩
      · cases hFj
      · norm_num
      · norm_num)
    (by
      intro i j ai aj hFi hFj hne
      have hi0 : i = 0 := by simpa [zeroth] using hFi
      have hj0 : j = 0 := by simpa [zeroth] using hFj
      exact absurd (hi0.trans hj0.symm) hne)
  have ht : w'.time = n / 5 := by rw [h2, hsum]; exact zero_add _
  refine ⟨w', x', h1, ht, ?_, fun i a1 hi => (h5 i a1 hi).1, h3⟩
  obtain ⟨a1, ha1⟩ := Option.ne_none_iff_exists'.1 (show w'.getAgent 0 ≠ none from fun e => by have := (h4 0).1 e; cases this)
  rw [(h5 0 a1 ha1).2.2.2 rfl, ht]
  simp only [Prod.mk.injEq, and_true]
  ring

end Bark.Mix
