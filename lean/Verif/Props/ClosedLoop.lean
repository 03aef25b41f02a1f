import Verif.Spec.ClosedLoop
import Verif.Props.World
import Verif.Props.StaticTraj
import Verif.Props.Interpolate
import Mathlib.Tactic.Linarith
import Mathlib.Tactic.Ring

/-!
C180: replaying recordings in a simulation.
-/
set_option linter.unusedSectionVars false
namespace Bark.Loop
open Bark World

section
variable {K V St Act B E Sh Box O : Type} [Field K] [LinearOrder K] [IsStrictOrderedRing K] [AddCommGroup V] [Module K V]
variable (P : Plug K St Act B E Sh Box O)

/-- what a step does to one agent, with what it observes -/
theorem step_agent {w w' : World K St Act B E Sh Box O} (hw : Props.WellFormed w) {dt : K} (h : step P dt w = .ok w') {id : Nat}
    {a : Agent K St Act B E Sh} (ha : w.getAgent id = some a) :
    ∃ o index s, a.currentState = .ok s ∧
      (Spec.dropped P w (P.envelope a.shape s) (Spec.planned P w.time dt (P.observe o { w with rtree := index } id).2 id a) →
        w'.getAgent id = none) ∧
      (¬Spec.dropped P w (P.envelope a.shape s) (Spec.planned P w.time dt (P.observe o { w with rtree := index } id).2 id a) →
        w'.getAgent id = some (Spec.moved P w.time (Spec.planned P w.time dt (P.observe o { w with rtree := index } id).2 id a))) := by
  obtain ⟨obs, s, hs, ⟨w1, h1, h2⟩, hd, hn⟩ := (Props.step_effect P hw h id).2 a ha
  have hk : id ∈ OMap.keys w.agents := by
    rw [← OMap.find_isSome_iff]; unfold getAgent at ha; rw [ha]; rfl
  obtain ⟨pre, post, hsp⟩ := List.append_of_mem hk
  obtain ⟨index, h3⟩ := Props.C02_plan_from_snapshot P hw (List.Perm.refl _) h1 hsp ha
  rw [h2] at h3
  have e := Option.some.inj h3
  rw [e] at hd hn
  exact ⟨_, index, s, hs, hd, hn⟩

theorem step_keeps {w w' : World K St Act B E Sh Box O} {dt : K} (h : step P dt w = .ok w') :
    w'.time = w.time + dt ∧ w'.removeAgents = w.removeAgents := by
  unfold step at h
  obtain ⟨w1, h1, h2⟩ := Res.bind_ok h
  obtain ⟨a1, -, a3, -⟩ := planAgentsIn_rest P _ dt w w1 h1
  obtain ⟨b1, b2, -⟩ := execute_ok P h2
  exact ⟨by rw [b1, a1], by rw [b2, a3]⟩

theorem moved_current (t : K) (a : Agent K St Act B E Sh) (hne : a.history ≠ [])
    (h : a.firstValid ≤ t + 1 / 2 ^ 52 ∧ P.status a.behavior = .valid ∧ P.execStatus a.exec = .valid) :
    (Spec.moved P t a).currentState = .ok (P.executedState a.exec) := by
  unfold Spec.moved
  rw [if_pos h]
  unfold Agent.currentState Spec.lastN
  dsimp only
  have hl : 0 < a.history.length := List.length_pos_iff.2 hne
  rw [List.getLast?_drop, if_neg (by simp only [List.length_append, List.length_cons, List.length_nil]; omega), List.getLast?_concat]

/-! ### planning with a recording -/

theorem findSeg_none (tm : V →ₗ[K] K) (t : K) : ∀ (l : List V) (i : Nat),
    ((∀ r ∈ l, t < tm r) ∨ (∀ r ∈ l, tm r < t) ∨ l.length < 2) → StaticTraj.findSeg tm t l i = none
  | [], i, _ => rfl
  | [a], i, _ => rfl
  | a :: b :: l, i, h => by
    unfold StaticTraj.findSeg
    rw [if_neg]
    · apply findSeg_none tm t (b :: l)
      rcases h with h | h | h
      · exact Or.inl fun r hr => h r (List.mem_cons_of_mem _ hr)
      · exact Or.inr (Or.inl fun r hr => h r (List.mem_cons_of_mem _ hr))
      · simp at h
    · rintro ⟨h1, h2⟩
      rcases h with h | h | h
      · exact absurd (h a (by simp)) (not_lt.2 h1)
      · exact absurd (h b (by simp)) (not_lt.2 h2)
      · simp at h

theorem interp_total (tm : V →ₗ[K] K) (l : List V) (hinc : Interp.Spec.Increasing tm l) (t : K) : ∃ x, StaticTraj.interp tm l t = .ok x ∧
    ((∀ r ∈ l, t < tm r) ∨ (∀ r ∈ l, tm r < t) → x = none) := by
  have hnone : ((∀ r ∈ l, t < tm r) ∨ (∀ r ∈ l, tm r < t) ∨ l.length < 2) → StaticTraj.interp tm l t = .ok none := by
    intro h
    unfold StaticTraj.interp
    rw [findSeg_none tm t l 0 h]
  by_cases hl : l.length < 2
  · exact ⟨none, hnone (Or.inr (Or.inr hl)), fun _ => rfl⟩
  · have hne : l ≠ [] := by rintro rfl; simp at hl
    obtain ⟨a, l', rfl⟩ : ∃ a l', l = a :: l' := by
      cases l with
      | nil => exact absurd rfl hne
      | cons a l' => exact ⟨a, l', rfl⟩
    obtain ⟨z, hz⟩ : ∃ z, (a :: l').getLast? = some z := ⟨_, List.getLast?_eq_some_getLast hne⟩
    have hlo : ∀ r ∈ a :: l', tm a ≤ tm r := by
      intro r hr
      rcases List.mem_cons.1 hr with rfl | hr
      · exact le_refl _
      · exact ((List.pairwise_cons.1 hinc).1 r hr).le
    have hhi : ∀ r ∈ a :: l', tm r ≤ tm z := by
      intro r hr
      obtain ⟨pre, e⟩ := List.getLast?_eq_some_iff.1 hz
      rw [e] at hr hinc
      rcases List.mem_append.1 hr with hr | hr
      · exact ((List.pairwise_append.1 hinc).2.2 r hr z (by simp)).le
      · simp at hr; rw [hr]
    by_cases h1 : t < tm a
    · have : ∀ r ∈ a :: l', t < tm r := fun r hr => lt_of_lt_of_le h1 (hlo r hr)
      exact ⟨none, hnone (Or.inl this), fun _ => rfl⟩
    by_cases h2 : tm z < t
    · have : ∀ r ∈ a :: l', tm r < t := fun r hr => lt_of_le_of_lt (hhi r hr) h2
      exact ⟨none, hnone (Or.inr (Or.inl this)), fun _ => rfl⟩
    obtain ⟨s, s1, -⟩ := StaticTraj.interp_spec tm t (a :: l') hinc rfl hz (by omega) (not_lt.1 h1) (not_lt.1 h2)
    refine ⟨_, s1, ?_⟩
    rintro (h | h)
    · exact absurd (h a (by simp)) h1
    · exact absurd (h z (List.mem_of_getLast? hz)) h2

theorem plan_ok (tm : V →ₗ[K] K) (l : List V) (hinc : Interp.Spec.Increasing tm l) (t dt : K) (hdt : 0 < dt) :
    ∃ tr, StaticTraj.plan tm l t dt = .ok tr := by
  obtain ⟨x, hx, hx0⟩ := interp_total tm l hinc t
  obtain ⟨y, hy, hy0⟩ := interp_total tm l hinc (t + dt)
  cases hl : l with
  | nil =>
    subst hl
    refine ⟨[], ?_⟩
    rfl
  | cons a l' =>
    rw [← hl]
    have hne : l ≠ [] := by rw [hl]; simp
    obtain ⟨z, hz⟩ : ∃ z, l.getLast? = some z := ⟨_, List.getLast?_eq_some_getLast hne⟩
    by_cases h1 : tm a ≤ t ∧ t + dt ≤ tm z
    · obtain ⟨s, e, h, -⟩ := StaticTraj.C19_replay tm l hinc (a := a) (z := z) (by rw [hl]; rfl) hz t dt hdt h1.1 h1.2
      exact ⟨_, h⟩
    · have hlo : ∀ r ∈ l, tm a ≤ tm r := by
        intro r hr
        rw [hl] at hr hinc
        rcases List.mem_cons.1 hr with rfl | hr
        · exact le_refl _
        · exact ((List.pairwise_cons.1 hinc).1 r hr).le
      have hhi : ∀ r ∈ l, tm r ≤ tm z := by
        intro r hr
        obtain ⟨pre, e⟩ := List.getLast?_eq_some_iff.1 hz
        rw [e] at hr hinc
        rcases List.mem_append.1 hr with hr | hr
        · exact ((List.pairwise_append.1 hinc).2.2 r hr z (by simp)).le
        · simp at hr; rw [hr]
      have hor : x = none ∨ y = none := by
        by_cases h2 : tm a ≤ t
        · right
          apply hy0; right
          have : tm z < t + dt := lt_of_not_ge fun g => h1 ⟨h2, g⟩
          exact fun r hr => lt_of_le_of_lt (hhi r hr) this
        · left
          apply hx0; left
          exact fun r hr => lt_of_lt_of_le (not_le.1 h2) (hlo r hr)
      refine ⟨[], ?_⟩
      unfold StaticTraj.plan
      rw [hx, hy]
      show StaticTraj.assemble l x y = _
      rcases hor with h | h
      · subst h; rfl
      · subst h
        cases x <;> rfl

theorem replan_ok (tm : V →ₗ[K] K) (b : Replay V) (hinc : Interp.Spec.Increasing tm b.recording) (hne : b.recording ≠ []) (t dt : K) (hdt : 0 < dt) :
    ∃ b' : Replay V, replan tm t dt (.ok b) = .ok b' ∧ b'.recording = b.recording ∧
      (b'.status = .notStarted ↔ ¬Spec.Begun tm b.recording t) ∧
      (b'.status = .expired ↔ Spec.Begun tm b.recording t ∧ Spec.Over tm b.recording (t + dt)) ∧
      (b'.status = .valid → ∃ s m e, b'.traj = s :: m ++ [e] ∧ tm s = t ∧ tm e = t + dt ∧
        Interp.Spec.OnTrajectory tm b.recording (t + dt) e) := by
  obtain ⟨st, h1, h2, h3, h4⟩ := StaticTraj.C20_status tm b.recording hne t dt
  obtain ⟨tr, htr⟩ := plan_ok tm b.recording hinc t dt hdt
  refine ⟨⟨b.recording, st, tr⟩, ?_, rfl, ?_, h3, ?_⟩
  · unfold replan; simp only [h1, htr]
  · rw [h2]
    unfold Spec.Begun
    push Not
    rfl
  · intro hv
    obtain ⟨⟨r, hr, hrt⟩, q, hq, hqt⟩ := h4.1 hv
    cases hl : b.recording with
    | nil => exact absurd hl hne
    | cons a l' =>
      obtain ⟨z, hz⟩ : ∃ z, b.recording.getLast? = some z := ⟨_, List.getLast?_eq_some_getLast hne⟩
      have ha : tm a ≤ t := by
        rw [hl] at hr hinc
        rcases List.mem_cons.1 hr with rfl | hr
        · exact hrt
        · exact le_trans ((List.pairwise_cons.1 hinc).1 r hr).le hrt
      have hz' : t + dt ≤ tm z := by
        obtain ⟨pre, e⟩ := List.getLast?_eq_some_iff.1 hz
        rw [e] at hq hinc
        rcases List.mem_append.1 hq with hq | hq
        · exact le_trans hqt.le ((List.pairwise_append.1 hinc).2.2 q hq z (by simp)).le
        · simp at hq; rw [← hq]; exact hqt.le
      obtain ⟨s, e, g1, g2, -, g4, g5, -⟩ := StaticTraj.C19_replay tm b.recording hinc (a := a) (z := z) (by rw [hl]; rfl) hz t dt hdt ha hz'
      rw [htr] at g1
      rw [← hl]
      exact ⟨s, _, e, Except.ok.inj g1, g2, g4, g5⟩

/-! ### one step -/

variable {P} {tm : V →ₗ[K] K} {behav : Res (Replay V) → B} {exec : Res (Interp.Exec V) → E} {st : V → St}

theorem replay_step (hP : Spec.Replays P tm behav exec st) {w w' : World K St Act B E Sh Box O} (hw : Props.WellFormed w) {dt : K} (hdt : 0 < dt)
    (h : step P dt w = .ok w') {id : Nat} {a : Agent K St Act B E Sh} (ha : w.getAgent id = some a) {l : List V}
    (hinc : Interp.Spec.Increasing tm l) (hne : l ≠ []) (hi : Spec.Replaying behav exec l a) :
    (∀ a', w'.getAgent id = some a' → Spec.Replaying behav exec l a' ∧ a'.firstValid = a.firstValid ∧
      (Bark.Spec.Active w.time a → Spec.Begun tm l w.time → ¬Spec.Over tm l w'.time ∧
        ∃ v, a'.currentState = .ok (st v) ∧ Interp.Spec.OnTrajectory tm l w'.time v) ∧
      (¬(Bark.Spec.Active w.time a ∧ Spec.Begun tm l w.time) → a'.currentState = a.currentState)) ∧
    (w.removeAgents = false → w'.getAgent id = none →
      Bark.Spec.Active w.time a ∧ Spec.Begun tm l w.time ∧ Spec.Over tm l w'.time) := by
  obtain ⟨o, index, s, hs, hd, hn⟩ := step_agent P hw h ha
  obtain ⟨⟨b, hb, hbl, hbs⟩, e, he, hes⟩ := hi
  have ht := (step_keeps P h).1
  subst hbl
  set obs := (P.observe o { w with rtree := index } id).2 with hobs
  have hot : obs.time = w.time := hP.clock _ _ _
  by_cases hact : Bark.Spec.Active w.time a
  · have hact' : a.firstValid ≤ w.time + 1 / 2 ^ 52 := hact
    obtain ⟨b', r1, r2, r3, r4, r5⟩ := replan_ok tm b hinc hne w.time dt hdt
    have hplan : P.plan a.behavior dt obs id = behav (.ok b') := by rw [hb, hP.plan, hot, r1]
    have hpl : Bark.Spec.planned P w.time dt obs id a =
        { a with behavior := behav (.ok b'), exec := if b'.status = .valid then P.execute a.exec (w.time + dt) (behav (.ok b')) else a.exec } := by
      unfold Bark.Spec.planned
      rw [if_pos hact', hplan, hP.status]
    rw [hpl] at hd hn
    have hhist : a.history ≠ [] := (hw.2.1 id a ha).1
    cases hst : b'.status with
    | expired =>
      have hnone := hd (Or.inl (by rw [hP.status, hst]))
      refine ⟨fun a' ha' => ?_, fun _ _ => ⟨hact, ?_⟩⟩
      · rw [hnone] at ha'; cases ha'
      · rw [ht]; exact r4.1 hst
    | notStarted =>
      have hnb := r3.1 hst
      have hnd : ¬Bark.Spec.dropped P w (P.envelope a.shape s)
          { a with behavior := behav (.ok b'), exec := if b'.status = .valid then P.execute a.exec (w.time + dt) (behav (.ok b')) else a.exec } := by
        rintro (h1 | ⟨-, -, h1, -⟩)
        · rw [hP.status, hst] at h1; cases h1
        · rw [hP.status, hst] at h1; cases h1
      have hsome := hn hnd
      have hm : Bark.Spec.moved P w.time
          { a with behavior := behav (.ok b'), exec := if b'.status = .valid then P.execute a.exec (w.time + dt) (behav (.ok b')) else a.exec } =
          { a with behavior := behav (.ok b'), exec := a.exec } := by
        unfold Bark.Spec.moved
        rw [if_neg (by rintro ⟨-, h1, -⟩; rw [hP.status, hst] at h1; cases h1), hst]
        rfl
      rw [hm] at hsome
      refine ⟨fun a' ha' => ?_, fun _ hnone => ?_⟩
      · rw [hsome] at ha'; cases ha'
        refine ⟨⟨⟨b', rfl, r2, by rw [hst]; simp⟩, e, he, hes⟩, rfl, fun _ hb => absurd hb hnb, fun _ => rfl⟩
      · rw [hsome] at hnone; cases hnone
    | valid =>
      have hbegun : Spec.Begun tm b.recording w.time := by
        by_contra hc
        rw [r3.2 hc] at hst; cases hst
      have hnover : ¬Spec.Over tm b.recording w'.time := by
        rw [ht]
        intro hc
        rw [r4.2 ⟨hbegun, hc⟩] at hst; cases hst
      obtain ⟨x, m, y, q1, q2, q3, q4⟩ := r5 hst
      have hex : Interp.execute tm e (w.time + dt) b'.traj = .ok ⟨some y, b'.traj, .valid⟩ := by
        have := Interp.C17_last_stamp tm e hes b'.traj x y (by rw [q1]; rfl) (by rw [q1, List.getLast?_append]; rfl)
          (by rw [q2, q3]; linarith)
        rw [q3] at this
        exact this
      have hexec : P.execute a.exec (w.time + dt) (behav (.ok b')) = exec (.ok ⟨some y, b'.traj, .valid⟩) := by
        rw [he, hP.execute]
        unfold Replay.last carryOut
        dsimp only
        rw [hex]
      rw [if_pos hst, hexec] at hd hn
      have hcur := moved_current P w.time { a with behavior := behav (.ok b'), exec := exec (.ok ⟨some y, b'.traj, .valid⟩) } hhist
        ⟨hact', by rw [hP.status, hst], by rw [hP.execStatus]⟩
      dsimp only at hcur
      rw [hP.executed _ y rfl] at hcur
      have hmb : Bark.Spec.moved P w.time { a with behavior := behav (.ok b'), exec := exec (.ok ⟨some y, b'.traj, .valid⟩) } =
          { a with behavior := behav (.ok b'), exec := exec (.ok ⟨some y, b'.traj, .valid⟩), history := (Bark.Spec.moved P w.time
            { a with behavior := behav (.ok b'), exec := exec (.ok ⟨some y, b'.traj, .valid⟩) }).history } := by
        unfold Bark.Spec.moved
        rw [if_pos ⟨hact', by rw [hP.status, hst], by rw [hP.execStatus]⟩]
      refine ⟨fun a' ha' => ?_, fun hoff hnone => ?_⟩
      · by_cases hc : Bark.Spec.dropped P w (P.envelope a.shape s)
            { a with behavior := behav (.ok b'), exec := exec (.ok ⟨some y, b'.traj, .valid⟩) }
        · rw [hd hc] at ha'; cases ha'
        · rw [hn hc] at ha'
          cases ha'
          refine ⟨?_, ?_, fun _ _ => ⟨hnover, y, hcur, by rw [ht]; exact q4⟩, fun hno => absurd ⟨hact, hbegun⟩ hno⟩
          · rw [hmb]
            exact ⟨⟨b', rfl, r2, by rw [hst]; simp⟩, _, rfl, rfl⟩
          · rw [hmb]
      · exfalso
        have : w'.getAgent id ≠ none := by
          rw [hn]
          · simp
          · rintro (h1 | ⟨h1, -⟩)
            · rw [hP.status, hst] at h1; cases h1
            · rw [hoff] at h1; cases h1
        exact this hnone
  · have hact' : ¬a.firstValid ≤ w.time + 1 / 2 ^ 52 := hact
    have hpl : Bark.Spec.planned P w.time dt obs id a = a := by unfold Bark.Spec.planned; rw [if_neg hact']
    have hm : Bark.Spec.moved P w.time a = a := by
      unfold Bark.Spec.moved; rw [if_neg (fun hc => hact' hc.1)]
    rw [hpl] at hd hn
    rw [hm] at hn
    have hsome := hn (by
      rintro (h1 | ⟨-, h1, -⟩)
      · rw [hb, hP.status] at h1; exact hbs h1
      · exact hact' h1)
    refine ⟨fun a' ha' => ?_, fun _ hnone => ?_⟩
    · rw [hsome] at ha'; cases ha'
      exact ⟨⟨⟨b, hb, rfl, hbs⟩, e, he, hes⟩, rfl, fun h => absurd h hact, fun _ => rfl⟩
    · rw [hsome] at hnone; cases hnone

/-! ### runs -/

theorem run_none {w w' : World K St Act B E Sh Box O} (dts : List K) (hw : Props.WellFormed w)
    (h : run P w (Spec.steps dts) = .ok w') {id : Nat} (hn : w.getAgent id = none) : w'.getAgent id = none := by
  induction dts generalizing w with
  | nil => unfold Spec.steps run at h; cases h; exact hn
  | cons dt dts ih =>
    unfold Spec.steps at h
    rw [List.map_cons] at h
    unfold run at h
    obtain ⟨w1, h1, h2⟩ := Res.bind_ok h
    obtain ⟨w1', h1', hw1⟩ := Props.apply_wf P hw (Op.step dt) trivial
    rw [h1] at h1'; cases h1'
    exact ih hw1 h2 ((Props.step_effect P hw h1 id).1 hn)

theorem timeAt_succ (t0 dt : K) (dts : List K) (k : Nat) : Spec.timeAt t0 (dt :: dts) (k + 1) = Spec.timeAt (t0 + dt) dts k := by
  unfold Spec.timeAt
  rw [List.take_succ_cons, List.sum_cons, add_assoc]

theorem timeAt_zero (t0 : K) (dts : List K) : Spec.timeAt t0 dts 0 = t0 := by
  unfold Spec.timeAt; simp

/-- C180: in every simulation (other agents arbitrary), after any steps, an agent that replays a recording with increasing time stamps is where the
recording says for the world time, from the first step on that starts after its beginning and its entry; until then it does not move; and, unless removal
of agents outside the map is on, it is gone exactly if a step was made during the recording that reaches its end -/
theorem C180_replay (hP : Spec.Replays P tm behav exec st) {w w' : World K St Act B E Sh Box O} (hw : Props.WellFormed w) (dts : List K)
    (hpos : ∀ d ∈ dts, 0 < d) (h : run P w (Spec.steps dts) = .ok w') {id : Nat} {a : Agent K St Act B E Sh} (ha : w.getAgent id = some a)
    {l : List V} (hinc : Interp.Spec.Increasing tm l) (hne : l ≠ []) (hi : Spec.Replaying behav exec l a) :
    (∀ a', w'.getAgent id = some a' →
      ((∃ k < dts.length, a.firstValid ≤ Spec.timeAt w.time dts k + 1 / 2 ^ 52 ∧ Spec.Begun tm l (Spec.timeAt w.time dts k)) →
        ∃ v, a'.currentState = .ok (st v) ∧ Interp.Spec.OnTrajectory tm l w'.time v) ∧
      ((∀ k < dts.length, ¬(a.firstValid ≤ Spec.timeAt w.time dts k + 1 / 2 ^ 52 ∧ Spec.Begun tm l (Spec.timeAt w.time dts k))) →
        a'.currentState = a.currentState)) ∧
    (w.removeAgents = false → (w'.getAgent id = none ↔ ∃ k < dts.length, a.firstValid ≤ Spec.timeAt w.time dts k + 1 / 2 ^ 52 ∧
      Spec.Begun tm l (Spec.timeAt w.time dts k) ∧ Spec.Over tm l (Spec.timeAt w.time dts (k + 1)))) := by
  induction dts generalizing w a with
  | nil =>
    unfold Spec.steps run at h; cases h
    refine ⟨fun a' ha' => ⟨?_, fun _ => ?_⟩, fun _ => ⟨fun hn => ?_, ?_⟩⟩
    · rintro ⟨k, hk, -⟩; simp at hk
    · rw [ha] at ha'; cases ha'; rfl
    · rw [ha] at hn; cases hn
    · rintro ⟨k, hk, -⟩; simp at hk
  | cons dt dts ih =>
    unfold Spec.steps at h
    rw [List.map_cons] at h
    unfold run at h
    obtain ⟨w1, h1, h2⟩ := Res.bind_ok h
    obtain ⟨w1', h1', hw1⟩ := Props.apply_wf P hw (Op.step dt) trivial
    rw [h1] at h1'; cases h1'
    have h1s : step P dt w = .ok w1 := h1
    obtain ⟨ht, hrm⟩ := step_keeps P h1s
    have hdt : 0 < dt := hpos dt (by simp)
    obtain ⟨p1, p2⟩ := replay_step hP hw hdt h1s ha hinc hne hi
    cases hg : w1.getAgent id with
    | none =>
      have hn' := run_none dts hw1 h2 hg
      refine ⟨fun a' ha' => ?_, fun hoff => ⟨fun _ => ?_, fun _ => hn'⟩⟩
      · rw [hn'] at ha'; cases ha'
      · obtain ⟨g1, g2, g3⟩ := p2 hoff hg
        refine ⟨0, by simp, ?_, ?_, ?_⟩
        · rw [timeAt_zero]; exact g1
        · rw [timeAt_zero]; exact g2
        · rw [timeAt_succ, timeAt_zero, ← ht]; exact g3
    | some a1 =>
      obtain ⟨q1, q2, q3, q4⟩ := p1 a1 hg
      obtain ⟨i1, i2⟩ := ih hw1 (fun d hd => hpos d (List.mem_cons_of_mem _ hd)) h2 hg q1
      rw [ht, q2] at i1 i2
      refine ⟨fun a' ha' => ⟨?_, fun hno => ?_⟩, fun hoff => ?_⟩
      · rintro ⟨k, hk, k1, k2⟩
        cases k with
        | succ k =>
          rw [timeAt_succ] at k1 k2
          exact (i1 a' ha').1 ⟨k, by simpa using hk, k1, k2⟩
        | zero =>
          rw [timeAt_zero] at k1 k2
          cases hd : dts with
          | nil =>
            subst hd
            change run P w1 [] = _ at h2
            unfold run at h2; cases h2
            rw [hg] at ha'; cases ha'
            exact (q3 k1 k2).2
          | cons d ds =>
            refine (i1 a' ha').1 ⟨0, by rw [hd]; simp, ?_, ?_⟩
            · rw [timeAt_zero]; linarith
            · rw [timeAt_zero]
              obtain ⟨r, hr, hrt⟩ := k2
              exact ⟨r, hr, by linarith⟩
      · have e1 : a'.currentState = a1.currentState := (i1 a' ha').2 fun k hk => by
          have := hno (k + 1) (by simpa using hk)
          rw [timeAt_succ] at this
          exact this
        rw [e1]
        apply q4
        have := hno 0 (by simp)
        rw [timeAt_zero] at this
        exact this
      · rw [i2 (by rw [hrm]; exact hoff)]
        constructor
        · rintro ⟨k, hk, k1, k2, k3⟩
          exact ⟨k + 1, by simpa using hk, by rw [timeAt_succ]; exact k1, by rw [timeAt_succ]; exact k2, by rw [timeAt_succ]; exact k3⟩
        · rintro ⟨k, hk, k1, k2, k3⟩
          cases k with
          | zero =>
            rw [timeAt_zero] at k1 k2
            rw [timeAt_succ, timeAt_zero, ← ht] at k3
            exact absurd k3 (q3 k1 k2).1
          | succ k =>
            rw [timeAt_succ] at k1 k2 k3
            exact ⟨k, by simpa using hk, k1, k2, k3⟩

/-- C180: no such simulation faults, and the clock is the sum of the steps -/
theorem C180_clock (P : Plug K St Act B E Sh Box O) {w : World K St Act B E Sh Box O} (hw : Props.WellFormed w) (dts : List K) :
    ∃ w', run P w (Spec.steps dts) = .ok w' ∧ w'.time = Spec.timeAt w.time dts dts.length := by
  obtain ⟨w', h, -⟩ := Props.C04_no_fault P hw (Spec.steps dts) (by
    intro op hop
    unfold Spec.steps at hop
    obtain ⟨d, -, rfl⟩ := List.mem_map.1 hop
    trivial)
  refine ⟨w', h, ?_⟩
  rw [Props.C01_clock P _ h]
  unfold Spec.timeAt Spec.steps
  rw [List.take_length, List.map_map]
  have key : ∀ l : List K, l.map (Bark.Spec.duration ∘ (Op.step : K → Op K St Act B E Sh)) = l := by
    intro l
    induction l with
    | nil => rfl
    | cons d ds ih => rw [List.map_cons, ih]; rfl
  rw [key]

end

/-! ### an instance: two vehicles with recordings, one of which begins later -/

/-- models of vehicles that replay recordings -/
def replayPlug : Plug ℚ (ℚ × ℚ) Unit (Res (Replay (ℚ × ℚ))) (Res (Interp.Exec (ℚ × ℚ))) Unit Unit Unit :=
  { status := fun b => match b with | .ok b => b.status | .error _ => .expired
    lastAction := fun _ => ()
    plan := fun b dt obs _ => replan (LinearMap.fst ℚ ℚ ℚ) obs.time dt b
    execute := fun e t b => carryOut (LinearMap.fst ℚ ℚ ℚ) t (Replay.last b) e
    execStatus := fun e => match e with | .ok e => e.status | .error _ => .invalid
    executedState := fun e => match e with | .ok e => e.state.getD (0, 0) | .error _ => (0, 0)
    observe := fun o w _ => (o, w)
    envelope := fun _ _ => ()
    within := fun _ _ => true }

theorem replayPlug_replays : Spec.Replays replayPlug (LinearMap.fst ℚ ℚ ℚ) (fun b => b) (fun e => e) (fun v => v) :=
  ⟨fun _ _ _ _ => rfl, fun _ => rfl, fun _ _ _ => rfl, fun _ => rfl, fun e v h => by
    show e.state.getD (0, 0) = v
    rw [h]; rfl, fun _ _ _ => rfl⟩

/-- a vehicle with a recording of (time, position) -/
def recorded (id : Nat) (l : List (ℚ × ℚ)) (s : ℚ × ℚ) :
    Agent ℚ (ℚ × ℚ) Unit (Res (Replay (ℚ × ℚ))) (Res (Interp.Exec (ℚ × ℚ))) Unit :=
  ⟨id, .ok ⟨l, .notStarted, []⟩, .ok ⟨none, [], .valid⟩, [(s, ())], 5, 0, ()⟩

def early : List (ℚ × ℚ) := [(0, 0), (1, 10), (2, 15), (4, 20)]
def late : List (ℚ × ℚ) := [(1, 3), (3, 5)]

def recordedWorld : World ℚ (ℚ × ℚ) Unit (Res (Replay (ℚ × ℚ))) (Res (Interp.Exec (ℚ × ℚ))) Unit Unit Unit :=
  { agents := [(0, recorded 0 early (0, 0)), (1, recorded 1 late (0, 3))], time := 0, rtree := [], removeAgents := false, mapBox := none, observer := () }

theorem recordedWorld_wf : Props.WellFormed recordedWorld := by
  refine ⟨by simp [OMap.Sorted, recordedWorld], ?_, by simp [recordedWorld]⟩
  intro id a h
  have hm := OMap.find_some_mem h
  simp only [recordedWorld, List.mem_cons, List.not_mem_nil, or_false, Prod.mk.injEq] at hm
  rcases hm with ⟨rfl, rfl⟩ | ⟨rfl, rfl⟩ <;> simp [recorded]

/-- the hypotheses of C180 hold for both vehicles: positive steps, increasing recordings, fresh models -/
example : ∃ w', run replayPlug recordedWorld (Spec.steps [1/2, 1, 1/2, 1]) = .ok w' ∧
    (∃ v, (∀ a', w'.getAgent 0 = some a' → a'.currentState = .ok v) ∧ Interp.Spec.OnTrajectory (LinearMap.fst ℚ ℚ ℚ) early w'.time v) ∧
    w'.getAgent 0 ≠ none ∧ w'.getAgent 1 = none := by
  obtain ⟨w', h, ht⟩ := C180_clock replayPlug recordedWorld_wf [1/2, 1, 1/2, 1]
  have hpos : ∀ d ∈ ([1/2, 1, 1/2, 1] : List ℚ), 0 < d := by decide +kernel
  have inc0 : Interp.Spec.Increasing (LinearMap.fst ℚ ℚ ℚ) early := by
    unfold Interp.Spec.Increasing early; simp; norm_num
  have inc1 : Interp.Spec.Increasing (LinearMap.fst ℚ ℚ ℚ) late := by
    unfold Interp.Spec.Increasing late; simp
  obtain ⟨a1, a2⟩ := C180_replay replayPlug_replays recordedWorld_wf [1/2, 1, 1/2, 1] hpos h (id := 0) (a := recorded 0 early (0, 0)) rfl inc0
    (by simp [early]) ⟨⟨_, rfl, rfl, by simp⟩, _, rfl, rfl⟩
  obtain ⟨b1, b2⟩ := C180_replay replayPlug_replays recordedWorld_wf [1/2, 1, 1/2, 1] hpos h (id := 1) (a := recorded 1 late (0, 3)) rfl inc1
    (by simp [late]) ⟨⟨_, rfl, rfl, by simp⟩, _, rfl, rfl⟩
  have hn1 : w'.getAgent 1 = none := (b2 rfl).2 ⟨3, by decide, by decide +kernel, ⟨(1, 3), by simp [late], by decide +kernel⟩, by
    intro r hr
    simp only [late, List.mem_cons, List.not_mem_nil, or_false] at hr
    rcases hr with rfl | rfl <;> decide +kernel⟩
  have hn0 : w'.getAgent 0 ≠ none := by
    rw [Ne, a2 rfl]
    rintro ⟨k, hk, -, -, hover⟩
    have h4 := hover (4, 20) (by simp [early])
    have : k = 0 ∨ k = 1 ∨ k = 2 ∨ k = 3 := by simp at hk; omega
    revert h4
    rcases this with rfl | rfl | rfl | rfl <;> decide +kernel
  cases hg : w'.getAgent 0 with
  | none => exact absurd hg hn0
  | some a' =>
    obtain ⟨v, v1, v2⟩ := (a1 a' hg).1 ⟨0, by decide, by decide +kernel, ⟨(0, 0), by simp [early], by decide +kernel⟩⟩
    refine ⟨w', h, ⟨v, fun a'' ha => ?_, v2⟩, hn0, hn1⟩
    rw [hg] at ha
    cases ha
    exact v1

end Bark.Loop
