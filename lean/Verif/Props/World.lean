import Verif.Spec.World
import Verif.Lemmas.World
import Verif.Props.Agent
import Mathlib.Tactic.Ring
import Mathlib.Tactic.Linarith

/-! C01–C02, C04–C10, C12: the world. -/
namespace Bark.Props
open Bark World
set_option linter.unusedSectionVars false
set_option linter.unnecessarySeqFocus false

variable {K St Act B E Sh Box O : Type} [Field K] [LinearOrder K] [IsStrictOrderedRing K]
variable (P : Plug K St Act B E Sh Box O)

/-! ### bridging lemmas -/

theorem active_iff (a : Agent K St Act B E Sh) (t : K) :
    a.isValidAtTime t = true ↔ Spec.Active t a := by
  unfold Agent.isValidAtTime Spec.Active dblEps; simp

theorem planOne_eq (t dt : K) (obs : World K St Act B E Sh Box O) (id : Nat)
    (a : Agent K St Act B E Sh) :
    (if a.isValidAtTime t then planOne P dt t obs id a else a) = Spec.planned P t dt obs id a := by
  unfold Spec.planned planOne
  by_cases h : a.isValidAtTime t = true
  · have h' := (active_iff a t).1 h
    unfold Spec.Active at h'
    rw [if_pos h, if_pos h']
  · have h' : ¬ Spec.Active t a := fun hc => h ((active_iff a t).2 hc)
    unfold Spec.Active at h'
    rw [if_neg h, if_neg h']

theorem updateStateAction_eq (a : Agent K St Act B E Sh) (hne : a.history ≠ []) :
    a.updateStateAction P = { a with
      history := Spec.lastN (max a.history.length a.maxHist)
        (a.history ++ [(P.executedState a.exec, P.lastAction a.behavior)]) } := by
  have hp : 1 ≤ a.history.length := List.length_pos_iff.2 hne
  unfold Agent.updateStateAction Spec.lastN
  dsimp only
  simp only [List.length_append, List.length_singleton]
  split_ifs with h
  · have : a.history.length + 1 - max a.history.length a.maxHist = 1 := by omega
    rw [this, List.drop_one]
  · have : a.history.length + 1 - max a.history.length a.maxHist = 0 := by omega
    rw [this, List.drop_zero]

theorem execOne_eq (t : K) (a : Agent K St Act B E Sh) (hne : a.history ≠ []) :
    execOne P t a = Spec.moved P t a := by
  unfold execOne Spec.moved executes
  rw [← updateStateAction_eq P a hne]
  by_cases h : a.isValidAtTime t = true
  · have h' := (active_iff a t).1 h
    unfold Spec.Active at h'
    by_cases h1 : P.status a.behavior = .valid <;> by_cases h2 : P.execStatus a.exec = .valid <;>
      simp [h, h1, h2] <;> intro hc <;> exact absurd hc (not_lt.2 (by simpa using h'))
  · have h' : ¬ Spec.Active t a := fun hc => h ((active_iff a t).2 hc)
    unfold Spec.Active at h'
    simp only [h, Bool.false_and, Bool.false_eq_true, if_false, h', false_and, if_false]

/-- worlds that occur: the registry is a map and no history is empty -/
def WellFormed (w : World K St Act B E Sh Box O) : Prop :=
  OMap.Sorted w.agents ∧ (∀ id a, OMap.find id w.agents = some a → a.history ≠ [] ∧ a.id = id) ∧
  (w.removeAgents = true → w.mapBox ≠ none)

theorem wf_hist {w : World K St Act B E Sh Box O} (hw : WellFormed w) :
    ∀ p ∈ w.agents, p.2.history ≠ [] := fun p hp =>
  (hw.2.1 p.1 p.2 (OMap.mem_find_some hw.1 hp)).1

theorem planned_rest (t dt : K) (obs : World K St Act B E Sh Box O) (id : Nat)
    (a : Agent K St Act B E Sh) : (Spec.planned P t dt obs id a).history = a.history ∧
    (Spec.planned P t dt obs id a).id = a.id ∧
    (Spec.planned P t dt obs id a).maxHist = a.maxHist ∧
    (Spec.planned P t dt obs id a).firstValid = a.firstValid ∧
    (Spec.planned P t dt obs id a).shape = a.shape := by
  unfold Spec.planned; split_ifs <;> simp

/-- planning as a total function of the snapshot (order = any enumeration of the agents) -/
theorem plan_total {w : World K St Act B E Sh Box O} (hw : WellFormed w) (order : List Nat)
    (dt : K) : ∃ w', planAgentsIn P order dt w = .ok w' := by
  obtain ⟨r, hr⟩ := rtreeOf_total P (wf_hist hw)
  unfold planAgentsIn updateAgentRTree
  rw [hr]; exact ⟨_, rfl⟩

/-! ### C02 -/

/-- **C02** (every visiting order): after planning in order `order`, the agent visited at some position
is what its own models make of the observation of the *pre-step* world (with refreshed spatial index);
other agents' decisions of the same step do not enter. The only thing that is threaded through is the
state of the shared observer. -/
theorem C02_plan_from_snapshot {w w' : World K St Act B E Sh Box O} (hw : WellFormed w)
    {dt : K} {order : List Nat} (hperm : order.Perm (OMap.keys w.agents))
    (h : planAgentsIn P order dt w = .ok w') {pre post : List Nat} {id : Nat}
    (hsplit : order = pre ++ id :: post) {a : Agent K St Act B E Sh}
    (ha : w.getAgent id = some a) :
    ∃ index, w'.getAgent id = some
      (Spec.planned P w.time dt
        (P.observe
          ((pre.filter (Spec.activeId w)).foldl (fun o j => (P.observe o { w with rtree := index } j).1) w.observer)
            { w with rtree := index } id).2 id a) := by
  have hnd : order.Nodup := hperm.nodup_iff.2 (OMap.sorted_keys_nodup hw.1)
  obtain ⟨r, _, h2⟩ := planAgentsIn_find P order dt w w' h pre post id a hsplit hnd
    (fun j hj => OMap.find_isSome_iff.2 (hperm.mem_iff.1 hj)) ha
  refine ⟨r, ?_⟩
  unfold getAgent
  rw [h2, planOne_eq]

theorem foldl_stateless (hst : Spec.Stateless P) (w : World K St Act B E Sh Box O) (l : List Nat)
    (o : O) : l.foldl (fun o j => (P.observe o w j).1) o = o := by
  induction l generalizing o with
  | nil => rfl
  | cons j l ih => simp only [List.foldl_cons]; rw [hst o w j]; exact ih o

theorem planFold_observer (hst : Spec.Stateless P) (dt : K) (snap w : World K St Act B E Sh Box O)
    (order : List Nat) : (order.foldl (planBody P dt snap) w).observer = w.observer := by
  induction order generalizing w with
  | nil => rfl
  | cons j l ih =>
    simp only [List.foldl_cons]
    rw [ih]
    unfold planBody
    split
    · rfl
    · split_ifs
      · exact hst _ _ _
      · rfl

/-- **C02** (order independence): with a stateless observer every visiting order gives the same world. -/
theorem C02_order_irrelevant (hst : Spec.Stateless P) {w : World K St Act B E Sh Box O}
    (hw : WellFormed w) (dt : K) (order : List Nat) (hperm : order.Perm (OMap.keys w.agents)) :
    planAgentsIn P order dt w = planAgents P dt w := by
  obtain ⟨w1, h1⟩ := plan_total P hw order dt
  obtain ⟨w2, h2⟩ := plan_total P hw (OMap.keys w.agents) dt
  unfold planAgents
  rw [h1, h2]
  obtain ⟨a1, a2, a3, a4, a5⟩ := planAgentsIn_rest P _ dt w w1 h1
  obtain ⟨b1, b2, b3, b4, b5⟩ := planAgentsIn_rest P _ dt w w2 h2
  have ho : ∀ order w', planAgentsIn P order dt w = .ok w' → w'.observer = w.observer := by
    intro order w' h
    unfold planAgentsIn at h
    obtain ⟨x, hx, h⟩ := Res.bind_ok h
    cases h
    obtain ⟨r, _, rfl⟩ := updateAgentRTree_ok P hx
    exact planFold_observer P hst dt _ _ order
  have hs1 : OMap.Sorted w1.agents := by rw [OMap.sorted_iff_keys, a5]; exact OMap.sorted_iff_keys.1 hw.1
  have hs2 : OMap.Sorted w2.agents := by rw [OMap.sorted_iff_keys, b5]; exact OMap.sorted_iff_keys.1 hw.1
  have hags : w1.agents = w2.agents := by
    apply OMap.ext hs1 hs2
    intro id
    cases hf : OMap.find id w.agents with
    | none =>
      have hk : id ∉ OMap.keys w.agents := fun hc => by
        have := OMap.find_isSome_iff.2 hc; rw [hf] at this; cases this
      have e1 : OMap.find id w1.agents = none := by
        rw [← Option.not_isSome_iff_eq_none, OMap.find_isSome_iff, a5]; exact hk
      have e2 : OMap.find id w2.agents = none := by
        rw [← Option.not_isSome_iff_eq_none, OMap.find_isSome_iff, b5]; exact hk
      rw [e1, e2]
    | some a =>
      have hk : id ∈ OMap.keys w.agents := OMap.find_isSome_iff.1 (by rw [hf]; rfl)
      obtain ⟨p1, q1, hs⟩ := List.append_of_mem (hperm.mem_iff.2 hk)
      obtain ⟨p2, q2, hs'⟩ := List.append_of_mem hk
      have hnd := OMap.sorted_keys_nodup hw.1
      obtain ⟨r1, hr1, e1⟩ := planAgentsIn_find P order dt w w1 h1 p1 q1 id a hs
        (hperm.nodup_iff.2 hnd) (fun j hj => OMap.find_isSome_iff.2 (hperm.mem_iff.1 hj)) hf
      obtain ⟨r2, hr2, e2⟩ := planAgentsIn_find P _ dt w w2 h2 p2 q2 id a hs'
        hnd (fun j hj => OMap.find_isSome_iff.2 hj) hf
      rw [hr1] at hr2; cases hr2
      rw [e1, e2, foldl_stateless P hst, foldl_stateless P hst]
  have hr : w1.rtree = w2.rtree := by rw [a2] at b2; exact Except.ok.inj b2
  cases w1; cases w2
  simp only at a1 a3 a4 b1 b3 b4 hags hr
  have h3 := ho _ _ h1
  have h4 := ho _ _ h2
  simp only at h3 h4
  subst a1 a3 a4 hags hr h3
  rw [b1, b3, b4, h4]

/-! ### the effect of a whole step -/

/-- Full per-agent specification of `Step` (used for C05–C07): after a step, agent `id` is present iff
it was present and its planned version is not dropped, and then it is the planned version moved. -/
theorem step_effect {w w' : World K St Act B E Sh Box O} (hw : WellFormed w) {dt : K}
    (h : step P dt w = .ok w') (id : Nat) :
    (w.getAgent id = none → w'.getAgent id = none) ∧
    (∀ a, w.getAgent id = some a → ∃ (obs : World K St Act B E Sh Box O) (s : St),
      a.currentState = .ok s ∧
      (∃ w1, planAgents P dt w = .ok w1 ∧ w1.getAgent id = some (Spec.planned P w.time dt obs id a)) ∧
      (Spec.dropped P w (P.envelope a.shape s) (Spec.planned P w.time dt obs id a) →
        w'.getAgent id = none) ∧
      (¬ Spec.dropped P w (P.envelope a.shape s) (Spec.planned P w.time dt obs id a) →
        w'.getAgent id = some (Spec.moved P w.time (Spec.planned P w.time dt obs id a)))) := by
  unfold step at h
  obtain ⟨w1, h1, h⟩ := Res.bind_ok h
  have h1' := h1
  unfold planAgents at h1
  obtain ⟨a1, a2, a3, a4, a5⟩ := planAgentsIn_rest P _ dt w w1 h1
  have hs1 : OMap.Sorted w1.agents := by rw [OMap.sorted_iff_keys, a5]; exact OMap.sorted_iff_keys.1 hw.1
  obtain ⟨_, _, _, _, _, _, _, e8⟩ := execute_ok P h
  have e8 := e8 hs1 id
  constructor
  · intro hn
    have hk : id ∉ OMap.keys w.agents := fun hc => by
      have h0 := OMap.find_isSome_iff.2 hc
      unfold getAgent at hn
      rw [hn] at h0; cases h0
    have e1 : OMap.find id w1.agents = none := by
      rw [← Option.not_isSome_iff_eq_none, OMap.find_isSome_iff, a5]; exact hk
    unfold getAgent
    rw [e8, e1]; rfl
  · intro a ha
    unfold getAgent at ha
    have hk : id ∈ OMap.keys w.agents := OMap.find_isSome_iff.1 (by rw [ha]; rfl)
    obtain ⟨p2, q2, hs'⟩ := List.append_of_mem hk
    obtain ⟨r, hr, e2⟩ := planAgentsIn_find P _ dt w w1 h1 p2 q2 id a hs'
      (OMap.sorted_keys_nodup hw.1) (fun j hj => OMap.find_isSome_iff.2 hj) ha
    rw [planOne_eq] at e2
    have hne := (hw.2.1 id a ha).1
    obtain ⟨s, hs⟩ : ∃ s, a.currentState = .ok s := by
      unfold Agent.currentState
      rw [List.getLast?_eq_getLast_of_ne_nil hne]; exact ⟨_, rfl⟩
    generalize hobs : (P.observe _ _ id).2 = obs at e2
    refine ⟨obs, s, hs, ⟨w1, h1', e2⟩, ?_⟩
    set q := Spec.planned P w.time dt obs id a with hq
    have hqr := planned_rest P w.time dt obs id a
    rw [← hq] at hqr
    have hqe : execOne P w1.time q = Spec.moved P w.time q := by
      rw [a1]; exact execOne_eq P w.time q (by rw [hqr.1]; exact hne)
    rw [e2] at e8
    simp only [Option.filter_some] at e8
    have hin : ∀ mb, ((w1.rtree.filter (fun p => !P.within p.1 mb)).any (fun p => decide (p.2 = id)) = true
        ↔ P.within (P.envelope a.shape s) mb = false) := by
      intro mb
      rw [List.any_eq_true]
      constructor
      · rintro ⟨p, hp, hp2⟩
        obtain ⟨bx, j⟩ := p
        have hj : j = id := by simpa using hp2
        subst hj
        obtain ⟨hp1, hp3⟩ := List.mem_filter.1 hp
        obtain ⟨a', s', m1, m2, m3⟩ := (rtreeOf_mem P a2 bx j).1 hp1
        have := OMap.mem_find_some hw.1 m1
        rw [ha] at this; cases this
        rw [hs] at m2; cases m2
        rw [← m3]; simpa using hp3
      · intro hwi
        refine ⟨(P.envelope a.shape s, id), List.mem_filter.2 ⟨?_, by simp [hwi]⟩, by simp⟩
        exact (rtreeOf_mem P a2 _ _).2 ⟨a, s, OMap.find_some_mem ha, hs, rfl⟩
    have hact : q.isValidAtTime w1.time = true ↔ q.firstValid ≤ w.time + 1 / 2 ^ 52 := by
      rw [active_iff, a1]; rfl
    unfold getAgent Spec.dropped
    rw [e8]
    cases hm : w.mapBox with
    | none =>
      rw [a4, hm]
      by_cases c : P.status q.behavior = .expired
      · simp [c]
      · simp [c, hqe]
    | some mb =>
      rw [a4, hm]
      simp only [a3]
      by_cases c : P.status q.behavior = .expired
      · simp [c]
      · by_cases hd : w.removeAgents = true ∧ q.firstValid ≤ w.time + 1 / 2 ^ 52 ∧
          P.status q.behavior = .valid ∧ P.within (P.envelope a.shape s) mb = false
        · obtain ⟨d1, d2, d3, d4⟩ := hd
          have d5 := (hin mb).2 d4
          have d6 := hact.2 d2
          rw [if_neg (by rw [d1, d5, d6]; simp [d3])]
          exact ⟨fun _ => rfl, fun hc => absurd (Or.inr ⟨d1, d2, d3, mb, rfl, d4⟩) hc⟩
        · have hcond : (!(w.removeAgents && ((w1.rtree.filter (fun p => !P.within p.1 mb)).any
              fun p => decide (p.2 = id)) && decide (P.status q.behavior = .valid) &&
              q.isValidAtTime w1.time) && !decide (P.status q.behavior = .expired)) = true := by
            rw [Bool.and_eq_true]
            refine ⟨?_, by simp [c]⟩
            rw [Bool.not_eq_true']
            by_contra hx
            simp only [Bool.not_eq_false, Bool.and_eq_true] at hx
            obtain ⟨⟨⟨x1, x2⟩, x3⟩, x4⟩ := hx
            exact hd ⟨x1, hact.1 x4, by simpa using x3, (hin mb).1 x2⟩
          rw [if_pos hcond]
          constructor
          · rintro (hc | ⟨d1, d2, d3, mb', hmb', d4⟩)
            · exact absurd hc c
            · cases hmb'
              exact absurd ⟨d1, d2, d3, d4⟩ hd
          · intro _; simp [hqe]

/-! ### C01 -/

theorem step_time {w w' : World K St Act B E Sh Box O} {dt : K} (h : step P dt w = .ok w') :
    w'.time = w.time + dt := by
  unfold step at h
  obtain ⟨w1, h1, h⟩ := Res.bind_ok h
  rw [(execute_ok P h).1, (planAgentsIn_rest P _ dt w w1 h1).1]

/-- **C01**: after any sequence of API calls the clock is the initial time plus the lengths of the steps
(and stand-alone executes) among them; no other call moves it. -/
theorem C01_clock {w w' : World K St Act B E Sh Box O} (ops : List (Op K St Act B E Sh))
    (h : run P w ops = .ok w') : w'.time = w.time + (ops.map Spec.duration).sum := by
  induction ops generalizing w with
  | nil => unfold run at h; cases h; simp
  | cons op ops ih =>
    unfold run at h
    obtain ⟨w1, h1, h⟩ := Res.bind_ok h
    rw [ih h, List.map_cons, List.sum_cons, ← add_assoc]
    congr 1
    cases op with
    | step dt => exact step_time P h1
    | planAgents dt => simpa [Spec.duration] using (planAgentsIn_rest P _ dt w w1 h1).1
    | execute dt => exact (execute_ok P h1).1
    | addAgent a => cases h1; simp [Spec.duration, World.addAgent]
    | removeAgent i => cases h1; simp [Spec.duration, World.removeAgentById]
    | clearAgents => cases h1; simp [Spec.duration, World.clearAgents]
    | updateRTree =>
      obtain ⟨r, _, rfl⟩ := updateAgentRTree_ok P h1
      simp [Spec.duration]

/-- **C01** (queries): predicting into the future leaves the clock of the result unchanged, too. -/
theorem C01_lookup_keeps_clock (w : World K St Act B E Sh Box O) (t : K) :
    (getWorldAtTime P w t).time = w.time := rfl

/-- what an agent's execution model holds after being asked for time `t` -/
def predictedExec (P : Plug K St Act B E Sh Box O) (a : Agent K St Act B E Sh) (t : K) : E :=
  if P.status a.behavior = .valid then P.execute a.exec t a.behavior else a.exec

/-- **C63.** The world predicted for time `t` has the same clock, spatial index and agent ids; an agent whose behaviour is
valid is at the state its execution model yields at `t` for its last plan, any other agent at its last executed state;
behaviours are as before, and the older history is kept up to the maximal length. -/
theorem C63_world_at_time (w : World K St Act B E Sh Box O) (t : K) :
    (getWorldAtTime P w t).time = w.time ∧ (getWorldAtTime P w t).rtree = w.rtree ∧
    (getWorldAtTime P w t).agents.map Prod.fst = w.agents.map Prod.fst ∧
    ∀ id a, (id, a) ∈ w.agents → ∃ a', (id, a') ∈ (getWorldAtTime P w t).agents ∧ a'.behavior = a.behavior ∧
      (0 < a.maxHist → a'.currentState = .ok (P.executedState (predictedExec P a t))) ∧
      (a.history.length < a.maxHist →
        a'.history = a.history ++ [(P.executedState (predictedExec P a t), P.lastAction a.behavior)]) ∧
      a'.shape = a.shape ∧ a'.id = a.id := by
  refine ⟨rfl, rfl, ?_, ?_⟩
  · simp [getWorldAtTime, Function.comp_def]
  · intro id a ha
    have key : ((if P.status a.behavior = .valid then { a with exec := P.execute a.exec t a.behavior } else a) :
        Agent K St Act B E Sh) = { a with exec := predictedExec P a t } := by
      unfold predictedExec
      split_ifs <;> rfl
    refine ⟨Agent.updateStateAction P { a with exec := predictedExec P a t }, ?_, rfl, ?_, ?_, rfl, rfl⟩
    · refine List.mem_map.2 ⟨(id, a), ha, ?_⟩
      simp only [key]
    · intro hm
      unfold Agent.currentState Agent.updateStateAction
      simp only
      have : (if (a.history ++ [(P.executedState (predictedExec P a t), P.lastAction a.behavior)]).length > a.maxHist then
          (a.history ++ [(P.executedState (predictedExec P a t), P.lastAction a.behavior)]).tail
          else a.history ++ [(P.executedState (predictedExec P a t), P.lastAction a.behavior)]).getLast? =
          some (P.executedState (predictedExec P a t), P.lastAction a.behavior) := by
        split_ifs with hl
        · cases hh : a.history with
          | nil => rw [hh] at hl; simp at hl; omega
          | cons x l => simp
        · simp
      rw [this]
    · intro hm
      unfold Agent.updateStateAction
      simp only
      rw [if_neg (by simp; omega)]

/-! ### C05 – C07 -/

/-- **C05**: with removal of out-of-map agents switched off, the ids after a step are exactly those
whose behaviour, after planning, is not expired; planning itself keeps the set of ids. -/
theorem C05_step_removes_expired {w w' : World K St Act B E Sh Box O} (hw : WellFormed w) {dt : K}
    (hoff : w.removeAgents = false) (h : step P dt w = .ok w') :
    ∃ w1, planAgents P dt w = .ok w1 ∧ OMap.keys w1.agents = OMap.keys w.agents ∧
    ∀ id, (w'.getAgent id).isSome ↔ ∃ a, w1.getAgent id = some a ∧ P.status a.behavior ≠ .expired := by
  obtain ⟨w1, h1, h2⟩ := Res.bind_ok h
  have hk := (planAgentsIn_rest P _ dt w w1 h1).2.2.2.2
  refine ⟨w1, h1, hk, fun id => ?_⟩
  obtain ⟨e1, e2⟩ := step_effect P hw h id
  cases hg : w.getAgent id with
  | none =>
    rw [e1 hg]
    have : w1.getAgent id = none := by
      unfold getAgent at hg ⊢
      rw [← Option.not_isSome_iff_eq_none, OMap.find_isSome_iff, hk, ← OMap.find_isSome_iff, hg]; simp
    simp [this]
  | some a =>
    obtain ⟨obs, s, _, ⟨w1', hp, hp2⟩, hd, hn⟩ := e2 a hg
    rw [h1] at hp; cases hp
    constructor
    · intro hs
      refine ⟨_, hp2, fun hc => ?_⟩
      rw [hd (Or.inl hc)] at hs; cases hs
    · rintro ⟨b, hb, hb2⟩
      rw [hp2] at hb; cases hb
      have : ¬ Spec.dropped P w (P.envelope a.shape s) (Spec.planned P w.time dt obs id a) := by
        rintro (hc | ⟨hc, _⟩)
        · exact hb2 hc
        · rw [hoff] at hc; cases hc
      rw [hn this]; rfl

/-- **C06** (inactive): an agent whose first-valid time is in the future goes through a step literally
unchanged (unless its behaviour already is expired, then it is removed). -/
theorem C06_inactive_untouched {w w' : World K St Act B E Sh Box O} (hw : WellFormed w) {dt : K}
    (h : step P dt w = .ok w') {id : Nat} {a : Agent K St Act B E Sh} (ha : w.getAgent id = some a)
    (hin : ¬ Spec.Active w.time a) :
    w'.getAgent id = if P.status a.behavior = .expired then none else some a := by
  obtain ⟨_, e2⟩ := step_effect P hw h id
  obtain ⟨obs, s, _, _, hd, hn⟩ := e2 a ha
  have hp : Spec.planned P w.time dt obs id a = a := by
    unfold Spec.planned; exact if_neg hin
  rw [hp] at hd hn
  have hm : Spec.moved P w.time a = a := by
    unfold Spec.moved; exact if_neg (fun hc => hin hc.1)
  split_ifs with hx
  · exact hd (Or.inl hx)
  · rw [hn, hm]
    rintro (hc | hc)
    · exact hx hc
    · exact hin hc.2.1

/-- **C06** (invalid): an agent whose planned behaviour or execution is not valid does not move. -/
theorem C06_invalid_does_not_move {w w1 w' : World K St Act B E Sh Box O} (hw : WellFormed w) {dt : K}
    (hp : planAgents P dt w = .ok w1) (h : step P dt w = .ok w') {id : Nat}
    {a a1 a' : Agent K St Act B E Sh} (ha : w.getAgent id = some a) (ha1 : w1.getAgent id = some a1)
    (hinv : P.status a1.behavior ≠ .valid ∨ P.execStatus a1.exec ≠ .valid)
    (ha' : w'.getAgent id = some a') : a'.history = a.history ∧ a'.currentState = a.currentState := by
  obtain ⟨_, e2⟩ := step_effect P hw h id
  obtain ⟨obs, s, _, ⟨w1', hp', hp2⟩, hd, hn⟩ := e2 a ha
  rw [hp] at hp'; cases hp'
  rw [ha1] at hp2; cases hp2
  by_cases hc : Spec.dropped P w (P.envelope a.shape s) (Spec.planned P w.time dt obs id a)
  · rw [hd hc] at ha'; cases ha'
  · rw [hn hc] at ha'; cases ha'
    have hm : Spec.moved P w.time (Spec.planned P w.time dt obs id a)
        = Spec.planned P w.time dt obs id a := by
      unfold Spec.moved
      apply if_neg
      rintro ⟨_, h2, h3⟩
      rcases hinv with hi | hi
      · exact hi h2
      · exact hi h3
    rw [hm]
    have := (planned_rest P w.time dt obs id a).1
    exact ⟨this, by unfold Agent.currentState; rw [this]⟩

/-- **C07** (what holds): an active agent with valid behaviour after planning survives a step with
removal switched on iff its box *before* the step was inside the map box. -/
theorem C07_removal_uses_old_position {w w' : World K St Act B E Sh Box O} (hw : WellFormed w)
    {dt : K} (hon : w.removeAgents = true) {mb : Box} (hmb : w.mapBox = some mb)
    (h : step P dt w = .ok w') {id : Nat} {a a1 : Agent K St Act B E Sh}
    (ha : w.getAgent id = some a) {w1 : World K St Act B E Sh Box O}
    (hp : planAgents P dt w = .ok w1) (ha1 : w1.getAgent id = some a1)
    (hact : Spec.Active w.time a) (hval : P.status a1.behavior = .valid)
    {s : St} (hs : a.currentState = .ok s) :
    (w'.getAgent id).isSome ↔ P.within (P.envelope a.shape s) mb = true := by
  obtain ⟨_, e2⟩ := step_effect P hw h id
  obtain ⟨obs, s', hs', ⟨w1', hp', hp2⟩, hd, hn⟩ := e2 a ha
  rw [hs] at hs'; cases hs'
  rw [hp] at hp'; cases hp'
  rw [ha1] at hp2; cases hp2
  have hfv := (planned_rest P w.time dt obs id a).2.2.2.1
  constructor
  · intro hsome
    by_contra hc
    rw [hd (Or.inr ⟨hon, by rw [hfv]; exact hact, hval, mb, hmb, by simpa using hc⟩)] at hsome
    cases hsome
  · intro hin
    rw [hn]
    · rfl
    · rintro (hc | ⟨_, _, _, mb', hmb', hc⟩)
      · rw [hval] at hc; cases hc
      · rw [hmb] at hmb'; cases hmb'
        rw [hin] at hc; cases hc

/-! ### C04 for whole worlds -/

/-- operations that hand in agents with at least one recorded state -/
def GoodOp : Op K St Act B E Sh → Prop
  | .addAgent a => a.history ≠ []
  | _ => True

theorem apply_wf {w : World K St Act B E Sh Box O} (hw : WellFormed w) (op : Op K St Act B E Sh)
    (hop : GoodOp op) : ∃ w', apply P w op = .ok w' ∧ WellFormed w' := by
  have plan_wf : ∀ dt w1, planAgents P dt w = .ok w1 → WellFormed w1 := by
    intro dt w1 h1
    obtain ⟨a1, a2, a3, a4, a5⟩ := planAgentsIn_rest P _ dt w w1 h1
    refine ⟨by rw [OMap.sorted_iff_keys, a5]; exact OMap.sorted_iff_keys.1 hw.1, ?_, by rw [a3, a4]; exact hw.2.2⟩
    intro id b hb
    have hk : id ∈ OMap.keys w.agents := by
      rw [← a5, ← OMap.find_isSome_iff, hb]; rfl
    obtain ⟨a, ha⟩ := Option.isSome_iff_exists.1 (OMap.find_isSome_iff.2 hk)
    obtain ⟨p2, q2, hs'⟩ := List.append_of_mem hk
    obtain ⟨r, hr, e2⟩ := planAgentsIn_find P _ dt w w1 h1 p2 q2 id a hs'
      (OMap.sorted_keys_nodup hw.1) (fun j hj => OMap.find_isSome_iff.2 hj) ha
    rw [planOne_eq, hb] at e2
    obtain ⟨n1, n2⟩ := hw.2.1 id a ha
    cases e2
    constructor
    · rw [(planned_rest P _ _ _ _ _).1]; exact n1
    · rw [(planned_rest P _ _ _ _ _).2.1]; exact n2
  have exec_wf : ∀ dt (v : World K St Act B E Sh Box O), WellFormed v → ∃ v', execute P dt v = .ok v' ∧ WellFormed v' := by
    intro dt v hv
    obtain ⟨v', h⟩ := execute_total P (dt := dt) hv.1 (wf_hist hv) hv.2.2
    obtain ⟨_, e2, e3, _, _, e6, _, e8⟩ := execute_ok P h
    refine ⟨v', h, e6 hv.1, ?_, by rw [e2, e3]; exact hv.2.2⟩
    intro id b hb
    rw [e8 hv.1 id] at hb
    cases hf : OMap.find id v.agents with
    | none => rw [hf] at hb; cases hb
    | some a =>
      rw [hf, Option.filter_some] at hb
      obtain ⟨n1, n2⟩ := hv.2.1 id a hf
      split_ifs at hb
      · cases hb
        refine ⟨execOne_ne P _ a n1, ?_⟩
        unfold execOne; split_ifs <;> exact n2
      · cases hb
  cases op with
  | step dt =>
    obtain ⟨w1, h1⟩ := plan_total P hw (OMap.keys w.agents) dt
    obtain ⟨w2, h2, h3⟩ := exec_wf dt w1 (plan_wf dt w1 h1)
    refine ⟨w2, ?_, h3⟩
    show (planAgents P dt w >>= _) = _
    unfold planAgents
    rw [h1]; exact h2
  | planAgents dt =>
    obtain ⟨w1, h1⟩ := plan_total P hw (OMap.keys w.agents) dt
    exact ⟨w1, h1, plan_wf dt w1 h1⟩
  | execute dt => exact exec_wf dt w hw
  | addAgent a =>
    refine ⟨_, rfl, OMap.sorted_insert _ _ hw.1, ?_, hw.2.2⟩
    intro id b hb
    unfold World.addAgent at hb
    rw [OMap.find_insert] at hb
    split_ifs at hb with hc
    · cases hb; exact ⟨hop, hc.symm⟩
    · exact hw.2.1 id b hb
  | removeAgent i =>
    refine ⟨_, rfl, OMap.sorted_erase _ hw.1, ?_, hw.2.2⟩
    intro id b hb
    unfold World.removeAgentById at hb
    rw [OMap.find_erase] at hb
    split_ifs at hb
    exact hw.2.1 id b hb
  | clearAgents =>
    refine ⟨_, rfl, OMap.sorted_nil, ?_, hw.2.2⟩
    intro id b hb
    simp [World.clearAgents, OMap.find] at hb
  | updateRTree =>
    obtain ⟨r, hr⟩ := rtreeOf_total P (wf_hist hw)
    refine ⟨{ w with rtree := r }, ?_, hw⟩
    show updateAgentRTree P w = _
    unfold updateAgentRTree; rw [hr]; rfl

/-- **C04** (world level): no sequence of world operations faults, and every registered agent always has
a current state — for arbitrary behaviour, execution and observer plug-ins. The only precondition is that
agents enter with a recorded state (the constructor guarantees it) and that removal is used with a map. -/
theorem C04_no_fault {w : World K St Act B E Sh Box O} (hw : WellFormed w)
    (ops : List (Op K St Act B E Sh)) (hops : ∀ op ∈ ops, GoodOp op) :
    ∃ w', run P w ops = .ok w' ∧ WellFormed w' := by
  induction ops generalizing w with
  | nil => exact ⟨w, rfl, hw⟩
  | cons op ops ih =>
    obtain ⟨w1, h1, h2⟩ := apply_wf P hw op (hops op (by simp))
    obtain ⟨w', h3, h4⟩ := ih h2 (fun o ho => hops o (by simp [ho]))
    refine ⟨w', ?_, h4⟩
    unfold run; rw [h1]; exact h3

/-! ### C08 -/

/-- only registry operations -/
def RegistryOp : Op K St Act B E Sh → Prop
  | .addAgent _ => True
  | .removeAgent _ => True
  | .clearAgents => True
  | _ => False

/-- **C08** (lookup): add / remove / clear act on the registry as on a map from ids to agents. -/
theorem C08_registry {w w' : World K St Act B E Sh Box O} (ops : List (Op K St Act B E Sh))
    (hops : ∀ op ∈ ops, RegistryOp op) (h : run P w ops = .ok w') :
    w'.getAgent = ops.foldl Spec.registry w.getAgent := by
  induction ops generalizing w with
  | nil => unfold run at h; cases h; rfl
  | cons op ops ih =>
    unfold run at h
    obtain ⟨w1, h1, h⟩ := Res.bind_ok h
    rw [ih (fun o ho => hops o (by simp [ho])) h, List.foldl_cons]
    congr 1
    funext i
    have hop := hops op (by simp)
    cases op with
    | addAgent a => cases h1; simp [Spec.registry, World.addAgent, getAgent, OMap.find_insert]
    | removeAgent j => cases h1; simp [Spec.registry, World.removeAgentById, getAgent, OMap.find_erase]
    | clearAgents => cases h1; simp [Spec.registry, World.clearAgents, getAgent, OMap.find]
    | step dt => cases hop
    | planAgents dt => cases hop
    | execute dt => cases hop
    | updateRTree => cases hop

/-- **C08** (iteration): after any sequence of operations, steps included, iteration over the agents is
in strictly increasing id order, hence without duplicates, and every agent sits under its own id. -/
theorem C08_iteration {w w' : World K St Act B E Sh Box O} (hw : WellFormed w)
    (ops : List (Op K St Act B E Sh)) (hops : ∀ op ∈ ops, GoodOp op) (h : run P w ops = .ok w') :
    (w'.agents.map Prod.fst).Pairwise (· < ·) ∧ ∀ p ∈ w'.agents, p.2.id = p.1 := by
  obtain ⟨w2, h2, h3⟩ := C04_no_fault P hw ops hops
  rw [h] at h2; cases h2
  exact ⟨OMap.sorted_iff_keys.1 h3.1, fun p hp => (h3.2.1 p.1 p.2 (OMap.mem_find_some h3.1 hp)).2⟩

/-! ### C09 -/

/-- every index entry refers to a registered agent -/
def IndexOk (w : World K St Act B E Sh Box O) : Prop :=
  ∀ p ∈ w.rtree, (w.getAgent p.2).isSome

theorem indexOk_of_fresh {w : World K St Act B E Sh Box O} (h : rtreeOf P w.agents = .ok w.rtree) :
    IndexOk w := by
  intro p hp
  have : p.2 ∈ OMap.keys w.agents := by
    rw [← rtreeOf_keys P h]; exact List.mem_map_of_mem hp
  exact OMap.find_isSome_iff.2 this

theorem apply_synced {w w' : World K St Act B E Sh Box O} {b : Bool} (op : Op K St Act B E Sh)
    (hb : b = true → IndexOk w) (h : apply P w op = .ok w') :
    Spec.synced b op = true → IndexOk w' := by
  cases op with
  | step dt =>
    intro _
    obtain ⟨w1, h1, h2⟩ := Res.bind_ok (show (planAgents P dt w >>= fun w1 => execute P dt w1) = .ok w' from h)
    exact indexOk_of_fresh P (execute_ok P h2).2.2.2.2.2.2.1
  | planAgents dt =>
    intro _
    obtain ⟨_, a2, _, _, a5⟩ := planAgentsIn_rest P _ dt w w' h
    intro p hp
    have : p.2 ∈ OMap.keys w'.agents := by
      rw [a5, ← rtreeOf_keys P a2]; exact List.mem_map_of_mem hp
    exact OMap.find_isSome_iff.2 this
  | execute dt => intro _; exact indexOk_of_fresh P (execute_ok P h).2.2.2.2.2.2.1
  | addAgent a =>
    intro hs
    cases h
    intro p hp
    have := hb hs p hp
    unfold getAgent World.addAgent at *
    dsimp only
    rw [OMap.find_insert]
    split_ifs
    · rfl
    · exact this
  | removeAgent i => intro hs; cases hs
  | clearAgents => intro hs; cases hs
  | updateRTree =>
    intro _
    obtain ⟨r, hr, rfl⟩ := updateAgentRTree_ok P h
    exact indexOk_of_fresh P hr

theorem run_synced {w w' : World K St Act B E Sh Box O} {b : Bool} (ops : List (Op K St Act B E Sh))
    (hb : b = true → IndexOk w) (h : run P w ops = .ok w') :
    ops.foldl Spec.synced b = true → IndexOk w' := by
  induction ops generalizing w b with
  | nil => unfold run at h; cases h; exact hb
  | cons op ops ih =>
    unfold run at h
    obtain ⟨w1, h1, h⟩ := Res.bind_ok h
    exact ih (apply_synced P op hb h1) h

theorem collectHits_ok (keep : Agent K St Act B E Sh → Bool) {w : World K St Act B E Sh Box O}
    (hits : List (Box × Nat)) (h : ∀ p ∈ hits, (w.getAgent p.2).isSome) :
    ∃ m, collectHits P keep w hits = .ok m ∧ OMap.Sorted m ∧ ∀ id a, OMap.find id m = some a ↔
      ((∃ b, (b, id) ∈ hits) ∧ w.getAgent id = some a ∧ keep a = true ∧
        P.status a.behavior = .valid ∧ a.isValidAtTime w.time = true) := by
  induction hits with
  | nil => exact ⟨[], rfl, OMap.sorted_nil, by simp [OMap.find]⟩
  | cons p hits ih =>
    obtain ⟨bx, j⟩ := p
    obtain ⟨m, h1, hsm, h2⟩ := ih (fun p hp => h p (by simp [hp]))
    obtain ⟨a0, ha0⟩ := Option.isSome_iff_exists.1 (h (bx, j) (by simp))
    simp only at ha0
    unfold collectHits
    simp only [ha0]
    rw [h1]
    by_cases hc : (keep a0 && decide (P.status a0.behavior = .valid) && a0.isValidAtTime w.time) = true
    · refine ⟨OMap.insert j a0 m, by
        show (if _ then _ else _) = _
        rw [if_pos hc], OMap.sorted_insert _ _ hsm, fun id a => ?_⟩
      rw [OMap.find_insert]
      simp only [Bool.and_eq_true, decide_eq_true_eq] at hc
      split_ifs with hij
      · subst hij
        constructor
        · intro e; cases e
          exact ⟨⟨bx, by simp⟩, ha0, hc.1.1, hc.1.2, hc.2⟩
        · rintro ⟨_, e, _⟩; rw [ha0] at e; exact e
      · rw [h2]
        constructor
        · rintro ⟨⟨b, hb⟩, r⟩; exact ⟨⟨b, by simp [hb]⟩, r⟩
        · rintro ⟨⟨b, hb⟩, r⟩
          refine ⟨⟨b, ?_⟩, r⟩
          rcases List.mem_cons.1 hb with e | e
          · cases e; exact absurd rfl hij
          · exact e
    · refine ⟨m, by
        show (if _ then _ else _) = _
        rw [if_neg hc], hsm, fun id a => ?_⟩
      rw [h2]
      constructor
      · rintro ⟨⟨b, hb⟩, r⟩; exact ⟨⟨b, by simp [hb]⟩, r⟩
      · rintro ⟨⟨b, hb⟩, r⟩
        refine ⟨⟨b, ?_⟩, r⟩
        rcases List.mem_cons.1 hb with e | e
        · cases e
          exfalso; apply hc
          obtain ⟨r1, r2, r3, r4⟩ := r
          rw [ha0] at r1; cases r1
          simp [r2, r3, r4]
        · exact e

/-- **C09** (safety, what holds): after any sequence of operations in which every removal is followed by
a step, plan, execute or index update, nearest-agent queries return without fault, and return only
registered, active agents with valid behaviour. `nearest` is any sub-selection of the index. -/
theorem C09_nearest_safe {w w' : World K St Act B E Sh Box O} {b : Bool}
    (ops : List (Op K St Act B E Sh)) (hb : b = true → IndexOk w) (h : run P w ops = .ok w')
    (hsync : ops.foldl Spec.synced b = true)
    (nearest : List (Box × Nat) → List (Box × Nat)) (hn : ∀ l, ∀ p ∈ nearest l, p ∈ l) :
    ∃ m, getNearestAgents P nearest w' = .ok m ∧ ∀ id a, OMap.find id m = some a ↔
      ((∃ bx, (bx, id) ∈ nearest w'.rtree) ∧ w'.getAgent id = some a ∧
        P.status a.behavior = .valid ∧ Spec.Active w'.time a) := by
  have hi := run_synced P ops hb h hsync
  obtain ⟨m, h1, _, h2⟩ := collectHits_ok P (fun _ => true) (w := w') (nearest w'.rtree)
    (fun p hp => hi p (hn _ p hp))
  exact ⟨m, h1, fun id a => by rw [h2, active_iff]; simp⟩

/-- **C09** (exactness right after an index update or a step): the polygon query returns exactly the
registered active agents with valid behaviour that collide with the polygon, provided collision implies
that the bounding boxes intersect. -/
theorem C09_polygon_exact {w : World K St Act B E Sh Box O} (hs : OMap.Sorted w.agents)
    (hfresh : rtreeOf P w.agents = .ok w.rtree)
    (boxHit : Box → Bool) (collide : Agent K St Act B E Sh → Bool)
    (hgeo : ∀ a s, a.currentState = .ok s → collide a = true → boxHit (P.envelope a.shape s) = true) :
    ∃ m, getAgentsIntersectingPolygon P boxHit collide w = .ok m ∧ ∀ id a, OMap.find id m = some a ↔
      (w.getAgent id = some a ∧ collide a = true ∧ P.status a.behavior = .valid ∧
        Spec.Active w.time a) := by
  have hi := indexOk_of_fresh P hfresh
  obtain ⟨m, h1, _, h2⟩ := collectHits_ok P collide (w := w) (w.rtree.filter (fun p => boxHit p.1))
    (fun p hp => hi p (List.mem_of_mem_filter hp))
  refine ⟨m, h1, fun id a => ?_⟩
  rw [h2, active_iff]
  constructor
  · rintro ⟨_, r⟩; exact r
  · rintro ⟨r1, r2, r3, r4⟩
    refine ⟨?_, r1, r2, r3, r4⟩
    have hk : id ∈ w.rtree.map Prod.snd := by
      rw [rtreeOf_keys P hfresh, ← OMap.find_isSome_iff]
      unfold getAgent at r1; rw [r1]; rfl
    obtain ⟨⟨bx, j⟩, hp, hj⟩ := List.mem_map.1 hk
    simp only at hj; subst hj
    obtain ⟨a', s, m1, m2, m3⟩ := (rtreeOf_mem P hfresh bx j).1 hp
    have := OMap.mem_find_some hs m1
    unfold getAgent at r1
    rw [r1] at this; cases this
    exact ⟨bx, List.mem_filter.2 ⟨hp, by rw [m3]; exact hgeo a s m2 r2⟩⟩

/-- **C09** (freshness): a step, an execute or an index update leaves the index equal to the boxes of the
current states of the registered agents, so `C09_polygon_exact` applies. -/
theorem C09_fresh_after {w w' : World K St Act B E Sh Box O} (op : Op K St Act B E Sh)
    (hop : op = .updateRTree ∨ ∃ dt, op = .step dt ∨ op = .execute dt)
    (h : apply P w op = .ok w') : rtreeOf P w'.agents = .ok w'.rtree := by
  rcases hop with rfl | ⟨dt, rfl | rfl⟩
  · obtain ⟨r, hr, rfl⟩ := updateAgentRTree_ok P h; exact hr
  · obtain ⟨w1, h1, h2⟩ := Res.bind_ok (show (planAgents P dt w >>= fun w1 => execute P dt w1) = .ok w' from h)
    exact (execute_ok P h2).2.2.2.2.2.2.1
  · exact (execute_ok P h).2.2.2.2.2.2.1

/-- **C09** (violation, general): removing an indexed agent and querying before the next index update is a
null dereference, whatever else the world contains. -/
theorem C09_stale_index_faults (w : World K St Act B E Sh Box O) (id : Nat) (bx : Box)
    (hin : (bx, id) ∈ w.rtree) :
    getNearestAgents P (fun l => l) (w.removeAgentById id) = .error .ub := by
  have hf : (w.removeAgentById id).getAgent id = none := by
    unfold getAgent removeAgentById; rw [OMap.find_erase]; simp
  unfold getNearestAgents
  show collectHits P _ _ w.rtree = _
  generalize w.removeAgentById id = v at hf
  generalize w.rtree = l at hin
  induction l with
  | nil => cases hin
  | cons p l ih =>
    unfold collectHits
    split
    · rfl
    · rename_i a ha
      rcases List.mem_cons.1 hin with e | e
      · subst e; rw [hf] at ha; cases ha
      · rw [ih e]; rfl

/-! ### C10, C12 -/

/-- **C10**: the valid agents are exactly the registered, active agents with valid behaviour, under
unchanged ids, iterated in increasing id order. -/
theorem C10_valid_agents {w : World K St Act B E Sh Box O} (hs : OMap.Sorted w.agents) :
    OMap.Sorted (getValidAgents P w) ∧ ∀ id a, OMap.find id (getValidAgents P w) = some a ↔
      (w.getAgent id = some a ∧ P.status a.behavior = .valid ∧ Spec.Active w.time a) := by
  refine ⟨OMap.sorted_filter _ hs, fun id a => ?_⟩
  unfold getValidAgents getAgent
  rw [OMap.find_filter hs, ← active_iff]
  cases hf : OMap.find id w.agents with
  | none => simp
  | some b =>
    simp only [Option.filter_some]
    by_cases h1 : P.status b.behavior = .valid <;> cases h2 : b.isValidAtTime w.time <;>
      simp [h1] <;> intro e <;> subst e <;> simp_all

/-- observed worlds for a list of existing ids, by a possibly stateful observer -/
def observeAll (w : World K St Act B E Sh Box O) : O → List Nat → List (Nat × World K St Act B E Sh Box O)
  | _, [] => []
  | o, id :: ids => (id, (P.observe o w id).2) :: observeAll w (P.observe o w id).1 ids

/-- **C12**: observing a list of ids gives one observation per registered id, in request order
(repetitions included); unknown ids contribute nothing. -/
theorem C12_observe (w : World K St Act B E Sh Box O) (ids : List Nat) (o : O) :
    (observe P w ids o).2 = observeAll P w o (ids.filter (fun i => (w.getAgent i).isSome)) := by
  induction ids generalizing o with
  | nil => rfl
  | cons i ids ih =>
    unfold observe
    cases hf : OMap.find i w.agents with
    | none =>
      rw [List.filter_cons_of_neg (by unfold getAgent; rw [hf]; simp)]
      exact ih o
    | some a =>
      rw [List.filter_cons_of_pos (by unfold getAgent; rw [hf]; rfl)]
      simp only [observeAll]
      rw [ih]

theorem C12_ids (w : World K St Act B E Sh Box O) (ids : List Nat) (o : O) :
    (observe P w ids o).2.map Prod.fst = ids.filter (fun i => (w.getAgent i).isSome) := by
  rw [C12_observe]
  generalize ids.filter _ = l
  induction l generalizing o with
  | nil => rfl
  | cons i l ih => simp only [observeAll, List.map_cons]; rw [ih]

/-! ### Concrete instances (non-vacuity) and violation witnesses -/

/-- world with agents 1 (moving by 5, inside), 2 (expired), 3 (active only at time 10); map box is "≤ 10" -/
def toyWorld (rm : Bool) : World ℚ ℚ ℚ (ℚ × BStatus) ℚ Unit ℚ Unit :=
  { agents :=
      [(1, { id := 1, behavior := (5, .valid), exec := 8, history := [(8, 0)], maxHist := 2,
             firstValid := 0, shape := () }),
       (2, { id := 2, behavior := (0, .expired), exec := 0, history := [(0, 0)], maxHist := 2,
             firstValid := 0, shape := () }),
       (3, { id := 3, behavior := (1, .valid), exec := 1, history := [(1, 0)], maxHist := 2,
             firstValid := 10, shape := () })]
    time := 0, rtree := [], removeAgents := rm, mapBox := some 10, observer := () }

theorem toyWorld_wf (rm : Bool) : WellFormed (toyWorld rm) := by
  refine ⟨by simp [OMap.Sorted, toyWorld], ?_, by simp [toyWorld]⟩
  intro id a h
  simp only [toyWorld, OMap.find] at h
  split_ifs at h with h1 h2 h3
  all_goals first | (cases h; done) | (injection h with h; subst h; simp [*])

example : Spec.Stateless toyPlug := fun _ _ _ => rfl

/-- the hypotheses of the step theorems are met: `toyWorld` is well formed, steps succeed -/
example : ∃ w', step toyPlug 1 (toyWorld true) = .ok w' := by
  obtain ⟨w', h, _⟩ := C04_no_fault toyPlug (toyWorld_wf true) [.step 1] (by simp [GoodOp])
  obtain ⟨w1, h1, h2⟩ := Res.bind_ok (show (step toyPlug 1 (toyWorld true) >>= _) = _ from h)
  exact ⟨w1, h1⟩

/-- **C07 is violated**: in a world with removal on, agent 1 (active, valid, inside the map before the
step) ends the step at 13, outside the map box "≤ 10", and is still there. -/
theorem C07_violated : ∃ w' a', step toyPlug 1 (toyWorld true) = .ok w' ∧ w'.getAgent 1 = some a' ∧
    a'.currentState = .ok (13 : ℚ) ∧ toyPlug.status a'.behavior = .valid ∧ Spec.Active w'.time a' ∧
    toyPlug.within (toyPlug.envelope a'.shape (13 : ℚ)) 10 = false := by
  obtain ⟨w', h, hwf⟩ := C04_no_fault toyPlug (toyWorld_wf true) [.step 1] (by simp [GoodOp])
  obtain ⟨w1, h1, h2⟩ := Res.bind_ok (show (step toyPlug 1 (toyWorld true) >>= _) = _ from h)
  unfold run at h2; cases h2
  obtain ⟨_, e2⟩ := step_effect toyPlug (toyWorld_wf true) h1 1
  obtain ⟨obs, s, hs, hp, hd, hn⟩ := e2 _ rfl
  have hs8 : s = 8 := by
    have : (Except.ok (8 : ℚ) : Res ℚ) = .ok s := hs
    injection this with this; exact this.symm
  subst hs8
  have hpl : Spec.planned toyPlug (toyWorld true).time 1 obs 1
      { id := 1, behavior := (5, .valid), exec := 8, history := [(8, 0)], maxHist := 2,
        firstValid := 0, shape := () } =
      { id := 1, behavior := (5, .valid), exec := 13, history := [(8, 0)], maxHist := 2,
        firstValid := 0, shape := () } := by
    unfold Spec.planned
    rw [if_pos (by simp [toyWorld])]
    simp [toyPlug]; norm_num
  rw [hpl] at hn
  have hnd : ¬ Spec.dropped toyPlug (toyWorld true) (toyPlug.envelope () (8 : ℚ))
      { id := 1, behavior := (5, .valid), exec := 13, history := [(8, 0)], maxHist := 2,
        firstValid := 0, shape := () } := by
    rintro (hc | ⟨_, _, _, mb, hmb, hc⟩)
    · cases hc
    · have : mb = 10 := by injection hmb with hmb; exact hmb.symm
      subst this
      simp [toyPlug] at hc
      norm_num at hc
  refine ⟨w', _, h1, hn hnd, ?_, ?_, ?_, ?_⟩
  · unfold Spec.moved
    rw [if_pos ⟨by simp [toyWorld], rfl, rfl⟩]
    rfl
  · unfold Spec.moved
    rw [if_pos ⟨by simp [toyWorld], rfl, rfl⟩]
    rfl
  · unfold Spec.moved
    rw [if_pos ⟨by simp [toyWorld], rfl, rfl⟩, step_time toyPlug h1]
    simp only [Spec.Active, toyWorld]; norm_num
  · simp [toyPlug]; norm_num

/-- the stale-index fault of C09 is reachable: register agent 1, update the index, remove the agent -/
example : ∃ w1 w2, run toyPlug { toyWorld false with agents := [] }
      [.addAgent ⟨1, (5, .valid), 8, [(8, 0)], 2, 0, ()⟩, .updateRTree] = .ok w1 ∧
    run toyPlug w1 [.removeAgent 1] = .ok w2 ∧
    getNearestAgents toyPlug (fun l => l) w2 = .error .ub := by
  refine ⟨_, _, rfl, rfl, ?_⟩
  exact C09_stale_index_faults toyPlug _ 1 8 (List.mem_singleton.2 rfl)

/-- and a synchronised operation list exists (so `C09_nearest_safe` applies) -/
example : ([.removeAgent 2, .step 1, .addAgent ⟨1, (5, .valid), 8, [(8, 0)], 2, 0, ()⟩] :
      List (Op ℚ ℚ ℚ (ℚ × BStatus) ℚ Unit)).foldl Spec.synced false = true := rfl

example : (observe toyPlug (toyWorld false) [3, 9, 1, 3] ()).2.map Prod.fst = [3, 1, 3] := rfl

end Bark.Props
