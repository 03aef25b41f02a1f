import Verif.Spec.Later
import Verif.Props.World

/-! C215: simulations do not depend on the time they start at. -/
namespace Bark.Later
open Bark World
set_option linter.unusedSectionVars false

section
variable {K St Act B E Sh Box O : Type} [Field K] [LinearOrder K] [IsStrictOrderedRing K]
variable {P : Plug K St Act B E Sh Box O} {τ : K} {fSt : St → St} {fB : B → B} {fE : E → E}

theorem valid_later (a : Agent K St Act B E Sh) (t : K) : (agent τ fSt fB fE a).isValidAtTime (t + τ) = a.isValidAtTime t := by
  unfold Agent.isValidAtTime agent
  simp only
  congr 1
  rw [add_right_comm t τ]
  simp only [add_le_add_iff_right]

theorem current_later (a : Agent K St Act B E Sh) : (agent τ fSt fB fE a).currentState = a.currentState.map fSt := by
  unfold Agent.currentState agent
  simp only [List.getLast?_map]
  cases a.history.getLast? <;> rfl

theorem find_later (m : OMap Nat (Agent K St Act B E Sh)) (i : Nat) :
    OMap.find i (m.map (fun p => (p.1, agent τ fSt fB fE p.2))) = (OMap.find i m).map (agent τ fSt fB fE) :=
  World.find_map (fun _ => agent τ fSt fB fE) m i

theorem keys_later (m : OMap Nat (Agent K St Act B E Sh)) :
    OMap.keys (m.map (fun p => (p.1, agent τ fSt fB fE p.2))) = OMap.keys m := World.keys_map (fun _ => agent τ fSt fB fE) m

theorem insert_later (i : Nat) (a : Agent K St Act B E Sh) (m : OMap Nat (Agent K St Act B E Sh)) :
    OMap.insert i (agent τ fSt fB fE a) (m.map (fun p => (p.1, agent τ fSt fB fE p.2))) = (OMap.insert i a m).map (fun p => (p.1, agent τ fSt fB fE p.2)) := by
  induction m with
  | nil => rfl
  | cons q m ih =>
    obtain ⟨k, b⟩ := q
    simp only [List.map_cons, OMap.insert]
    split_ifs
    · rfl
    · rfl
    · simp only [List.map_cons, ih]

theorem filter_later (f g : Nat × Agent K St Act B E Sh → Bool) (m : OMap Nat (Agent K St Act B E Sh)) (h : ∀ p ∈ m, g (p.1, agent τ fSt fB fE p.2) = f p) :
    (m.map (fun p => (p.1, agent τ fSt fB fE p.2))).filter g = (m.filter f).map (fun p => (p.1, agent τ fSt fB fE p.2)) := by
  rw [List.filter_map]
  congr 1
  exact List.filter_congr h

theorem erase_later (i : Nat) (m : OMap Nat (Agent K St Act B E Sh)) :
    OMap.erase i (m.map (fun p => (p.1, agent τ fSt fB fE p.2))) = (OMap.erase i m).map (fun p => (p.1, agent τ fSt fB fE p.2)) :=
  filter_later _ _ m (fun _ _ => rfl)

theorem modify_later (i : Nat) (f g : Agent K St Act B E Sh → Agent K St Act B E Sh) (m : OMap Nat (Agent K St Act B E Sh))
    (h : ∀ a, g (agent τ fSt fB fE a) = agent τ fSt fB fE (f a)) :
    OMap.modify i g (m.map (fun p => (p.1, agent τ fSt fB fE p.2))) = (OMap.modify i f m).map (fun p => (p.1, agent τ fSt fB fE p.2)) := by
  induction m with
  | nil => rfl
  | cons q m ih =>
    obtain ⟨k, b⟩ := q
    simp only [List.map_cons, OMap.modify]
    split_ifs
    · simp only [List.map_cons, h]
    · simp only [List.map_cons, ih]

theorem rtree_later (hP : Timeless P τ fSt fB fE) (m : OMap Nat (Agent K St Act B E Sh)) :
    rtreeOf P (m.map (fun p => (p.1, agent τ fSt fB fE p.2))) = rtreeOf P m := by
  induction m with
  | nil => rfl
  | cons q m ih =>
    obtain ⟨k, b⟩ := q
    simp only [List.map_cons, rtreeOf, current_later, ih]
    cases b.currentState with
    | error f => rfl
    | ok s =>
      cases rtreeOf P m with
      | error f => rfl
      | ok r => simp only [Except.map, bind, Except.bind, hP.envelope]; rfl

theorem update_later (hP : Timeless P τ fSt fB fE) (w : World K St Act B E Sh Box O) :
    updateAgentRTree P (world τ fSt fB fE w) = (updateAgentRTree P w).map (world τ fSt fB fE) := by
  unfold updateAgentRTree
  have e : rtreeOf P (world τ fSt fB fE w).agents = rtreeOf P w.agents := rtree_later hP w.agents
  rw [e]
  cases rtreeOf P w.agents <;> rfl

theorem planOne_later (hP : Timeless P τ fSt fB fE) (dt t : K) (obs : World K St Act B E Sh Box O) (i : Nat) (a : Agent K St Act B E Sh) :
    planOne P dt (t + τ) (world τ fSt fB fE obs) i (agent τ fSt fB fE a) = agent τ fSt fB fE (planOne P dt t obs i a) := by
  unfold planOne
  simp only [agent, hP.plan, hP.status, add_right_comm t τ dt, hP.execute]
  congr 1
  split_ifs <;> rfl

theorem planBody_later (hP : Timeless P τ fSt fB fE) (dt : K) (snap w : World K St Act B E Sh Box O) (i : Nat) :
    planBody P dt (world τ fSt fB fE snap) (world τ fSt fB fE w) i = world τ fSt fB fE (planBody P dt snap w i) := by
  unfold planBody
  have e : OMap.find i (world τ fSt fB fE w).agents = (OMap.find i w.agents).map (agent τ fSt fB fE) := find_later w.agents i
  rw [e]
  cases OMap.find i w.agents with
  | none => rfl
  | some a =>
    simp only [Option.map_some]
    rw [show (agent τ fSt fB fE a).isValidAtTime (world τ fSt fB fE w).time = a.isValidAtTime w.time from valid_later a w.time]
    by_cases hv : a.isValidAtTime w.time = true
    · rw [if_pos hv, if_pos hv]
      have := modify_later i (planOne P dt w.time (P.observe w.observer snap i).2 i)
        (planOne P dt (w.time + τ) (world τ fSt fB fE (P.observe w.observer snap i).2) i) w.agents (fun b => planOne_later hP dt w.time _ i b)
      rw [show P.observe (world τ fSt fB fE w).observer (world τ fSt fB fE snap) i = _ from hP.observe w.observer snap i]
      exact congrArg (fun m => ({ world τ fSt fB fE w with observer := (P.observe w.observer snap i).1, agents := m } : World K St Act B E Sh Box O)) this
    · rw [if_neg hv, if_neg hv]

theorem fold_later (hP : Timeless P τ fSt fB fE) (dt : K) (snap : World K St Act B E Sh Box O) (order : List Nat) (w : World K St Act B E Sh Box O) :
    order.foldl (planBody P dt (world τ fSt fB fE snap)) (world τ fSt fB fE w) = world τ fSt fB fE (order.foldl (planBody P dt snap) w) := by
  induction order generalizing w with
  | nil => rfl
  | cons i order ih => rw [List.foldl_cons, List.foldl_cons, planBody_later hP, ih]

theorem plan_later (hP : Timeless P τ fSt fB fE) (dt : K) (w : World K St Act B E Sh Box O) :
    planAgents P dt (world τ fSt fB fE w) = (planAgents P dt w).map (world τ fSt fB fE) := by
  unfold planAgents planAgentsIn
  have e : OMap.keys (world τ fSt fB fE w).agents = OMap.keys w.agents := keys_later w.agents
  rw [update_later hP, e]
  cases updateAgentRTree P w with
  | error f => rfl
  | ok w1 =>
    show Except.ok _ = Except.ok _
    rw [fold_later hP]

/-- where something was executed, it is the executed state `τ` later -/
def Ready (P : Plug K St Act B E Sh Box O) (fSt : St → St) (fE : E → E) (w : World K St Act B E Sh Box O) : Prop :=
  ∀ i a, w.getAgent i = some a → executes P w.time a = true → P.executedState (fE a.exec) = fSt (P.executedState a.exec)

theorem ready_plan (hP : Timeless P τ fSt fB fE) {dt : K} {w w1 : World K St Act B E Sh Box O} (hw : Props.WellFormed w) (h : planAgents P dt w = .ok w1) :
    Ready P fSt fE w1 := by
  intro i a1 ha1 hex
  obtain ⟨ht, -, -, -, hk⟩ := planAgentsIn_rest P _ dt w w1 h
  have hmem : i ∈ OMap.keys w.agents := by
    rw [← hk]; exact OMap.find_isSome_iff.1 (by rw [show OMap.find i w1.agents = some a1 from ha1]; rfl)
  obtain ⟨a, ha⟩ := Option.isSome_iff_exists.1 (OMap.find_isSome_iff.2 hmem)
  obtain ⟨pre, post, hs⟩ := List.append_of_mem hmem
  obtain ⟨index, e⟩ := Props.C02_plan_from_snapshot P hw (List.Perm.refl _) h hs ha
  rw [ha1, Option.some.injEq] at e
  rw [ht] at hex
  subst e
  unfold executes at hex
  rw [Bool.and_eq_true, Bool.and_eq_true, decide_eq_true_eq, decide_eq_true_eq] at hex
  obtain ⟨⟨h1, h2⟩, h3⟩ := hex
  rw [← Props.planOne_eq] at h1 h2 h3 ⊢
  by_cases hv : a.isValidAtTime w.time = true
  · rw [if_pos hv] at h1 h2 h3 ⊢
    unfold planOne at h2 h3 ⊢
    dsimp only at h2 h3 ⊢
    rw [if_pos h2] at h3 ⊢
    exact hP.executed _ { w with rtree := index } i dt a.exec a.behavior h2 h3
  · rw [if_neg hv] at h1
    exact absurd h1 hv

theorem executes_later (hP : Timeless P τ fSt fB fE) (t : K) (a : Agent K St Act B E Sh) :
    executes P (t + τ) (agent τ fSt fB fE a) = executes P t a := by
  unfold executes
  rw [valid_later]
  simp only [agent, hP.status, hP.execStatus]

theorem executeOne_later (hP : Timeless P τ fSt fB fE) (t : K) (a : Agent K St Act B E Sh)
    (h : executes P t a = true → P.executedState (fE a.exec) = fSt (P.executedState a.exec)) :
    executeOne P (t + τ) (agent τ fSt fB fE a) = (executeOne P t a).map (agent τ fSt fB fE) := by
  unfold executeOne
  rw [executes_later hP]
  by_cases he : executes P t a = true
  · rw [if_pos he, if_pos he]
    have e : (agent τ fSt fB fE a).updateStateAction P = agent τ fSt fB fE (a.updateStateAction P) := by
      unfold Agent.updateStateAction agent
      simp only [hP.action, h he, List.length_append, List.length_map, List.length_singleton]
      congr 1
      split_ifs
      · simp only [List.map_tail, List.map_append, List.map_cons, List.map_nil]
      · simp only [List.map_append, List.map_cons, List.map_nil]
    rw [e, current_later]
    cases (a.updateStateAction P).currentState <;> rfl
  · rw [if_neg he, if_neg he]; rfl

theorem loop_later (hP : Timeless P τ fSt fB fE) (t : K) (m : OMap Nat (Agent K St Act B E Sh))
    (h : ∀ p ∈ m, executes P t p.2 = true → P.executedState (fE p.2.exec) = fSt (P.executedState p.2.exec)) :
    executeLoop P (t + τ) (m.map (fun p => (p.1, agent τ fSt fB fE p.2))) =
      (executeLoop P t m).map (fun m => m.map (fun p => (p.1, agent τ fSt fB fE p.2))) := by
  induction m with
  | nil => rfl
  | cons q m ih =>
    obtain ⟨k, b⟩ := q
    simp only [List.map_cons, executeLoop]
    rw [executeOne_later hP t b (h (k, b) (by simp)), ih (fun p hp => h p (by simp [hp]))]
    cases executeOne P t b with
    | error f => rfl
    | ok a =>
      cases executeLoop P t m <;> rfl

theorem hits_later (hP : Timeless P τ fSt fB fE) (hits : List (Box × Nat)) (w : World K St Act B E Sh Box O) :
    removeHits P hits (world τ fSt fB fE w) = world τ fSt fB fE (removeHits P hits w) := by
  induction hits generalizing w with
  | nil => rfl
  | cons q hits ih =>
    unfold removeHits at ih ⊢
    rw [List.foldl_cons, List.foldl_cons, ← ih]
    congr 1
    have e : (world τ fSt fB fE w).getAgent q.2 = (w.getAgent q.2).map (agent τ fSt fB fE) := find_later w.agents q.2
    rw [e]
    cases w.getAgent q.2 with
    | none => rfl
    | some a =>
      simp only [Option.map_some]
      rw [show (agent τ fSt fB fE a).isValidAtTime (world τ fSt fB fE w).time = a.isValidAtTime w.time from valid_later a w.time,
        show P.status (agent τ fSt fB fE a).behavior = P.status a.behavior from hP.status _]
      split_ifs
      · exact congrArg (fun m => ({ world τ fSt fB fE w with agents := m } : World K St Act B E Sh Box O)) (erase_later q.2 w.agents)
      · rfl

theorem expired_later (hP : Timeless P τ fSt fB fE) (w : World K St Act B E Sh Box O) :
    removeExpired P (world τ fSt fB fE w) = world τ fSt fB fE (removeExpired P w) :=
  congrArg (fun m => ({ world τ fSt fB fE w with agents := m } : World K St Act B E Sh Box O))
    (filter_later _ _ w.agents (fun p _ => by
      show (!decide (P.status (fB p.2.behavior) = .expired)) = _
      rw [hP.status]))

theorem remove_later (hP : Timeless P τ fSt fB fE) (w : World K St Act B E Sh Box O) :
    removeInvalidAgents P (world τ fSt fB fE w) = (removeInvalidAgents P w).map (world τ fSt fB fE) := by
  unfold removeInvalidAgents
  have e : removeOutMap P (world τ fSt fB fE w) = (removeOutMap P w).map (world τ fSt fB fE) := by
    unfold removeOutMap
    rw [show (world τ fSt fB fE w).removeAgents = w.removeAgents from rfl, show (world τ fSt fB fE w).mapBox = w.mapBox from rfl]
    split_ifs
    · cases w.mapBox with
      | none => rfl
      | some mb =>
        simp only [removeOutside_eq]
        exact congrArg Except.ok (hits_later hP _ w)
    · rfl
  rw [e]
  cases removeOutMap P w with
  | error f => rfl
  | ok w1 =>
    show updateAgentRTree P (removeExpired P (world τ fSt fB fE w1)) = (updateAgentRTree P (removeExpired P w1)).map _
    rw [expired_later hP, update_later hP]

theorem execute_later (hP : Timeless P τ fSt fB fE) (dt : K) {w : World K St Act B E Sh Box O} (hs : OMap.Sorted w.agents) (hr : Ready P fSt fE w) :
    execute P dt (world τ fSt fB fE w) = (execute P dt w).map (world τ fSt fB fE) := by
  unfold execute
  have e : executeLoop P (world τ fSt fB fE w).time (world τ fSt fB fE w).agents =
      (executeLoop P w.time w.agents).map (fun m => m.map (fun p => (p.1, agent τ fSt fB fE p.2))) :=
    loop_later hP w.time w.agents (fun p hp => hr p.1 p.2 (OMap.mem_find_some hs hp))
  simp only [e]
  cases executeLoop P w.time w.agents with
  | error f => rfl
  | ok m =>
    have r := remove_later hP { w with agents := m }
    show (removeInvalidAgents P (world τ fSt fB fE { w with agents := m }) >>= fun w2 => Except.ok { w2 with time := w.time + τ + dt }) =
      (removeInvalidAgents P { w with agents := m } >>= fun w2 => Except.ok { w2 with time := w.time + dt }).map _
    rw [r]
    cases removeInvalidAgents P { w with agents := m } with
    | error f => rfl
    | ok w2 =>
      simp only [Except.map, bind, Except.bind, world, add_right_comm w.time τ dt]

theorem step_later (hP : Timeless P τ fSt fB fE) (dt : K) {w : World K St Act B E Sh Box O} (hw : Props.WellFormed w) :
    step P dt (world τ fSt fB fE w) = (step P dt w).map (world τ fSt fB fE) := by
  unfold step
  rw [plan_later hP]
  cases h : planAgents P dt w with
  | error f => rfl
  | ok w1 =>
    obtain ⟨-, -, -, -, hk⟩ := planAgentsIn_rest P _ dt w w1 h
    exact execute_later hP dt (OMap.sorted_iff_keys.2 (hk ▸ OMap.sorted_iff_keys.1 hw.1)) (ready_plan hP hw h)

/-- C215: whatever is called on a world, with models that do not look at the clock as such, the same calls on the world `τ` later give the
result `τ` later. -/
theorem C215_world (hP : Timeless P τ fSt fB fE) {w : World K St Act B E Sh Box O} (hw : Props.WellFormed w) (ops : List (Op K St Act B E Sh))
    (hops : ∀ o ∈ ops, Props.GoodOp o ∧ Whole o) :
    run P (world τ fSt fB fE w) (ops.map (op τ fSt fB fE)) = (run P w ops).map (world τ fSt fB fE) := by
  induction ops generalizing w with
  | nil => rfl
  | cons o ops ih =>
    obtain ⟨hg, hwh⟩ := hops o (by simp)
    obtain ⟨w1, h1, hw1⟩ := Props.apply_wf P hw o hg
    have e : apply P (world τ fSt fB fE w) (op τ fSt fB fE o) = (apply P w o).map (world τ fSt fB fE) := by
      cases o with
      | step dt => exact step_later hP dt hw
      | planAgents dt => exact plan_later hP dt w
      | execute dt => exact absurd hwh id
      | addAgent a =>
        exact congrArg Except.ok (congrArg (fun m => ({ world τ fSt fB fE w with agents := m } : World K St Act B E Sh Box O)) (insert_later a.id a w.agents))
      | removeAgent i =>
        exact congrArg Except.ok (congrArg (fun m => ({ world τ fSt fB fE w with agents := m } : World K St Act B E Sh Box O)) (erase_later i w.agents))
      | clearAgents => rfl
      | updateRTree => exact update_later hP w
    rw [List.map_cons, run, run, e, h1]
    exact ih hw1 (fun o ho => hops o (by simp [ho]))

end
end Bark.Later
