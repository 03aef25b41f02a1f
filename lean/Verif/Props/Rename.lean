import Verif.Spec.Rename
import Verif.Props.World
import Verif.Model.Evaluators

/-! C222: simulations do not depend on the numbers of the agents, only on their order. -/
namespace Bark.Rename
open Bark World
set_option linter.unusedSectionVars false

section
variable {K St Act B E Sh Box O : Type} [Field K] [LinearOrder K] [IsStrictOrderedRing K]
variable {P : Plug K St Act B E Sh Box O} {ρ : Nat → Nat} {fO : O → O}

theorem find_renamed (hρ : StrictMono ρ) (m : OMap Nat (Agent K St Act B E Sh)) (i : Nat) :
    OMap.find (ρ i) (m.map (fun p => (ρ p.1, agent ρ p.2))) = (OMap.find i m).map (agent ρ) := by
  induction m with
  | nil => rfl
  | cons q m ih =>
    obtain ⟨k, b⟩ := q
    simp only [List.map_cons, OMap.find, hρ.injective.eq_iff, ih]
    split_ifs <;> rfl

theorem keys_renamed (m : OMap Nat (Agent K St Act B E Sh)) :
    OMap.keys (m.map (fun p => (ρ p.1, agent ρ p.2))) = (OMap.keys m).map ρ := by
  unfold OMap.keys
  simp only [List.map_map]
  rfl

theorem insert_renamed (hρ : StrictMono ρ) (i : Nat) (a : Agent K St Act B E Sh) (m : OMap Nat (Agent K St Act B E Sh)) :
    OMap.insert (ρ i) (agent ρ a) (m.map (fun p => (ρ p.1, agent ρ p.2))) = (OMap.insert i a m).map (fun p => (ρ p.1, agent ρ p.2)) := by
  induction m with
  | nil => rfl
  | cons q m ih =>
    obtain ⟨k, b⟩ := q
    simp only [List.map_cons, OMap.insert, hρ.lt_iff_lt, hρ.injective.eq_iff]
    split_ifs
    · rfl
    · rfl
    · simp only [List.map_cons, ih]

theorem erase_renamed (hρ : StrictMono ρ) (i : Nat) (m : OMap Nat (Agent K St Act B E Sh)) :
    OMap.erase (ρ i) (m.map (fun p => (ρ p.1, agent ρ p.2))) = (OMap.erase i m).map (fun p => (ρ p.1, agent ρ p.2)) := by
  unfold OMap.erase
  rw [List.filter_map]
  congr 1
  apply List.filter_congr
  intro p _
  simp [hρ.injective.eq_iff]

theorem modify_renamed (hρ : StrictMono ρ) (i : Nat) (f g : Agent K St Act B E Sh → Agent K St Act B E Sh) (m : OMap Nat (Agent K St Act B E Sh))
    (h : ∀ a, g (agent ρ a) = agent ρ (f a)) :
    OMap.modify (ρ i) g (m.map (fun p => (ρ p.1, agent ρ p.2))) = (OMap.modify i f m).map (fun p => (ρ p.1, agent ρ p.2)) := by
  induction m with
  | nil => rfl
  | cons q m ih =>
    obtain ⟨k, b⟩ := q
    simp only [List.map_cons, OMap.modify, hρ.injective.eq_iff]
    split_ifs
    · simp only [List.map_cons, h]
    · simp only [List.map_cons, ih]

theorem rtree_renamed (m : OMap Nat (Agent K St Act B E Sh)) :
    rtreeOf P (m.map (fun p => (ρ p.1, agent ρ p.2))) = (rtreeOf P m).map (fun r => r.map (fun p => (p.1, ρ p.2))) := by
  induction m with
  | nil => rfl
  | cons q m ih =>
    obtain ⟨k, b⟩ := q
    simp only [List.map_cons, rtreeOf, show (agent ρ b).currentState = b.currentState from rfl, ih]
    cases b.currentState with
    | error f => rfl
    | ok s =>
      cases rtreeOf P m with
      | error f => rfl
      | ok r => rfl

theorem update_renamed (w : World K St Act B E Sh Box O) :
    updateAgentRTree P (world ρ fO w) = (updateAgentRTree P w).map (world ρ fO) := by
  unfold updateAgentRTree
  have e : rtreeOf P (world ρ fO w).agents = (rtreeOf P w.agents).map (fun r => r.map (fun p => (p.1, ρ p.2))) := rtree_renamed w.agents
  rw [e]
  cases rtreeOf P w.agents <;> rfl

theorem planOne_renamed (hP : Nameless P ρ fO) (dt t : K) (obs : World K St Act B E Sh Box O) (i : Nat) (a : Agent K St Act B E Sh) :
    planOne P dt t (world ρ fO obs) (ρ i) (agent ρ a) = agent ρ (planOne P dt t obs i a) := by
  unfold planOne
  simp only [agent, hP.plan]

theorem planBody_renamed (hρ : StrictMono ρ) (hP : Nameless P ρ fO) (dt : K) (snap w : World K St Act B E Sh Box O) (i : Nat) :
    planBody P dt (world ρ fO snap) (world ρ fO w) (ρ i) = world ρ fO (planBody P dt snap w i) := by
  unfold planBody
  have e : OMap.find (ρ i) (world ρ fO w).agents = (OMap.find i w.agents).map (agent ρ) := find_renamed hρ w.agents i
  rw [e]
  cases OMap.find i w.agents with
  | none => rfl
  | some a =>
    simp only [Option.map_some]
    rw [show (agent ρ a).isValidAtTime (world ρ fO w).time = a.isValidAtTime w.time from rfl]
    by_cases hv : a.isValidAtTime w.time = true
    · rw [if_pos hv, if_pos hv]
      have := modify_renamed hρ i (planOne P dt w.time (P.observe w.observer snap i).2 i)
        (planOne P dt w.time (world ρ fO (P.observe w.observer snap i).2) (ρ i)) w.agents (fun b => planOne_renamed hP dt w.time _ i b)
      rw [show P.observe (world ρ fO w).observer (world ρ fO snap) (ρ i) = _ from hP.observe w.observer snap i]
      exact congrArg (fun m => ({ world ρ fO w with observer := fO (P.observe w.observer snap i).1, agents := m } : World K St Act B E Sh Box O)) this
    · rw [if_neg hv, if_neg hv]

theorem fold_renamed (hρ : StrictMono ρ) (hP : Nameless P ρ fO) (dt : K) (snap : World K St Act B E Sh Box O) (order : List Nat) (w : World K St Act B E Sh Box O) :
    (order.map ρ).foldl (planBody P dt (world ρ fO snap)) (world ρ fO w) = world ρ fO (order.foldl (planBody P dt snap) w) := by
  induction order generalizing w with
  | nil => rfl
  | cons i order ih => rw [List.map_cons, List.foldl_cons, List.foldl_cons, planBody_renamed hρ hP, ih]

theorem plan_renamed (hρ : StrictMono ρ) (hP : Nameless P ρ fO) (dt : K) (w : World K St Act B E Sh Box O) :
    planAgents P dt (world ρ fO w) = (planAgents P dt w).map (world ρ fO) := by
  unfold planAgents planAgentsIn
  have e : OMap.keys (world ρ fO w).agents = (OMap.keys w.agents).map ρ := keys_renamed w.agents
  rw [update_renamed, e]
  cases updateAgentRTree P w with
  | error f => rfl
  | ok w1 =>
    show Except.ok _ = Except.ok _
    rw [fold_renamed hρ hP]

theorem executeOne_renamed (t : K) (a : Agent K St Act B E Sh) :
    executeOne P t (agent ρ a) = (executeOne P t a).map (agent ρ) := by
  unfold executeOne
  rw [show executes P t (agent ρ a) = executes P t a from rfl, show (agent ρ a).updateStateAction P = agent ρ (a.updateStateAction P) from rfl,
    show (agent ρ (a.updateStateAction P)).currentState = (a.updateStateAction P).currentState from rfl]
  by_cases he : executes P t a = true
  · rw [if_pos he, if_pos he]
    cases (a.updateStateAction P).currentState <;> rfl
  · rw [if_neg he, if_neg he]; rfl

theorem loop_renamed (t : K) (m : OMap Nat (Agent K St Act B E Sh)) :
    executeLoop P t (m.map (fun p => (ρ p.1, agent ρ p.2))) =
      (executeLoop P t m).map (fun m => m.map (fun p => (ρ p.1, agent ρ p.2))) := by
  induction m with
  | nil => rfl
  | cons q m ih =>
    obtain ⟨k, b⟩ := q
    simp only [List.map_cons, executeLoop]
    rw [executeOne_renamed, ih]
    cases executeOne P t b with
    | error f => rfl
    | ok a =>
      cases executeLoop P t m <;> rfl

theorem hits_renamed (hρ : StrictMono ρ) (hits : List (Box × Nat)) (w : World K St Act B E Sh Box O) :
    removeHits P (hits.map (fun p => (p.1, ρ p.2))) (world ρ fO w) = world ρ fO (removeHits P hits w) := by
  induction hits generalizing w with
  | nil => rfl
  | cons q hits ih =>
    unfold removeHits at ih ⊢
    rw [List.map_cons, List.foldl_cons, List.foldl_cons, ← ih]
    congr 1
    have e : (world ρ fO w).getAgent (ρ q.2) = (w.getAgent q.2).map (agent ρ) := find_renamed hρ w.agents q.2
    dsimp only
    rw [e]
    cases w.getAgent q.2 with
    | none => rfl
    | some a =>
      simp only [Option.map_some]
      rw [show (agent ρ a).isValidAtTime (world ρ fO w).time = a.isValidAtTime w.time from rfl,
        show P.status (agent ρ a).behavior = P.status a.behavior from rfl]
      split_ifs
      · exact congrArg (fun m => ({ world ρ fO w with agents := m } : World K St Act B E Sh Box O)) (erase_renamed hρ q.2 w.agents)
      · rfl

theorem expired_renamed (w : World K St Act B E Sh Box O) :
    removeExpired P (world ρ fO w) = world ρ fO (removeExpired P w) := by
  refine congrArg (fun m => ({ world ρ fO w with agents := m } : World K St Act B E Sh Box O)) ?_
  show (w.agents.map (fun p => (ρ p.1, agent ρ p.2))).filter _ = _
  rw [List.filter_map]
  rfl

theorem remove_renamed (hρ : StrictMono ρ) (w : World K St Act B E Sh Box O) :
    removeInvalidAgents P (world ρ fO w) = (removeInvalidAgents P w).map (world ρ fO) := by
  unfold removeInvalidAgents
  have e : removeOutMap P (world ρ fO w) = (removeOutMap P w).map (world ρ fO) := by
    unfold removeOutMap
    rw [show (world ρ fO w).removeAgents = w.removeAgents from rfl, show (world ρ fO w).mapBox = w.mapBox from rfl]
    split_ifs
    · cases w.mapBox with
      | none => rfl
      | some mb =>
        simp only [removeOutside_eq]
        refine congrArg Except.ok ?_
        rw [show (world ρ fO w).rtree = w.rtree.map (fun p => (p.1, ρ p.2)) from rfl, List.filter_map]
        exact hits_renamed hρ _ w
    · rfl
  rw [e]
  cases removeOutMap P w with
  | error f => rfl
  | ok w1 =>
    show updateAgentRTree P (removeExpired P (world ρ fO w1)) = (updateAgentRTree P (removeExpired P w1)).map _
    rw [expired_renamed, update_renamed]

theorem execute_renamed (hρ : StrictMono ρ) (dt : K) (w : World K St Act B E Sh Box O) :
    execute P dt (world ρ fO w) = (execute P dt w).map (world ρ fO) := by
  unfold execute
  have e : executeLoop P (world ρ fO w).time (world ρ fO w).agents =
      (executeLoop P w.time w.agents).map (fun m => m.map (fun p => (ρ p.1, agent ρ p.2))) :=
    loop_renamed w.time w.agents
  simp only [e]
  cases executeLoop P w.time w.agents with
  | error f => rfl
  | ok m =>
    have r := remove_renamed (P := P) (fO := fO) hρ { w with agents := m }
    show (removeInvalidAgents P (world ρ fO { w with agents := m }) >>= fun w2 => Except.ok { w2 with time := w.time + dt }) =
      (removeInvalidAgents P { w with agents := m } >>= fun w2 => Except.ok { w2 with time := w.time + dt }).map _
    rw [r]
    cases removeInvalidAgents P { w with agents := m } with
    | error f => rfl
    | ok w2 => rfl

/-- C222: give the agents of a world other numbers, in the same order. Whatever is called on the world, with models that do not depend on the numbers the same calls with
the new numbers fail alike or give the same result with the new numbers. -/
theorem C222_world (hρ : StrictMono ρ) (hP : Nameless P ρ fO) (w : World K St Act B E Sh Box O) (ops : List (Op K St Act B E Sh)) :
    run P (world ρ fO w) (ops.map (op ρ)) = (run P w ops).map (world ρ fO) := by
  induction ops generalizing w with
  | nil => rfl
  | cons o ops ih =>
    have e : apply P (world ρ fO w) (op ρ o) = (apply P w o).map (world ρ fO) := by
      cases o with
      | step dt =>
        show (planAgents P dt (world ρ fO w) >>= execute P dt) = (planAgents P dt w >>= execute P dt).map _
        rw [plan_renamed hρ hP]
        cases planAgents P dt w with
        | error f => rfl
        | ok w1 => exact execute_renamed hρ dt w1
      | planAgents dt => exact plan_renamed hρ hP dt w
      | execute dt => exact execute_renamed hρ dt w
      | addAgent a =>
        exact congrArg Except.ok (congrArg (fun m => ({ world ρ fO w with agents := m } : World K St Act B E Sh Box O)) (insert_renamed hρ a.id a w.agents))
      | removeAgent i =>
        exact congrArg Except.ok (congrArg (fun m => ({ world ρ fO w with agents := m } : World K St Act B E Sh Box O)) (erase_renamed hρ i w.agents))
      | clearAgents => rfl
      | updateRTree => exact update_renamed w
    rw [List.map_cons, run, run, e]
    cases apply P w o with
    | error f => rfl
    | ok w1 => exact ih w1

/-! ### what is asked about the world -/

theorem valid_renamed (w : World K St Act B E Sh Box O) :
    getValidAgents P (world ρ fO w) = (getValidAgents P w).map (fun p => (ρ p.1, agent ρ p.2)) := by
  unfold getValidAgents
  show (w.agents.map (fun p => (ρ p.1, agent ρ p.2))).filter _ = _
  rw [List.filter_map]
  rfl

theorem inner_renamed {Poly : Type} (hρ : StrictMono ρ) (poly : Sh → St → Poly) (collide : Poly → Poly → Bool) (i : Nat) (p1 : Poly)
    (m : List (Nat × Agent K St Act B E Sh)) (c : Bool) :
    Eval.collInner poly collide (ρ i) p1 (m.map (fun p => (ρ p.1, agent ρ p.2))) c = Eval.collInner poly collide i p1 m c := by
  induction m with
  | nil => rfl
  | cons q m ih =>
    simp only [List.map_cons, Eval.collInner, ih, ne_eq, hρ.injective.eq_iff]
    rfl

theorem outer_renamed {Poly : Type} (hρ : StrictMono ρ) (poly : Sh → St → Poly) (collide : Poly → Poly → Bool)
    (vs m : List (Nat × Agent K St Act B E Sh)) (c : Bool) :
    Eval.collOuter poly collide (vs.map (fun p => (ρ p.1, agent ρ p.2))) (m.map (fun p => (ρ p.1, agent ρ p.2))) c = Eval.collOuter poly collide vs m c := by
  induction m generalizing c with
  | nil => rfl
  | cons q m ih =>
    simp only [List.map_cons, Eval.collOuter, inner_renamed hρ, ih]
    rfl

theorem collect_renamed (hρ : StrictMono ρ) (keep : Agent K St Act B E Sh → Bool) (hk : ∀ a, keep (agent ρ a) = keep a) (w : World K St Act B E Sh Box O)
    (hits : List (Box × Nat)) :
    collectHits P keep (world ρ fO w) (hits.map (fun p => (p.1, ρ p.2))) = (collectHits P keep w hits).map (fun m => m.map (fun p => (ρ p.1, agent ρ p.2))) := by
  induction hits with
  | nil => rfl
  | cons q hits ih =>
    rw [List.map_cons]
    unfold collectHits
    dsimp only
    rw [show (world ρ fO w).getAgent (ρ q.2) = (w.getAgent q.2).map (agent ρ) from find_renamed hρ w.agents q.2, ih]
    cases w.getAgent q.2 with
    | none => rfl
    | some a =>
      simp only [Option.map_some]
      cases collectHits P keep w hits with
      | error f => rfl
      | ok m =>
        simp only [bind, Except.bind, Except.map, hk]
        rw [show (agent ρ a).isValidAtTime (world ρ fO w).time = a.isValidAtTime w.time from rfl,
          show P.status (agent ρ a).behavior = P.status a.behavior from rfl]
        split_ifs
        · simp only [insert_renamed hρ]
        · rfl

/-- C222: what is asked about the world. With the new numbers the valid agents and the agents in a region are the same ones, and the evaluator of collisions reports the
same. -/
theorem C222_queries {Poly : Type} (hρ : StrictMono ρ) (w : World K St Act B E Sh Box O) :
    (∀ i, (world ρ fO w).getAgent (ρ i) = (w.getAgent i).map (agent ρ)) ∧
    getValidAgents P (world ρ fO w) = (getValidAgents P w).map (fun p => (ρ p.1, agent ρ p.2)) ∧
    (∀ boxHit (keep : Agent K St Act B E Sh → Bool), (∀ a, keep (agent ρ a) = keep a) →
      getAgentsIntersectingPolygon P boxHit keep (world ρ fO w) = (getAgentsIntersectingPolygon P boxHit keep w).map (fun m => m.map (fun p => (ρ p.1, agent ρ p.2)))) ∧
    ∀ (poly : Sh → St → Poly) collide, Eval.collisionAgents P poly collide (world ρ fO w) = Eval.collisionAgents P poly collide w := by
  refine ⟨find_renamed hρ w.agents, valid_renamed w, fun boxHit keep hk => ?_, fun poly collide => ?_⟩
  · unfold getAgentsIntersectingPolygon
    rw [show (world ρ fO w).rtree = w.rtree.map (fun p => (p.1, ρ p.2)) from rfl, List.filter_map]
    exact collect_renamed hρ keep hk w _
  · unfold Eval.collisionAgents
    rw [valid_renamed, outer_renamed hρ]

end
end Bark.Rename
