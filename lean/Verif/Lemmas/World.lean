import Verif.Spec.World

/-! Helper lemmas about the world model. -/
namespace Bark
set_option linter.unusedSectionVars false
variable {K St Act B E Sh Box O : Type} [Field K] [LinearOrder K] [IsStrictOrderedRing K]
variable (P : Plug K St Act B E Sh Box O)

theorem Res.ok_bind {α β : Type} (a : α) (f : α → Res β) : ((Except.ok a : Res α) >>= f) = f a := rfl

theorem Res.bind_ok {α β : Type} {x : Res α} {f : α → Res β} {b : β}
    (h : (x >>= f) = .ok b) : ∃ a, x = .ok a ∧ f a = .ok b := by
  cases x with
  | error e => cases h
  | ok a => exact ⟨a, rfl, h⟩

namespace World

theorem updateAgentRTree_ok {w w' : World K St Act B E Sh Box O}
    (h : updateAgentRTree P w = .ok w') : ∃ r, rtreeOf P w.agents = .ok r ∧ w' = { w with rtree := r } := by
  unfold updateAgentRTree at h
  obtain ⟨r, hr, h2⟩ := Res.bind_ok h
  cases h2
  exact ⟨r, hr, rfl⟩

theorem rtreeOf_keys {m : OMap Nat (Agent K St Act B E Sh)} {r : List (Box × Nat)}
    (h : rtreeOf P m = .ok r) : r.map Prod.snd = OMap.keys m := by
  induction m generalizing r with
  | nil => unfold rtreeOf at h; cases h; rfl
  | cons q m ih =>
    obtain ⟨id, a⟩ := q
    unfold rtreeOf at h
    obtain ⟨s, _, h⟩ := Res.bind_ok h
    obtain ⟨r', hr, h⟩ := Res.bind_ok h
    cases h
    simp only [List.map_cons, OMap.keys]
    rw [ih hr]; rfl

/-- entries of the index are exactly the boxes of the current states -/
theorem rtreeOf_mem {m : OMap Nat (Agent K St Act B E Sh)} {r : List (Box × Nat)}
    (h : rtreeOf P m = .ok r) (b : Box) (id : Nat) :
    (b, id) ∈ r ↔ ∃ a s, (id, a) ∈ m ∧ a.currentState = .ok s ∧ b = P.envelope a.shape s := by
  induction m generalizing r with
  | nil => unfold rtreeOf at h; cases h; simp
  | cons q m ih =>
    obtain ⟨id', a⟩ := q
    unfold rtreeOf at h
    obtain ⟨s, hs, h⟩ := Res.bind_ok h
    obtain ⟨r', hr, h⟩ := Res.bind_ok h
    cases h
    simp only [List.mem_cons, ih hr, Prod.mk.injEq]
    constructor
    · rintro (⟨h1, h2⟩ | ⟨a', s', h1, h2, h3⟩)
      · exact ⟨a, s, Or.inl ⟨h2, rfl⟩, hs, h1⟩
      · exact ⟨a', s', Or.inr h1, h2, h3⟩
    · rintro ⟨a', s', h1 | h1, h2, h3⟩
      · obtain ⟨e1, e2⟩ := h1
        subst e1; subst e2
        rw [hs] at h2; cases h2
        exact Or.inl ⟨h3, rfl⟩
      · exact Or.inr ⟨a', s', h1, h2, h3⟩

theorem rtreeOf_total {m : OMap Nat (Agent K St Act B E Sh)}
    (h : ∀ p ∈ m, p.2.history ≠ []) : ∃ r, rtreeOf P m = .ok r := by
  induction m with
  | nil => exact ⟨[], rfl⟩
  | cons q m ih =>
    obtain ⟨id, a⟩ := q
    obtain ⟨r, hr⟩ := ih (fun p hp => h p (List.mem_cons_of_mem _ hp))
    have ha : a.history ≠ [] := h (id, a) (by simp)
    obtain ⟨s, hs⟩ : ∃ s, a.currentState = .ok s := by
      unfold Agent.currentState
      rw [List.getLast?_eq_getLast_of_ne_nil ha]; exact ⟨_, rfl⟩
    exact ⟨_, by unfold rtreeOf; rw [hs, hr]; rfl⟩

/-! ### planning loop -/

theorem planBody_agents_other (dt : K) (snap w : World K St Act B E Sh Box O) (id id' : Nat)
    (h : id' ≠ id) :
    OMap.find id' (planBody P dt snap w id).agents = OMap.find id' w.agents := by
  unfold planBody
  split
  · rfl
  · split_ifs
    · simp [OMap.find_modify, h]
    · rfl

theorem planBody_time (dt : K) (snap w : World K St Act B E Sh Box O) (id : Nat) :
    (planBody P dt snap w id).time = w.time := by
  unfold planBody; split
  · rfl
  · split_ifs <;> rfl

theorem planBody_rest (dt : K) (snap w : World K St Act B E Sh Box O) (id : Nat) :
    (planBody P dt snap w id).rtree = w.rtree ∧
    (planBody P dt snap w id).removeAgents = w.removeAgents ∧
    (planBody P dt snap w id).mapBox = w.mapBox ∧
    OMap.keys (planBody P dt snap w id).agents = OMap.keys w.agents := by
  unfold planBody; split
  · simp
  · split_ifs <;> simp [OMap.keys_modify]

theorem planFold_rest (dt : K) (snap : World K St Act B E Sh Box O) (order : List Nat)
    (w : World K St Act B E Sh Box O) :
    (order.foldl (planBody P dt snap) w).time = w.time ∧
    (order.foldl (planBody P dt snap) w).rtree = w.rtree ∧
    (order.foldl (planBody P dt snap) w).removeAgents = w.removeAgents ∧
    (order.foldl (planBody P dt snap) w).mapBox = w.mapBox ∧
    OMap.keys (order.foldl (planBody P dt snap) w).agents = OMap.keys w.agents := by
  induction order generalizing w with
  | nil => simp
  | cons id order ih =>
    simp only [List.foldl_cons]
    obtain ⟨h1, h2, h3, h4, h5⟩ := ih (planBody P dt snap w id)
    obtain ⟨g2, g3, g4, g5⟩ := planBody_rest P dt snap w id
    have g1 := planBody_time P dt snap w id
    exact ⟨h1.trans g1, h2.trans g2, h3.trans g3, h4.trans g4, h5.trans g5⟩

theorem planFold_other (dt : K) (snap : World K St Act B E Sh Box O) (order : List Nat)
    (w : World K St Act B E Sh Box O) (id : Nat) (h : id ∉ order) :
    OMap.find id (order.foldl (planBody P dt snap) w).agents = OMap.find id w.agents := by
  induction order generalizing w with
  | nil => rfl
  | cons j order ih =>
    simp only [List.mem_cons, not_or] at h
    simp only [List.foldl_cons]
    rw [ih _ h.2, planBody_agents_other P dt snap w j id h.1]

/-- the observer state after it has served the active agents of `ids` -/
theorem planFold_at (dt : K) (snap : World K St Act B E Sh Box O) (pre post : List Nat) (id : Nat)
    (w : World K St Act B E Sh Box O) (a : Agent K St Act B E Sh)
    (hpre : id ∉ pre) (hpost : id ∉ post) (hnd : pre.Nodup)
    (hreg : ∀ j ∈ pre, (OMap.find j w.agents).isSome)
    (hf : OMap.find id w.agents = some a) :
    OMap.find id ((pre ++ id :: post).foldl (planBody P dt snap) w).agents =
      some (if a.isValidAtTime w.time then
        planOne P dt w.time (P.observe
          ((pre.filter (Spec.activeId w)).foldl (fun o j => (P.observe o snap j).1) w.observer) snap id).2 id a
        else a) := by
  induction pre generalizing w with
  | nil =>
    simp only [List.nil_append, List.foldl_cons, List.filter_nil, List.foldl_nil]
    rw [planFold_other P dt snap post _ id hpost]
    unfold planBody
    rw [hf]
    by_cases hv : a.isValidAtTime w.time = true
    · simp [hv, OMap.find_modify, hf]
    · simp [hv, hf]
  | cons j pre ih =>
    simp only [List.mem_cons, not_or] at hpre
    rw [List.nodup_cons] at hnd
    simp only [List.cons_append, List.foldl_cons]
    have hj : (OMap.find j w.agents).isSome := hreg j (by simp)
    obtain ⟨b, hb⟩ := Option.isSome_iff_exists.1 hj
    rw [ih (planBody P dt snap w j) hpre.2 hnd.2
      (by
        intro k hk
        by_cases hkj : k = j
        · exact absurd (hkj ▸ hk) hnd.1
        · rw [planBody_agents_other P dt snap w j k hkj]; exact hreg k (by simp [hk]))
      (by rw [planBody_agents_other P dt snap w j id hpre.1]; exact hf)]
    rw [planBody_time]
    have hfil : pre.filter (Spec.activeId (planBody P dt snap w j)) = pre.filter (Spec.activeId w) := by
      apply List.filter_congr
      intro k hk
      have hkj : k ≠ j := fun h => hnd.1 (h ▸ hk)
      unfold Spec.activeId getAgent
      rw [planBody_agents_other P dt snap w j k hkj, planBody_time]
    rw [hfil]
    by_cases hv : b.isValidAtTime w.time = true
    · have h1 : (planBody P dt snap w j).observer = (P.observe w.observer snap j).1 := by
        unfold planBody; rw [hb]; simp [hv]
      rw [List.filter_cons_of_pos (by unfold Spec.activeId getAgent; rw [hb]; exact hv), List.foldl_cons, h1]
    · have h1 : (planBody P dt snap w j).observer = w.observer := by
        unfold planBody; rw [hb]; simp [hv]
      rw [List.filter_cons_of_neg (by unfold Spec.activeId getAgent; rw [hb]; exact hv), h1]

/-! ### execute -/

/-- effect of the execute loop on one agent -/
def execOne (t : K) (a : Agent K St Act B E Sh) : Agent K St Act B E Sh :=
  if executes P t a then a.updateStateAction P else a

theorem executeLoop_ok {t : K} {m m' : OMap Nat (Agent K St Act B E Sh)}
    (h : executeLoop P t m = .ok m') : m' = m.map (fun p => (p.1, execOne P t p.2)) := by
  induction m generalizing m' with
  | nil => unfold executeLoop at h; cases h; rfl
  | cons q m ih =>
    obtain ⟨id, a⟩ := q
    unfold executeLoop at h
    obtain ⟨a', h1, h⟩ := Res.bind_ok h
    obtain ⟨m1, h2, h⟩ := Res.bind_ok h
    cases h
    rw [ih h2]
    simp only [List.map_cons, execOne]
    unfold executeOne at h1
    split_ifs at h1 ⊢ with hv
    · split at h1
      · cases h1; rfl
      · cases h1
    · cases h1; rfl

theorem updateStateAction_ne (a : Agent K St Act B E Sh) (h : a.history ≠ []) :
    (a.updateStateAction P).history ≠ [] := by
  unfold Agent.updateStateAction
  have : 1 ≤ a.history.length := List.length_pos_iff.2 h
  dsimp only
  split_ifs
  · rw [List.tail_append_of_ne_nil h]; simp
  · simp

theorem execOne_ne (t : K) (a : Agent K St Act B E Sh) (h : a.history ≠ []) :
    (execOne P t a).history ≠ [] := by
  unfold execOne; split_ifs
  · exact updateStateAction_ne P a h
  · exact h

theorem executeLoop_total {t : K} {m : OMap Nat (Agent K St Act B E Sh)}
    (h : ∀ p ∈ m, p.2.history ≠ []) :
    executeLoop P t m = .ok (m.map (fun p => (p.1, execOne P t p.2))) := by
  induction m with
  | nil => rfl
  | cons q m ih =>
    obtain ⟨id, a⟩ := q
    have ha : a.history ≠ [] := h (id, a) (by simp)
    unfold executeLoop
    rw [ih (fun p hp => h p (List.mem_cons_of_mem _ hp))]
    simp only [List.map_cons, execOne]
    by_cases hv : executes P t a = true
    · have := updateStateAction_ne P a ha
      have hs : ∃ s, (a.updateStateAction P).currentState = .ok s := by
        unfold Agent.currentState
        rw [List.getLast?_eq_getLast_of_ne_nil this]; exact ⟨_, rfl⟩
      obtain ⟨s, hs⟩ := hs
      have h1 : executeOne P t a = .ok (a.updateStateAction P) := by
        unfold executeOne; rw [if_pos hv, hs]
      rw [h1, if_pos hv]; rfl
    · have h1 : executeOne P t a = .ok a := by
        unfold executeOne; rw [if_neg hv]
      rw [h1, if_neg hv]; rfl

theorem find_map {β : Type} (f : Nat → Agent K St Act B E Sh → β)
    (m : OMap Nat (Agent K St Act B E Sh)) (id : Nat) :
    OMap.find id (m.map (fun p => (p.1, f p.1 p.2))) = (OMap.find id m).map (f id) := by
  induction m with
  | nil => rfl
  | cons q m ih =>
    obtain ⟨k, a⟩ := q
    simp only [List.map_cons, OMap.find]
    by_cases h : id = k
    · subst h; simp
    · simp only [if_neg h]; exact ih

theorem keys_map {β : Type} (f : Nat → Agent K St Act B E Sh → β)
    (m : OMap Nat (Agent K St Act B E Sh)) :
    OMap.keys (m.map (fun p => (p.1, f p.1 p.2))) = OMap.keys m := by
  unfold OMap.keys; rw [List.map_map]; rfl

/-- `removeOutside` on a general hit list -/
def removeHits (hits : List (Box × Nat)) (w : World K St Act B E Sh Box O) :
    World K St Act B E Sh Box O :=
  hits.foldl (fun w p =>
    match w.getAgent p.2 with
    | none => w
    | some a =>
      if decide (P.status a.behavior = .valid) && a.isValidAtTime w.time then
        { w with agents := OMap.erase p.2 w.agents }
      else w) w

theorem removeHits_find (hits : List (Box × Nat)) (w : World K St Act B E Sh Box O) (id : Nat) :
    OMap.find id (removeHits P hits w).agents =
      (OMap.find id w.agents).filter (fun a =>
        !(hits.any (fun p => decide (p.2 = id)) && (decide (P.status a.behavior = .valid) &&
          a.isValidAtTime w.time))) ∧
    (removeHits P hits w).time = w.time ∧
    (removeHits P hits w).mapBox = w.mapBox ∧
    (removeHits P hits w).removeAgents = w.removeAgents ∧
    (removeHits P hits w).observer = w.observer ∧
    (OMap.Sorted w.agents → OMap.Sorted (removeHits P hits w).agents) := by
  classical
  induction hits generalizing w with
  | nil =>
    refine ⟨?_, rfl, rfl, rfl, rfl, fun h => h⟩
    show OMap.find id w.agents = _
    cases OMap.find id w.agents <;> simp [Option.filter]
  | cons p hits ih =>
    obtain ⟨bx, j⟩ := p
    have key : ∀ w1 : World K St Act B E Sh Box O, w1.time = w.time → 
        removeHits P ((bx, j) :: hits) w = removeHits P hits w1 →
        w1.mapBox = w.mapBox → w1.removeAgents = w.removeAgents → w1.observer = w.observer →
        (OMap.Sorted w.agents → OMap.Sorted w1.agents) →
        OMap.find id w1.agents = (OMap.find id w.agents).filter (fun a =>
          !(decide (j = id) && (decide (P.status a.behavior = .valid) &&
          a.isValidAtTime w.time))) → 
        OMap.find id (removeHits P ((bx, j) :: hits) w).agents =
          (OMap.find id w.agents).filter (fun a =>
            !(((bx, j) :: hits).any (fun p => decide (p.2 = id)) && (decide (P.status a.behavior = .valid) &&
              a.isValidAtTime w.time))) ∧
        (removeHits P ((bx, j) :: hits) w).time = w.time ∧
        (removeHits P ((bx, j) :: hits) w).mapBox = w.mapBox ∧
        (removeHits P ((bx, j) :: hits) w).removeAgents = w.removeAgents ∧
        (removeHits P ((bx, j) :: hits) w).observer = w.observer ∧
        (OMap.Sorted w.agents → OMap.Sorted (removeHits P ((bx, j) :: hits) w).agents) := by
      intro w1 ht he hm hr ho hs hfind
      obtain ⟨i1, i2, i3, i4, i5, i6⟩ := ih w1
      rw [he]
      refine ⟨?_, i2.trans ht, i3.trans hm, i4.trans hr, i5.trans ho, fun h => i6 (hs h)⟩
      rw [i1, hfind, ht]
      cases OMap.find id w.agents with
      | none => simp
      | some a =>
        simp only [Option.filter_some, List.any_cons]
        by_cases c1 : j = id <;> cases c2 : (hits.any (fun p => decide (p.2 = id))) <;>
          by_cases c3 : P.status a.behavior = .valid <;>
          cases c4 : a.isValidAtTime w.time <;> simp [c1, c3, c4]
    cases hg : w.getAgent j with
    | none =>
      apply key w rfl _ rfl rfl rfl (fun h => h)
      · by_cases hji : j = id
        · subst hji
          have : OMap.find j w.agents = none := hg
          rw [this]; rfl
        · cases OMap.find id w.agents <;> simp [hji, Option.filter]
      · simp only [removeHits, List.foldl_cons, hg]
    | some a =>
      have hfa : OMap.find j w.agents = some a := hg
      by_cases hc : (decide (P.status a.behavior = .valid) && a.isValidAtTime w.time) = true
      · apply key { w with agents := OMap.erase j w.agents } rfl _ rfl rfl rfl
          (fun h => OMap.sorted_erase j h)
        · simp only [OMap.find_erase]
          by_cases hji : id = j
          · subst hji
            simp only [if_true, hfa, Option.filter_some, hc]; simp
          · rw [if_neg hji]
            cases OMap.find id w.agents <;> simp [Ne.symm hji, Option.filter]
        · simp only [removeHits, List.foldl_cons, hg]
          rw [if_pos hc]
      · apply key w rfl _ rfl rfl rfl (fun h => h)
        · by_cases hji : j = id
          · subst hji
            rw [hfa]; simp only [Option.filter_some]; simp at hc ⊢; exact hc
          · cases OMap.find id w.agents <;> simp [hji, Option.filter]
        · simp only [removeHits, List.foldl_cons, hg]
          rw [if_neg hc]

theorem removeOutside_eq (mb : Box) (w : World K St Act B E Sh Box O) :
    removeOutside P mb w = removeHits P (w.rtree.filter (fun p => !P.within p.1 mb)) w := rfl

/-- what one agent looks like after planning, given its index in the visiting order -/
theorem planAgentsIn_find (order : List Nat) (dt : K) (w w' : World K St Act B E Sh Box O)
    (h : planAgentsIn P order dt w = .ok w') (pre post : List Nat) (id : Nat)
    (a : Agent K St Act B E Sh) (ho : order = pre ++ id :: post) (hnd : order.Nodup)
    (hreg : ∀ j ∈ order, (OMap.find j w.agents).isSome) (hf : OMap.find id w.agents = some a) :
    ∃ r, rtreeOf P w.agents = .ok r ∧
    OMap.find id w'.agents =
      some (if a.isValidAtTime w.time then
        planOne P dt w.time (P.observe
          ((pre.filter (Spec.activeId w)).foldl (fun o j => (P.observe o { w with rtree := r } j).1) w.observer)
            { w with rtree := r } id).2 id a
        else a) := by
  unfold planAgentsIn at h
  obtain ⟨w1, h1, h⟩ := Res.bind_ok h
  cases h
  obtain ⟨r, hr, rfl⟩ := updateAgentRTree_ok P h1
  refine ⟨r, hr, ?_⟩
  subst ho
  have hnd' := List.nodup_append.1 hnd
  have hid : id ∉ pre := fun hm => hnd'.2.2 id hm id (by simp) rfl
  exact planFold_at P dt { w with rtree := r } pre post id { w with rtree := r } a hid
    (List.nodup_cons.1 hnd'.2.1).1 hnd'.1 (fun j hj => hreg j (by simp [hj])) hf

theorem planAgentsIn_rest (order : List Nat) (dt : K) (w w' : World K St Act B E Sh Box O)
    (h : planAgentsIn P order dt w = .ok w') :
    w'.time = w.time ∧ rtreeOf P w.agents = .ok w'.rtree ∧ w'.removeAgents = w.removeAgents ∧
    w'.mapBox = w.mapBox ∧ OMap.keys w'.agents = OMap.keys w.agents := by
  unfold planAgentsIn at h
  obtain ⟨w1, h1, h⟩ := Res.bind_ok h
  cases h
  obtain ⟨r, hr, rfl⟩ := updateAgentRTree_ok P h1
  obtain ⟨a1, a2, a3, a4, a5⟩ := planFold_rest P dt { w with rtree := r } order { w with rtree := r }
  exact ⟨a1, by rw [a2]; exact hr, a3, a4, a5⟩

theorem execute_ok {dt : K} {w w' : World K St Act B E Sh Box O} (h : execute P dt w = .ok w') :
    w'.time = w.time + dt ∧ w'.removeAgents = w.removeAgents ∧ w'.mapBox = w.mapBox ∧
    w'.observer = w.observer ∧
    (w.removeAgents = true → w.mapBox ≠ none) ∧
    (OMap.Sorted w.agents → OMap.Sorted w'.agents) ∧
    rtreeOf P w'.agents = .ok w'.rtree ∧
    (OMap.Sorted w.agents → ∀ id, OMap.find id w'.agents =
      ((OMap.find id w.agents).filter (fun a =>
          !(match w.mapBox with
            | none => false
            | some mb => w.removeAgents &&
                (w.rtree.filter (fun p => !P.within p.1 mb)).any (fun p => decide (p.2 = id)) &&
                decide (P.status a.behavior = .valid) && a.isValidAtTime w.time)
          && !decide (P.status a.behavior = .expired))).map (execOne P w.time)) := by
  unfold execute at h
  obtain ⟨ags, h1, h⟩ := Res.bind_ok h
  obtain ⟨w2, h2, h⟩ := Res.bind_ok h
  cases h
  have hags := executeLoop_ok P h1
  unfold removeInvalidAgents at h2
  obtain ⟨w3, h3, h2⟩ := Res.bind_ok h2
  obtain ⟨r, hr, rfl⟩ := updateAgentRTree_ok P h2
  have hst : ∀ a : Agent K St Act B E Sh, (execOne P w.time a).behavior = a.behavior := by
    intro a; unfold execOne; split_ifs <;> rfl
  have hfv : ∀ (a : Agent K St Act B E Sh) t, (execOne P w.time a).isValidAtTime t = a.isValidAtTime t := by
    intro a t; unfold execOne; split_ifs <;> rfl
  have hsort : OMap.Sorted w.agents → OMap.Sorted ags := by
    intro hs
    rw [OMap.sorted_iff_keys, hags, keys_map (fun _ => execOne P w.time)]
    exact OMap.sorted_iff_keys.1 hs
  have hfind : ∀ id, OMap.find id ags = (OMap.find id w.agents).map (execOne P w.time) := by
    intro id; rw [hags]; exact find_map (fun _ => execOne P w.time) w.agents id
  unfold removeOutMap at h3
  dsimp only at h3
  split_ifs at h3 with hrm
  · split at h3
    · cases h3
    · rename_i mb hmb
      cases h3
      rw [removeOutside_eq] at *
      have hh := fun id => removeHits_find P (List.filter (fun p => !P.within p.1 mb) w.rtree)
        { w with agents := ags } id
      obtain ⟨_, i2, i3, i4, i5, i6⟩ := hh 0
      refine ⟨rfl, i4, i3, i5, fun _ => by simp [hmb], ?_, hr, ?_⟩
      · intro hs; exact OMap.sorted_filter _ (i6 (hsort hs))
      · intro hs id
        show OMap.find id (List.filter _ (removeHits P _ _).agents) = _
        rw [OMap.find_filter (i6 (hsort hs)), (hh id).1]
        dsimp only
        rw [hfind, hmb]
        cases hfi : OMap.find id w.agents with
        | none => rfl
        | some a =>
          dsimp only
          simp only [Option.map_some, Option.filter_some, hst, hfv, hrm, Bool.true_and]
          generalize (List.filter (fun p => !P.within p.1 mb) w.rtree).any (fun p => decide (p.2 = id)) = c2
          by_cases c3 : P.status a.behavior = .valid <;>
            by_cases c5 : P.status a.behavior = .expired <;>
            cases c4 : a.isValidAtTime w.time <;> cases c2 <;> simp_all
  · cases h3
    refine ⟨rfl, rfl, rfl, rfl, fun hc => absurd hc hrm, ?_, hr, ?_⟩
    · intro hs; exact OMap.sorted_filter _ (hsort hs)
    · intro hs id
      show OMap.find id (List.filter _ ags) = _
      rw [OMap.find_filter (hsort hs), hfind]
      cases hfi : OMap.find id w.agents with
      | none => rfl
      | some a =>
        dsimp only
        have hrm' : w.removeAgents = false := by simpa using hrm
        simp only [Option.map_some, Option.filter_some, hst, hrm']
        by_cases c5 : P.status a.behavior = .expired <;> cases w.mapBox <;> simp_all

theorem execute_total {dt : K} {w : World K St Act B E Sh Box O} (hs : OMap.Sorted w.agents)
    (hne : ∀ p ∈ w.agents, p.2.history ≠ []) (hm : w.removeAgents = true → w.mapBox ≠ none) :
    ∃ w', execute P dt w = .ok w' := by
  have h1 := executeLoop_total P (t := w.time) hne
  set ags := w.agents.map (fun p => (p.1, execOne P w.time p.2)) with hags
  have hsort : OMap.Sorted ags := by
    rw [OMap.sorted_iff_keys, hags, keys_map (fun _ => execOne P w.time)]
    exact OMap.sorted_iff_keys.1 hs
  have hane : ∀ p ∈ ags, p.2.history ≠ [] := by
    intro p hp
    rw [hags] at hp
    obtain ⟨q, hq, rfl⟩ := List.mem_map.1 hp
    exact execOne_ne P w.time q.2 (hne q hq)
  obtain ⟨w3, h3, h4⟩ : ∃ w3, removeOutMap P { w with agents := ags } = .ok w3 ∧
      (∀ p ∈ w3.agents, p.2.history ≠ []) := by
    unfold removeOutMap
    dsimp only
    split_ifs with hrm
    · cases hmb : w.mapBox with
      | none => exact absurd hmb (hm hrm)
      | some mb =>
        refine ⟨_, rfl, ?_⟩
        intro p hp
        rw [removeOutside_eq, ← hmb] at hp
        obtain ⟨i, a⟩ := p
        obtain ⟨j1, _, _, _, _, j6⟩ := removeHits_find P (List.filter (fun p => !P.within p.1 mb) w.rtree)
          { w with agents := ags } i
        have hf := OMap.mem_find_some (j6 hsort) hp
        rw [j1] at hf
        have : OMap.find i ags = some a := by
          cases h : OMap.find i ags with
          | none => simp [h] at hf
          | some b => rw [h, Option.filter_some] at hf; split_ifs at hf; exact hf
        exact hane _ (OMap.find_some_mem this)
    · exact ⟨_, rfl, hane⟩
  obtain ⟨r, hr⟩ := rtreeOf_total P (m := (removeExpired P w3).agents)
    (fun p hp => h4 p (List.mem_of_mem_filter hp))
  refine ⟨{ { removeExpired P w3 with rtree := r } with time := w.time + dt }, ?_⟩
  unfold execute
  rw [h1]
  show (removeInvalidAgents P { w with agents := ags } >>= _) = _
  unfold removeInvalidAgents
  rw [h3]
  show ((updateAgentRTree P (removeExpired P w3)) >>= _) = _
  unfold updateAgentRTree
  rw [hr]; rfl

end World
end Bark
