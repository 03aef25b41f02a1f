import Verif.Props.Placement

/-!
C168: the agents of a scenario made by `ConfigWithEase`: ids, evaluated agents and behavior models.
-/
namespace Bark.Place

open Ln Ln.Spec Bark.Place.Spec

theorem scenario_cons {u : ℕ → ℝ} {pick : ℕ → ℕ → ℕ} {fuel : ℕ} {c : Cfg} {r : Road} {cs : List (Cfg × Road)} {k first n : ℕ}
    {as : List Ag} {ids : List ℕ} {m : ℕ} (h : scenario u pick fuel ((c, r) :: cs) k first n = .ok (as, ids, m)) :
    ∃ states n' a1 i1 a2 i2, placeCfg c r u fuel n = .ok (states, n') ∧
      control c (pick k) (agentsOf c first states) = .ok (a1, i1) ∧
      scenario u pick fuel cs (k + 1) (first + states.length + 1) n' = .ok (a2, i2, m) ∧ as = a1 ++ a2 ∧ ids = i1 ++ i2 := by
  unfold scenario at h
  obtain ⟨⟨states, n'⟩, h1, h⟩ := Res.bind_ok h
  obtain ⟨⟨a1, i1⟩, h2, h⟩ := Res.bind_ok h
  obtain ⟨⟨a2, i2, m'⟩, h3, h⟩ := Res.bind_ok h
  simp only [Except.ok.injEq, Prod.mk.injEq] at h
  obtain ⟨rfl, rfl, rfl⟩ := h
  exact ⟨states, n', a1, i1, a2, i2, h1, h2, h3, rfl, rfl⟩

theorem control_cases {c : Cfg} {pick : ℕ → ℕ} {as a1 : List Ag} {i1 : List ℕ} (h : control c pick as = .ok (a1, i1)) :
    (c.controlledIds = none ∧ a1 = as ∧ i1 = []) ∨
    (c.controlledIds ≠ none ∧ ∃ (k : ℕ) (a : Ag), as[k]? = some a ∧ a1 = as.set k ⟨a.id, a.state, controlledModel c⟩ ∧
      i1 = [a.id]) := by
  unfold control at h
  split at h
  · rename_i hc
    cases h
    exact Or.inl ⟨hc, rfl, rfl⟩
  · rename_i hc
    refine Or.inr ⟨by rw [hc]; simp, ?_⟩
    by_cases h0 : as.length = 0
    · rw [if_pos h0] at h; cases h
    · rw [if_neg h0] at h
      cases ha : as[pick as.length]? with
      | none => rw [ha] at h; cases h
      | some a =>
        rw [ha] at h
        cases h
        exact ⟨_, a, ha, rfl, rfl⟩

theorem agentsOf_get (c : Cfg) (first : ℕ) (states : List State) (i : ℕ) :
    (agentsOf c first states)[i]? = (states[i]?).map fun s => ⟨first + i, s, some c.behavior⟩ := by
  unfold agentsOf
  rw [List.getElem?_map, List.getElem?_zipIdx]
  cases states[i]? <;> simp

theorem agentsOf_length (c : Cfg) (first : ℕ) (states : List State) : (agentsOf c first states).length = states.length := by
  unfold agentsOf; simp

theorem agentsOf_ids (c : Cfg) (first : ℕ) (states : List State) :
    (agentsOf c first states).map (fun a => a.id) = List.range' first states.length := by
  apply List.ext_getElem?
  intro i
  rw [List.getElem?_map, agentsOf_get]
  by_cases h : i < states.length
  · rw [List.getElem?_eq_getElem h, List.getElem?_range' h]; simp
  · rw [List.getElem?_eq_none (by omega), List.getElem?_eq_none (by simp; omega)]; rfl

theorem map_set_same {α β : Type} (f : α → β) (l : List α) (k : ℕ) (a b : α) (h : l[k]? = some a) (hf : f b = f a) :
    (l.set k b).map f = l.map f := by
  apply List.ext_getElem?
  intro i
  rw [List.getElem?_map, List.getElem?_map]
  by_cases e : k = i
  · subst e
    rw [List.getElem?_set_self (List.getElem?_eq_some_iff.1 h).1, h]
    simp [hf]
  · rw [List.getElem?_set_ne e]

theorem control_ids {c : Cfg} {pick : ℕ → ℕ} {as a1 : List Ag} {i1 : List ℕ} (h : control c pick as = .ok (a1, i1)) :
    a1.map (fun a => a.id) = as.map (fun a => a.id) ∧ a1.map (fun a => a.state) = as.map (fun a => a.state) := by
  rcases control_cases h with ⟨-, rfl, -⟩ | ⟨-, k, a, ha, rfl, -⟩
  · exact ⟨rfl, rfl⟩
  · exact ⟨map_set_same _ _ _ _ _ ha rfl, map_set_same _ _ _ _ _ ha rfl⟩

theorem scenario_spec {u : ℕ → ℝ} {pick : ℕ → ℕ → ℕ} {fuel : ℕ} : ∀ {cs : List (Cfg × Road)} {k first n : ℕ}
    {as : List Ag} {ids : List ℕ} {m : ℕ}, scenario u pick fuel cs k first n = .ok (as, ids, m) →
    (as.map fun a => a.id).Pairwise (· < ·) ∧ (∀ a ∈ as, first ≤ a.id) ∧ ids.Pairwise (· < ·) ∧
    (∀ i ∈ ids, ∃ a ∈ as, a.id = i) ∧ ids.length = (cs.filter fun x => x.1.controlledIds.isSome).length
  | [], k, first, n, as, ids, m, h => by
    cases h
    exact ⟨.nil, by simp, .nil, by simp, rfl⟩
  | (c, r) :: cs, k, first, n, as, ids, m, h => by
    obtain ⟨states, n', a1, i1, a2, i2, -, h2, h3, rfl, rfl⟩ := scenario_cons h
    obtain ⟨g1, g2, g3, g4, g5⟩ := scenario_spec h3
    have hi := (control_ids h2).1
    rw [agentsOf_ids] at hi
    have hrange : ∀ a ∈ a1, first ≤ a.id ∧ a.id < first + states.length := by
      intro a ha
      have : a.id ∈ a1.map fun a => a.id := List.mem_map.2 ⟨a, ha, rfl⟩
      rw [hi, List.mem_range'_1] at this
      exact this
    have hone : (i1 = [] ∧ c.controlledIds = none) ∨ ∃ a ∈ a1, i1 = [a.id] ∧ c.controlledIds ≠ none := by
      rcases control_cases h2 with ⟨h, -, h'⟩ | ⟨h, j, a, ha, he, h'⟩
      · exact Or.inl ⟨h', h⟩
      · refine Or.inr ⟨⟨a.id, a.state, controlledModel c⟩, ?_, h', h⟩
        rw [he]
        refine List.mem_iff_getElem?.2 ⟨j, ?_⟩
        rw [List.getElem?_set_self (List.getElem?_eq_some_iff.1 ha).1]
    refine ⟨?_, ?_, ?_, ?_, ?_⟩
    · rw [List.map_append, List.pairwise_append, hi]
      refine ⟨List.pairwise_lt_range', g1, ?_⟩
      intro x hx y hy
      rw [List.mem_range'_1] at hx
      obtain ⟨b, hb, rfl⟩ := List.mem_map.1 hy
      have := g2 b hb
      omega
    · intro a ha
      rcases List.mem_append.1 ha with ha | ha
      · exact (hrange a ha).1
      · have := g2 a ha; omega
    · rw [List.pairwise_append]
      refine ⟨?_, g3, ?_⟩
      · rcases hone with ⟨e, -⟩ | ⟨a, -, e, -⟩ <;> rw [e] <;> simp
      · intro x hx y hy
        obtain ⟨b, hb, rfl⟩ := g4 y hy
        have h1 := g2 b hb
        rcases hone with ⟨e, -⟩ | ⟨a, ha, e, -⟩
        · rw [e] at hx; cases hx
        · rw [e, List.mem_singleton] at hx
          have := hrange a ha
          omega
    · intro i hi'
      rcases List.mem_append.1 hi' with hi' | hi'
      · rcases hone with ⟨e, -⟩ | ⟨a, ha, e, -⟩
        · rw [e] at hi'; cases hi'
        · rw [e, List.mem_singleton] at hi'
          exact ⟨a, List.mem_append_left _ ha, hi'.symm⟩
      · obtain ⟨b, hb, e⟩ := g4 i hi'
        exact ⟨b, List.mem_append_right _ hb, e⟩
    · rw [List.length_append, g5]
      rcases hone with ⟨e, hc⟩ | ⟨a, ha, e, hc⟩
      · rw [e]; simp [hc]
      · rw [e]
        have : c.controlledIds.isSome = true := by
          cases hx : c.controlledIds with
          | none => exact absurd hx hc
          | some _ => rfl
        simp [this]
        omega

/-- C168: the agents of a scenario have distinct, ascending ids; the evaluated agents are agents of the scenario, distinct,
and as many as there are corridors with a controlled agent -/
theorem C168_ids {u : ℕ → ℝ} {pick : ℕ → ℕ → ℕ} {fuel : ℕ} {cs : List (Cfg × Road)} {as : List Ag} {ids : List ℕ} {m : ℕ}
    (h : scenario u pick fuel cs 0 0 0 = .ok (as, ids, m)) :
    (as.map fun a => a.id).Pairwise (· < ·) ∧ ids.Pairwise (· < ·) ∧ (∀ i ∈ ids, ∃ a ∈ as, a.id = i) ∧
    ids.length = (cs.filter fun x => x.1.controlledIds.isSome).length := by
  obtain ⟨h1, -, h3, h4, h5⟩ := scenario_spec h
  exact ⟨h1, h3, h4, h5⟩

/-- C168: the agents are those placed in the corridors, corridor by corridor, with the random numbers in sequence; one id stays
unused after each corridor -/
theorem C168_corridors {u : ℕ → ℝ} {pick : ℕ → ℕ → ℕ} {fuel : ℕ} {c : Cfg} {r : Road} {cs : List (Cfg × Road)} {k first n : ℕ}
    {as : List Ag} {ids : List ℕ} {m : ℕ} (h : scenario u pick fuel ((c, r) :: cs) k first n = .ok (as, ids, m)) :
    ∃ states n' a1 a2 i1 i2, placeCfg c r u fuel n = .ok (states, n') ∧ as = a1 ++ a2 ∧ ids = i1 ++ i2 ∧
      a1.map (fun a => (a.id, a.state)) = (List.range' first states.length).zip states ∧ (∀ i ∈ i1, ∃ a ∈ a1, a.id = i) ∧
      scenario u pick fuel cs (k + 1) (first + states.length + 1) n' = .ok (a2, i2, m) := by
  obtain ⟨states, n', a1, i1, a2, i2, h1, h2, h3, e1, e2⟩ := scenario_cons h
  refine ⟨states, n', a1, a2, i1, i2, h1, e1, e2, ?_, ?_, h3⟩
  · have hst : (agentsOf c first states).map (fun a => a.state) = states := by
      apply List.ext_getElem?
      intro i
      rw [List.getElem?_map, agentsOf_get]
      cases states[i]? <;> rfl
    obtain ⟨q1, q2⟩ := control_ids h2
    rw [agentsOf_ids] at q1
    rw [hst] at q2
    rw [← q1, ← q2, List.zip_map']
  · intro i hi
    rcases control_cases h2 with ⟨-, -, h'⟩ | ⟨-, j, a, ha, he, h'⟩
    · rw [h'] at hi; cases hi
    · rw [h', List.mem_singleton] at hi
      refine ⟨⟨a.id, a.state, controlledModel c⟩, ?_, hi.symm⟩
      rw [he]
      refine List.mem_iff_getElem?.2 ⟨j, ?_⟩
      rw [List.getElem?_set_self (List.getElem?_eq_some_iff.1 ha).1]

theorem scenario_behavior {u : ℕ → ℝ} {pick : ℕ → ℕ → ℕ} {fuel : ℕ} : ∀ {cs : List (Cfg × Road)} {k first n : ℕ}
    {as : List Ag} {ids : List ℕ} {m : ℕ}, scenario u pick fuel cs k first n = .ok (as, ids, m) →
    ∀ a ∈ as, ∃ x ∈ cs, (a.id ∉ ids → a.behavior = some x.1.behavior) ∧
      (a.id ∈ ids → x.1.controlledIds ≠ none ∧ (x.1.controlledBehavior = none → a.behavior = some x.1.behavior) ∧
        (x.1.controlledBehavior ≠ none → a.behavior = none))
  | [], k, first, n, as, ids, m, h => by
    cases h; intro a ha; cases ha
  | (c, r) :: cs, k, first, n, as, ids, m, h => by
    obtain ⟨states, n', a1, i1, a2, i2, -, h2, h3, rfl, rfl⟩ := scenario_cons h
    obtain ⟨-, g2, -, g4, -⟩ := scenario_spec h3
    have ih := scenario_behavior h3
    have hi := (control_ids h2).1
    rw [agentsOf_ids] at hi
    have hrange : ∀ a ∈ a1, first ≤ a.id ∧ a.id < first + states.length := by
      intro a ha
      have : a.id ∈ a1.map fun a => a.id := List.mem_map.2 ⟨a, ha, rfl⟩
      rw [hi, List.mem_range'_1] at this
      exact this
    have hi2 : ∀ i ∈ i2, first + states.length + 1 ≤ i := by
      intro i hi
      obtain ⟨b, hb, rfl⟩ := g4 i hi
      exact g2 b hb
    have hi1 : ∀ i ∈ i1, i < first + states.length := by
      intro i hi
      rcases control_cases h2 with ⟨-, -, h'⟩ | ⟨-, j, a, ha, he, h'⟩
      · rw [h'] at hi; cases hi
      · rw [h', List.mem_singleton] at hi
        rw [agentsOf_get] at ha
        obtain ⟨s, hs, rfl⟩ := Option.map_eq_some_iff.1 ha
        have := (List.getElem?_eq_some_iff.1 hs).1
        rw [hi]
        show first + j < _
        omega
    intro a ha
    rcases List.mem_append.1 ha with ha | ha
    · refine ⟨(c, r), List.mem_cons_self .., ?_⟩
      have hra := hrange a ha
      have hnot : a.id ∉ i2 := fun hx => by have := hi2 _ hx; omega
      have hin : a.id ∈ i1 ++ i2 ↔ a.id ∈ i1 := by
        rw [List.mem_append]; exact ⟨fun h => h.resolve_right hnot, Or.inl⟩
      rw [hin]
      rcases control_cases h2 with ⟨-, rfl, rfl⟩ | ⟨hc, j, b, hb, rfl, rfl⟩
      · refine ⟨fun _ => ?_, fun hx => by cases hx⟩
        obtain ⟨i, hi⟩ := List.mem_iff_getElem?.1 ha
        rw [agentsOf_get] at hi
        obtain ⟨s, -, rfl⟩ := Option.map_eq_some_iff.1 hi
        rfl
      · rw [agentsOf_get] at hb
        obtain ⟨s, hs, rfl⟩ := Option.map_eq_some_iff.1 hb
        obtain ⟨i, hi⟩ := List.mem_iff_getElem?.1 ha
        by_cases e : j = i
        · subst e
          rw [List.getElem?_set_self (by rw [agentsOf_length]; exact (List.getElem?_eq_some_iff.1 hs).1)] at hi
          cases hi
          refine ⟨fun hx => absurd (List.mem_singleton.2 rfl) hx, fun _ => ⟨hc, ?_, ?_⟩⟩
          · intro hb; show controlledModel c = _; unfold controlledModel; rw [hb]
          · intro hb; show controlledModel c = _
            cases hx : c.controlledBehavior with
            | none => exact absurd hx hb
            | some z => unfold controlledModel; rw [hx]
        · rw [List.getElem?_set_ne e, agentsOf_get] at hi
          obtain ⟨s', -, rfl⟩ := Option.map_eq_some_iff.1 hi
          refine ⟨fun _ => rfl, fun hx => ?_⟩
          rw [List.mem_singleton] at hx
          have hx : first + i = first + j := hx
          omega
    · obtain ⟨x, hx, q1, q2⟩ := ih a ha
      refine ⟨x, List.mem_cons_of_mem _ hx, ?_⟩
      have hnot : a.id ∉ i1 := fun hy => by have := hi1 _ hy; have := g2 a ha; omega
      have hin : a.id ∈ i1 ++ i2 ↔ a.id ∈ i2 := by
        rw [List.mem_append]; exact ⟨fun h => h.resolve_left hnot, Or.inr⟩
      rw [hin]
      exact ⟨q1, q2⟩

/-- C168: an agent that is not evaluated follows the behavior model of its corridor; so does an evaluated one if no other model
is given -/
theorem C168_behavior_partial {u : ℕ → ℝ} {pick : ℕ → ℕ → ℕ} {fuel : ℕ} {cs : List (Cfg × Road)} {as : List Ag} {ids : List ℕ}
    {m : ℕ} (h : scenario u pick fuel cs 0 0 0 = .ok (as, ids, m)) (a : Ag) (ha : a ∈ as)
    (hb : a.id ∈ ids → ∀ x ∈ cs, x.1.controlledBehavior = none) : ∃ x ∈ cs, a.behavior = some x.1.behavior := by
  obtain ⟨x, hx, h1, h2⟩ := scenario_behavior h a ha
  refine ⟨x, hx, ?_⟩
  by_cases hi : a.id ∈ ids
  · exact (h2 hi).2.1 (hb hi x hx)
  · exact h1 hi

/-- C168 violated: evaluated agents get no behavior model at all if a model for them is given -/
theorem C168_controlled_violated {u : ℕ → ℝ} {pick : ℕ → ℕ → ℕ} {fuel : ℕ} {cs : List (Cfg × Road)} {as : List Ag}
    {ids : List ℕ} {m : ℕ} (h : scenario u pick fuel cs 0 0 0 = .ok (as, ids, m))
    (hb : ∀ x ∈ cs, x.1.controlledBehavior ≠ none) (i : ℕ) (hi : i ∈ ids) : ∃ a ∈ as, a.id = i ∧ a.behavior = none := by
  obtain ⟨-, -, h3, -⟩ := C168_ids h
  obtain ⟨a, ha, rfl⟩ := h3 i hi
  obtain ⟨x, hx, -, h2⟩ := scenario_behavior h a ha
  exact ⟨a, ha, rfl, (h2 hi).2.2 (hb x hx)⟩

/-- C168 violated: vehicles of a corridor are not independent, they share one behavior model object -/
theorem C168_shared_violated {u : ℕ → ℝ} {pick : ℕ → ℕ → ℕ} {fuel : ℕ} {c : Cfg} {r : Road} {as : List Ag} {ids : List ℕ} {m : ℕ}
    (h : scenario u pick fuel [(c, r)] 0 0 0 = .ok (as, ids, m)) (a b : Ag) (ha : a ∈ as) (hb : b ∈ as) (ha' : a.id ∉ ids)
    (hb' : b.id ∉ ids) : a.behavior = b.behavior := by
  obtain ⟨x, hx, h1, -⟩ := scenario_behavior h a ha
  obtain ⟨y, hy, h2, -⟩ := scenario_behavior h b hb
  rw [List.mem_singleton] at hx hy
  rw [h1 ha', h2 hb', hx, hy]

/-- C168 violated: a corridor with a controlled agent into which no vehicle fits makes the scenario fail, whatever the others -/
theorem C168_empty_violated {u : ℕ → ℝ} {pick : ℕ → ℕ → ℕ} {fuel : ℕ} {c : Cfg} {r : Road} {cs : List (Cfg × Road)}
    {k first n n' : ℕ} (hc : c.controlledIds ≠ none) (hp : placeCfg c r u fuel n = .ok ([], n')) :
    scenario u pick fuel ((c, r) :: cs) k first n = .error .thrown := by
  unfold scenario
  rw [hp]
  simp only [Res.ok_bind]
  have : control c (pick k) (agentsOf c first []) = .error .thrown := by
    unfold control
    cases hx : c.controlledIds with
    | none => exact absurd hx hc
    | some _ => rfl
  rw [this]; rfl

/-- C168: otherwise the scenario is created -/
theorem C168_created {u : ℕ → ℝ} {pick : ℕ → ℕ → ℕ} (hpick : ∀ k n, 0 < n → pick k n < n) {fuel : ℕ} :
    ∀ (cs : List (Cfg × Road)) (k first n : ℕ), (∀ x ∈ cs, ∀ n, ∃ states n', placeCfg x.1 x.2 u fuel n = .ok (states, n') ∧
      (x.1.controlledIds = none ∨ states ≠ [])) → ∃ as ids m, scenario u pick fuel cs k first n = .ok (as, ids, m)
  | [], _, _, n, _ => ⟨[], [], n, rfl⟩
  | (c, r) :: cs, k, first, n, h => by
    obtain ⟨states, n', hp, hc⟩ := h (c, r) (List.mem_cons_self ..) n
    obtain ⟨a2, i2, m, e2⟩ := C168_created hpick cs (k + 1) (first + states.length + 1) n'
      fun x hx => h x (List.mem_cons_of_mem _ hx)
    have : ∃ x, control c (pick k) (agentsOf c first states) = .ok x := by
      unfold control
      cases hx : c.controlledIds with
      | none => exact ⟨_, rfl⟩
      | some _ =>
        have hne : states ≠ [] := hc.resolve_left (by rw [hx]; simp)
        have hpos : 0 < states.length := List.length_pos_iff.2 hne
        have hlt := hpick k states.length hpos
        simp only [agentsOf_length]
        rw [if_neg (by omega), agentsOf_get, List.getElem?_eq_getElem hlt]
        exact ⟨_, rfl⟩
    obtain ⟨⟨a1, i1⟩, e⟩ := this
    refine ⟨a1 ++ a2, i1 ++ i2, m, ?_⟩
    unfold scenario
    simp only [hp, Res.ok_bind, e, e2]

end Bark.Place
