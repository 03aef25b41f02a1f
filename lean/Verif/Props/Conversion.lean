import Verif.Spec.Conversion
import Verif.Props.Shape2
import Verif.Props.Placement

/-!
C171: conversion of agents to dictionaries and back. C172: scenarios given in full (`DeterministicScenarioGeneration`).
-/
namespace Bark.Conv

open Bark.Conv.Spec

variable {P G M : Type}

theorem lastPart_dot (pre n : Name) (h : '.' ∉ n) : lastPart (pre ++ '.' :: n) = n := by
  unfold lastPart
  rw [List.reverse_append, List.reverse_cons, List.append_assoc,
    List.takeWhile_append_of_pos (by
      intro c hc
      have hc : c ∈ n := List.mem_reverse.1 hc
      simp only [bne_iff_ne, ne_eq]
      rintro rfl
      exact h hc)]
  simp

theorem lastPart_mem (s : Name) : ∃ pre, s = pre ++ lastPart s := by
  unfold lastPart
  refine ⟨(s.reverse.dropWhile fun c => c != '.').reverse, ?_⟩
  rw [← List.reverse_append, List.takeWhile_append_dropWhile, List.reverse_reverse]

/-- C171: objects of a class that shows itself are named after their class -/
theorem C171_name {c : Class} (hs : ShowsItself c) (hd : '.' ∉ c.name) (path addr : Name) : nameOf c path addr = c.name := by
  obtain ⟨pre, h⟩ := hs
  unfold nameOf str
  rw [h]
  exact lastPart_dot pre c.name hd

theorem byName_known {cs : List Class} {c : Class} (h : Known cs c) : byName cs c.name = .ok c := by
  unfold byName
  have : (cs.find? fun d => decide (d.name = c.name)) = some c := by
    cases hf : cs.find? fun d => decide (d.name = c.name) with
    | none =>
      have := List.find?_eq_none.1 hf c h.mem
      simp at this
    | some d =>
      have h1 := List.mem_of_find?_eq_some hf
      have h2 := List.find?_some hf
      rw [h.unique d h1 (of_decide_eq_true h2)]
  rw [this]
  exact if_pos h.ctor

/-- C171: an agent written to a dictionary and read back with a goal and a map is an agent of the same state, outline and kinds
of models. What is missing: see the theorems below -/
theorem C171_roundtrip_partial (big : ℝ) {cs : List Class} (fresh : Class → Name × Name) (newId : ℕ) (server : P) (a : Agent P G M)
    (g : G) (m : M) (hk : ∀ o ∈ [a.behavior, a.dynamic, a.execution], Known cs o.cls ∧ ShowsItself o.cls ∧ '.' ∉ o.cls.name)
    (hc : Shape.Spec.Closed a.shape.pts) (ht : Shape.Spec.turn a.shape.pts ≤ 0) :
    ∃ b, fromJson big cs fresh newId server { toJson a with goal := some g, map := some m } = .ok b ∧
      b.state = a.state ∧ b.behavior.cls = a.behavior.cls ∧ b.dynamic.cls = a.dynamic.cls ∧
      b.execution.cls = a.execution.cls ∧ b.shape.pts = a.shape.pts ∧ b.shape.center = a.shape.center ∧ b.goal = some g ∧
      b.map = some m := by
  have hm : ∀ o ∈ [a.behavior, a.dynamic, a.execution], model cs fresh server (some (nameOf o.cls o.path o.addr)) =
      .ok ⟨o.cls, (fresh o.cls).1, (fresh o.cls).2, server⟩ := by
    intro o ho
    obtain ⟨k1, k2, k3⟩ := hk o ho
    unfold model key
    rw [C171_name k2 k3]
    simp only [Res.ok_bind, byName_known k1]
  refine ⟨⟨newId, a.state, ⟨a.behavior.cls, (fresh a.behavior.cls).1, (fresh a.behavior.cls).2, server⟩,
    ⟨a.dynamic.cls, (fresh a.dynamic.cls).1, (fresh a.dynamic.cls).2, server⟩,
    ⟨a.execution.cls, (fresh a.execution.cls).1, (fresh a.execution.cls).2, server⟩, Shape.ofPoints big a.shape.center a.shape.pts, some g, some m⟩, ?_, rfl, rfl, rfl, rfl, Shape.C155_kept _ _ _ hc ht, rfl, rfl, rfl⟩
  unfold fromJson toJson
  simp only [hm _ (by simp : a.behavior ∈ _), hm _ (by simp : a.dynamic ∈ _), hm _ (by simp : a.execution ∈ _)]
  rfl

/-- C171: every class except those listed can be written and read back by name -/
theorem C171_classes : ∀ c ∈ classes, c ∉ [("BehaviorModel", true), ("BehaviorMotionPrimitives", false),
    ("BehaviorMPMacroActions", true), ("BehaviorRandomMacroActions", true), ("DynamicModel", true),
    ("ExecutionModel", true)].map (fun x => (⟨x.1.toList, none, x.2⟩ : Class)) →
    Known classes c ∧ ShowsItself c ∧ '.' ∉ c.name := by
  have key : ∀ c ∈ classes, (∀ d ∈ classes, d.name = c.name → d = c) := by decide +kernel
  have rest : ∀ c ∈ classes, c ∉ [("BehaviorModel", true), ("BehaviorMotionPrimitives", false),
      ("BehaviorMPMacroActions", true), ("BehaviorRandomMacroActions", true), ("DynamicModel", true),
      ("ExecutionModel", true)].map (fun x => (⟨x.1.toList, none, x.2⟩ : Class)) →
      c.ctor = true ∧ '.' ∉ c.name ∧ (c.repr = some ("bark.behavior".toList ++ '.' :: c.name) ∨
        c.repr = some ("bark.dynamic".toList ++ '.' :: c.name)) := by decide +kernel
  intro c hc hn
  obtain ⟨h1, h2, h3⟩ := rest c hc hn
  exact ⟨⟨hc, h1, key c hc⟩, h3.elim (fun h => ⟨_, h⟩) fun h => ⟨_, h⟩, h2⟩

/-- C171 violated: an agent with macro actions, or any other class without a text of its own, cannot be read back -/
theorem C171_macro_violated (big : ℝ) (fresh : Class → Name × Name) (newId : ℕ) (server : P) (a : Agent P G M) (g : G) (m : M)
    (hb : a.behavior.cls ∈ classes) (hr : a.behavior.cls.repr = none) :
    fromJson big classes fresh newId server { toJson a with goal := some g, map := some m } = .error .thrown := by
  have hlast : ∀ c ∈ classes, '>' ∉ c.name := by decide +kernel
  have hname : byName classes (nameOf a.behavior.cls a.behavior.path a.behavior.addr) = .error .thrown := by
    have hmem : '>' ∈ nameOf a.behavior.cls a.behavior.path a.behavior.addr := by
      unfold nameOf str
      rw [hr]
      simp only
      unfold lastPart
      rw [List.mem_reverse, List.reverse_append]
      simp
    unfold byName
    have : (classes.find? fun c => decide (c.name = nameOf a.behavior.cls a.behavior.path a.behavior.addr)) = none := by
      rw [List.find?_eq_none]
      intro c hc h
      rw [← of_decide_eq_true h] at hmem
      exact hlast c hc hmem
    rw [this]
  unfold fromJson toJson
  have : model classes fresh server (some (nameOf a.behavior.cls a.behavior.path a.behavior.addr)) = .error .thrown := by
    unfold model key
    simp only [Res.ok_bind, hname]
    rfl
  simp only [this]
  rfl

/-- C171 violated: what was written cannot be read back as it is: goal and map are missing -/
theorem C171_incomplete_violated (big : ℝ) (cs : List Class) (fresh : Class → Name × Name) (newId : ℕ) (server : P) (a : Agent P G M) :
    ∀ b, fromJson big cs fresh newId server (toJson a) ≠ .ok b := by
  intro b h
  unfold fromJson at h
  obtain ⟨_, -, h⟩ := Res.bind_ok h
  obtain ⟨_, -, h⟩ := Res.bind_ok h
  obtain ⟨_, -, h⟩ := Res.bind_ok h
  obtain ⟨_, -, h⟩ := Res.bind_ok h
  obtain ⟨_, -, h⟩ := Res.bind_ok h
  obtain ⟨_, h, -⟩ := Res.bind_ok h
  cases h

/-- C171 violated: ids and parameters of the models are not those of the agent -/
theorem C171_lost_violated {big : ℝ} {cs : List Class} {fresh : Class → Name × Name} {newId : ℕ} {server : P} {j : Json G M}
    {b : Agent P G M} (h : fromJson big cs fresh newId server j = .ok b) :
    b.id = newId ∧ b.behavior.params = server ∧ b.dynamic.params = server ∧ b.execution.params = server := by
  have hm : ∀ n o, model cs fresh server n = .ok o → o.params = server := by
    intro n o h
    unfold model at h
    obtain ⟨_, -, h⟩ := Res.bind_ok h
    obtain ⟨_, -, h⟩ := Res.bind_ok h
    cases h; rfl
  unfold fromJson at h
  obtain ⟨_, -, h⟩ := Res.bind_ok h
  obtain ⟨o1, g1, h⟩ := Res.bind_ok h
  obtain ⟨o2, g2, h⟩ := Res.bind_ok h
  obtain ⟨o3, g3, h⟩ := Res.bind_ok h
  obtain ⟨_, -, h⟩ := Res.bind_ok h
  obtain ⟨_, -, h⟩ := Res.bind_ok h
  obtain ⟨_, -, h⟩ := Res.bind_ok h
  cases h
  exact ⟨rfl, hm _ _ g1, hm _ _ g2, hm _ _ g3⟩

/-! ### scenarios given in full -/

theorem stateOf_fits {u : ℕ → ℝ} (hu : Place.Spec.Draws u) (n : ℕ) (s : StateSpec)
    (hr : ∀ l, s = .ranges l → ∀ r ∈ l, r.1 ≤ r.2) : Fits s (stateOf u n s).1 := by
  cases s with
  | exact l => rfl
  | ranges l =>
    show List.Forall₂ _ l _
    unfold stateOf
    simp only
    have hr := hr l rfl
    have : ∀ k, List.Forall₂ (fun (r : ℝ × ℝ) (x : ℝ) => r.1 ≤ x ∧ x ≤ r.2) l
        ((l.zipIdx k).map fun x => Place.uniform x.1.1 x.1.2 (u (n + x.2))) := by
      induction l with
      | nil => intro k; exact .nil
      | cons r l ih =>
        intro k
        rw [List.zipIdx_cons, List.map_cons]
        exact .cons (Place.uniform_mem (hr r (List.mem_cons_self ..)) (hu _))
          (ih (fun l' hl' r hr' => hr r (List.mem_cons_of_mem _ (by cases hl'; exact hr')))
            (fun r hr' => hr r (List.mem_cons_of_mem _ hr')) (k + 1))
    exact this 0

theorem goal_at (big : ℝ) (a : AgentSpec) :
    GoalAt a (Shape.translate (Shape.ofPoints big ⟨0, 0, 0⟩ a.goalPoints) a.goalCenter) := by
  intro q
  show q ∈ (Shape.correct a.goalPoints).map (Shape.shift a.goalCenter.1 a.goalCenter.2) ↔ _
  rw [List.mem_map]
  constructor
  · rintro ⟨x, hx, rfl⟩
    exact ⟨x, (Shape.mem_correct _ _).1 hx, rfl⟩
  · rintro ⟨x, hx, rfl⟩
    exact ⟨x, (Shape.mem_correct _ _).2 hx, rfl⟩

theorem oneAgent_made {big : ℝ} {cs : List Class} {fresh : Class → Name × Name} {server : P} {map : M} {numReached : Option ℕ}
    {u : ℕ → ℝ} (hu : Place.Spec.Draws u) {n : ℕ} {a : AgentSpec} (hr : ∀ l, a.state = .ranges l → ∀ r ∈ l, r.1 ≤ r.2)
    {ag : Agent P Goal M} {n' : ℕ} (h : oneAgent big cs fresh server map numReached u n a = .ok (ag, n')) :
    Made (numReached.getD 5) server map a ag ∧ (∀ l, a.state = .exact l → n' = n) ∧
      (∀ l, a.state = .ranges l → n' = n + l.length) := by
  have hm : ∀ nm o, model cs fresh server nm = .ok o → nm = some o.cls.name := by
    intro nm o h
    unfold model at h
    obtain ⟨x, h1, h⟩ := Res.bind_ok h
    obtain ⟨c, h2, h⟩ := Res.bind_ok h
    cases h
    cases nm with
    | none => cases h1
    | some y =>
      cases h1
      unfold byName at h2
      split at h2
      · cases h2
      · rename_i d hd
        have := List.find?_some hd
        split_ifs at h2
        cases h2
        simp only [decide_eq_true_eq] at this
        rw [this]
  unfold oneAgent at h
  obtain ⟨ag0, h0, h⟩ := Res.bind_ok h
  cases h
  unfold fromJson at h0
  obtain ⟨s, hs, h0⟩ := Res.bind_ok h0
  obtain ⟨o1, g1, h0⟩ := Res.bind_ok h0
  obtain ⟨o2, g2, h0⟩ := Res.bind_ok h0
  obtain ⟨o3, g3, h0⟩ := Res.bind_ok h0
  obtain ⟨_, -, h0⟩ := Res.bind_ok h0
  obtain ⟨g, hg, h0⟩ := Res.bind_ok h0
  obtain ⟨mm, hmm, h0⟩ := Res.bind_ok h0
  cases h0
  cases hs
  cases hg
  cases hmm
  refine ⟨⟨rfl, stateOf_fits hu n a.state hr, hm _ _ g1, hm _ _ g2, hm _ _ g3, ?_, rfl⟩, ?_, ?_⟩
  · refine ⟨goalOf big a, _, rfl, goal_at big a, ?_, ?_⟩
    · intro hl; unfold goalOf; rw [hl]; rfl
    · intro hl; unfold goalOf; rw [hl]; rfl
  · intro l hl; rw [hl]; rfl
  · intro l hl; rw [hl]; rfl

theorem allAgents_made {big : ℝ} {cs : List Class} {fresh : Class → Name × Name} {server : P} {map : M} {numReached : Option ℕ}
    {u : ℕ → ℝ} (hu : Place.Spec.Draws u) : ∀ {as : List AgentSpec} {n : ℕ},
    (∀ a ∈ as, ∀ l, a.state = .ranges l → ∀ r ∈ l, r.1 ≤ r.2) → ∀ {ags : List (Agent P Goal M)} {m : ℕ},
    allAgents big cs fresh server map numReached u n as = .ok (ags, m) →
    List.Forall₂ (Made (numReached.getD 5) server map) as ags
  | [], n, _, ags, m, h => by cases h; exact .nil
  | a :: as, n, hr, ags, m, h => by
    unfold allAgents at h
    obtain ⟨⟨ag, n'⟩, h1, h⟩ := Res.bind_ok h
    obtain ⟨⟨ags', m'⟩, h2, h⟩ := Res.bind_ok h
    cases h
    exact .cons (oneAgent_made hu (hr a (List.mem_cons_self ..)) h1).1
      (allAgents_made hu (fun b hb => hr b (List.mem_cons_of_mem _ hb)) h2)

/-- C172: the scenario has the agents given, in order, with their ids, states (or a state in the ranges given), models and
goals; the agents to evaluate are those given, or 0 -/
theorem C172_made {big : ℝ} {cs : List Class} {fresh : Class → Name × Name} {server : P} {map : M} {numReached : Option ℕ}
    {controlled : Option (List ℕ)} {u : ℕ → ℝ} (hu : Place.Spec.Draws u) {n : ℕ} {as : List AgentSpec}
    (hr : ∀ a ∈ as, ∀ l, a.state = .ranges l → ∀ r ∈ l, r.1 ≤ r.2) {ags : List (Agent P Goal M)} {ids : List ℕ} {m : ℕ}
    (h : detScenario big cs fresh server map numReached controlled u n as = .ok ((ags, ids), m)) :
    List.Forall₂ (Made (numReached.getD 5) server map) as ags ∧ (∀ l, controlled = some l → ids = l) ∧
      (controlled = none → ids = [0]) := by
  unfold detScenario at h
  obtain ⟨⟨x, y⟩, h1, h⟩ := Res.bind_ok h
  cases h
  exact ⟨allAgents_made hu hr h1, fun l hl => by rw [hl]; rfl, fun hl => by rw [hl]; rfl⟩

/-- C172: if every agent names known models and a shape the scenario is created -/
theorem C172_created {big : ℝ} {cs : List Class} {fresh : Class → Name × Name} {server : P} {map : M} {numReached : Option ℕ}
    {controlled : Option (List ℕ)} {u : ℕ → ℝ} : ∀ {as : List AgentSpec} (n : ℕ), (∀ a ∈ as, a.shape ≠ none ∧
      ∀ nm ∈ [a.behavior, a.dynamic, a.execution], ∃ c, Known cs c ∧ nm = some c.name) →
    ∃ x m, detScenario big cs fresh server map numReached controlled u n as = .ok (x, m) := by
  have hone : ∀ (n : ℕ) (a : AgentSpec), (a.shape ≠ none ∧
      ∀ nm ∈ [a.behavior, a.dynamic, a.execution], ∃ c, Known cs c ∧ nm = some c.name) →
      ∃ y, oneAgent big cs fresh server map numReached u n a = .ok y := by
    rintro n a ⟨hs, hn⟩
    have hm : ∀ nm ∈ [a.behavior, a.dynamic, a.execution], ∃ o, model cs fresh server nm = .ok o := by
      intro nm hnm
      obtain ⟨c, hc, rfl⟩ := hn nm hnm
      exact ⟨⟨c, (fresh c).1, (fresh c).2, server⟩, by
        unfold model key
        simp only [Res.ok_bind, byName_known hc]⟩
    obtain ⟨o1, e1⟩ := hm a.behavior (by simp)
    obtain ⟨o2, e2⟩ := hm a.dynamic (by simp)
    obtain ⟨o3, e3⟩ := hm a.execution (by simp)
    cases hsh : a.shape with
    | none => exact absurd hsh hs
    | some p =>
      apply Exists.intro
      unfold oneAgent fromJson
      simp only [e1, e2, e3, hsh, key, Res.ok_bind]
      rfl
  have hall : ∀ (as : List AgentSpec) (n : ℕ), (∀ a ∈ as, a.shape ≠ none ∧
      ∀ nm ∈ [a.behavior, a.dynamic, a.execution], ∃ c, Known cs c ∧ nm = some c.name) →
      ∃ y, allAgents big cs fresh server map numReached u n as = .ok y := by
    intro as
    induction as with
    | nil => intro n _; exact ⟨_, rfl⟩
    | cons a as ih =>
      intro n h
      obtain ⟨⟨ag, n'⟩, e1⟩ := hone n a (h a (List.mem_cons_self ..))
      obtain ⟨⟨ags, m⟩, e2⟩ := ih n' fun b hb => h b (List.mem_cons_of_mem _ hb)
      apply Exists.intro
      unfold allAgents
      simp only [e1, e2, Res.ok_bind]
      rfl
  intro as n h
  obtain ⟨⟨ags, m⟩, e⟩ := hall as n h
  refine ⟨(ags, controlled.getD [0]), m, ?_⟩
  unfold detScenario
  simp only [e, Res.ok_bind]

/-- C172 violated: agents of the same id are accepted, and so is an id to evaluate that no agent has -/
theorem C172_ids_violated {big : ℝ} {cs : List Class} {fresh : Class → Name × Name} {server : P} {map : M} {numReached : Option ℕ}
    {u : ℕ → ℝ} (hu : Place.Spec.Draws u) {n : ℕ} {a : AgentSpec} (hid : a.id ≠ 0)
    (hr : ∀ l, a.state = .ranges l → ∀ r ∈ l, r.1 ≤ r.2)
    (hs : a.shape ≠ none) (hn : ∀ nm ∈ [a.behavior, a.dynamic, a.execution], ∃ c, Known cs c ∧ nm = some c.name) :
    ∃ (x y : Agent P Goal M) (m : ℕ), detScenario big cs fresh server map numReached none u n [a, a] = .ok (([x, y], [0]), m) ∧
      x.id = y.id ∧ x.id ≠ 0 := by
  obtain ⟨⟨ags, ids⟩, m, e⟩ := C172_created (big := big) (fresh := fresh) (server := server) (map := map)
    (numReached := numReached) (controlled := none) (u := u) (as := [a, a]) n (by
      intro b hb
      simp only [List.mem_cons, List.not_mem_nil, or_false, or_self] at hb
      subst hb
      exact ⟨hs, hn⟩)
  obtain ⟨h1, -, h3⟩ := C172_made hu (by
    intro b hb
    simp only [List.mem_cons, List.not_mem_nil, or_false, or_self] at hb
    subst hb
    exact hr) e
  cases h3 rfl
  match ags, h1, e with
  | [x, y], .cons hx (.cons hy .nil), e =>
    exact ⟨x, y, m, e, by rw [hx.id, hy.id], by rw [hx.id]; exact hid⟩

/-! ### example -/

/-- a car at a random place, with constant acceleration -/
def exSpec : AgentSpec := ⟨3, .ranges [(0, 0), (10, 20), (0, 5), (0, 1), (8, 10)], [(-1, -1), (-1, 1), (1, 1), (1, -1)], (50, 5),
  true, some "BehaviorConstantAcceleration".toList, some "SingleTrackModel".toList, some "ExecutionModelInterpolate".toList,
  some (⟨0, 0, 0⟩, [(-1, -1), (-1, 1), (3, 1), (3, -1), (-1, -1)])⟩

theorem known_of {c : Class} (hc : c ∈ classes) (h : c.ctor = true) : Known classes c :=
  ⟨hc, h, by
    have key : ∀ c ∈ classes, (∀ d ∈ classes, d.name = c.name → d = c) := by decide +kernel
    exact key c hc⟩

/-- the scenario of two such cars is created -/
example : ∃ (x y : Agent Unit Goal Unit) (m : ℕ), detScenario 1000 classes (fun _ => ([], [])) () () none none (fun _ => 0) 0
    [exSpec, exSpec] = .ok (([x, y], [0]), m) ∧ x.id = y.id ∧ x.id ≠ 0 := by
  refine C172_ids_violated Place.ex_draws (by decide) ?_ (by simp [exSpec]) ?_
  · rintro l ⟨⟩ r hr
    simp only [List.mem_cons, List.not_mem_nil, or_false] at hr
    rcases hr with rfl | rfl | rfl | rfl | rfl <;> norm_num
  · intro nm hnm
    simp only [List.mem_cons, List.not_mem_nil, or_false] at hnm
    rcases hnm with rfl | rfl | rfl
    · exact ⟨⟨"BehaviorConstantAcceleration".toList, some "bark.behavior.BehaviorConstantAcceleration".toList, true⟩,
        known_of (by decide +kernel) rfl, rfl⟩
    · exact ⟨⟨"SingleTrackModel".toList, some "bark.dynamic.SingleTrackModel".toList, true⟩, known_of (by decide +kernel) rfl, rfl⟩
    · exact ⟨⟨"ExecutionModelInterpolate".toList, some "bark.dynamic.ExecutionModelInterpolate".toList, true⟩,
        known_of (by decide +kernel) rfl, rfl⟩

end Bark.Conv
