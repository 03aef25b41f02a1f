import Verif.Model.Evaluators
import Verif.Spec.Evaluators
import Verif.Props.World
import Mathlib.Data.List.Dedup
import Batteries.Data.List.Perm
import Mathlib.Data.List.Sort
import Mathlib.Data.List.Induction

/-! C40–C42, C80, C81: the evaluators. -/
namespace Bark.Eval
open Bark World EvalSpec
set_option linter.unusedSectionVars false

variable {K St Act B E Sh Box O Poly : Type} [Field K] [LinearOrder K] [IsStrictOrderedRing K]
variable (P : Plug K St Act B E Sh Box O)

theorem currentState_iff (a : Agent K St Act B E Sh) (s : St) :
    a.currentState = .ok s ↔ a.history.getLast?.map Prod.fst = some s := by
  unfold Agent.currentState
  cases a.history.getLast? with
  | none => simp
  | some p => simp

theorem currentState_total {a : Agent K St Act B E Sh} (h : a.history ≠ []) : ∃ s, a.currentState = .ok s := by
  unfold Agent.currentState
  rw [List.getLast?_eq_some_getLast h]
  exact ⟨_, rfl⟩

theorem polygon_eq (poly : Sh → St → Poly) {a : Agent K St Act B E Sh} {s : St} (h : a.currentState = .ok s) :
    polygon poly a = .ok (poly a.shape s) := by
  unfold polygon; rw [h]; rfl

/-- two members of a list of agents collide -/
def Hit (poly : Sh → St → Poly) (collide : Poly → Poly → Bool) (x y : Nat × Agent K St Act B E Sh) : Prop :=
  y.1 ≠ x.1 ∧ ∃ s t, x.2.currentState = .ok s ∧ y.2.currentState = .ok t ∧ collide (poly x.2.shape s) (poly y.2.shape t) = true

theorem collInner_eq (poly : Sh → St → Poly) (collide : Poly → Poly → Bool) (x : Nat × Agent K St Act B E Sh) (s : St)
    (hx : x.2.currentState = .ok s) (l : List (Nat × Agent K St Act B E Sh)) (c : Bool)
    (hl : ∀ y ∈ l, y.2.history ≠ []) :
    ∃ r, collInner poly collide x.1 (poly x.2.shape s) l c = .ok r ∧
      (r = true ↔ (c = true ∨ ∃ y ∈ l, Hit poly collide x y)) := by
  induction l with
  | nil => exact ⟨c, rfl, by simp⟩
  | cons y m ih =>
    obtain ⟨t, ht⟩ := currentState_total (hl y (by simp))
    obtain ⟨r, h1, h2⟩ := ih (fun z hz => hl z (by simp [hz]))
    unfold collInner
    rw [polygon_eq poly ht, Res.ok_bind]
    by_cases g : y.1 ≠ x.1 ∧ collide (poly x.2.shape s) (poly y.2.shape t) = true
    · rw [if_pos g]
      exact ⟨true, rfl, by simpa using Or.inr (Or.inl ⟨g.1, s, t, hx, ht, g.2⟩)⟩
    · rw [if_neg g]
      by_cases hc : c = true
      · rw [if_pos hc]; exact ⟨c, rfl, by simp [hc]⟩
      · rw [if_neg hc]
        refine ⟨r, h1, h2.trans ⟨?_, ?_⟩⟩
        · rintro (h | ⟨z, hz, hh⟩)
          · exact Or.inl h
          · exact Or.inr ⟨z, by simp [hz], hh⟩
        · rintro (h | ⟨z, hz, hh⟩)
          · exact Or.inl h
          · rcases List.mem_cons.1 hz with rfl | hz
            · obtain ⟨hne, s', t', e1, e2, e3⟩ := hh
              rw [hx] at e1; cases e1; rw [ht] at e2; cases e2
              exact absurd ⟨hne, e3⟩ g
            · exact Or.inr ⟨z, hz, hh⟩

theorem collOuter_eq (poly : Sh → St → Poly) (collide : Poly → Poly → Bool) (vs : List (Nat × Agent K St Act B E Sh))
    (hv : ∀ y ∈ vs, y.2.history ≠ []) (l : List (Nat × Agent K St Act B E Sh)) (c : Bool)
    (hl : ∀ y ∈ l, y.2.history ≠ []) :
    ∃ r, collOuter poly collide vs l c = .ok r ∧
      (r = true ↔ (c = true ∨ ∃ x ∈ l, ∃ y ∈ vs, Hit poly collide x y)) := by
  induction l generalizing c with
  | nil => exact ⟨c, rfl, by simp⟩
  | cons x m ih =>
    obtain ⟨s, hs⟩ := currentState_total (hl x (by simp))
    obtain ⟨c', h1, h2⟩ := collInner_eq poly collide x s hs vs c hv
    obtain ⟨r, h3, h4⟩ := ih c' (fun z hz => hl z (by simp [hz]))
    refine ⟨r, ?_, ?_⟩
    · unfold collOuter
      rw [polygon_eq poly hs, Res.ok_bind, h1, Res.ok_bind, h3]
    · rw [h4, h2]
      simp only [List.mem_cons, exists_eq_or_imp, or_assoc]

/-- **C40** (all agents): the agents-collision evaluator never faults and answers true exactly if two different agents
that take part in the simulation with valid behaviour have colliding shapes at their current states. -/
theorem C40_agents (poly : Sh → St → Poly) (collide : Poly → Poly → Bool) {w : World K St Act B E Sh Box O}
    (hs : OMap.Sorted w.agents) (hh : ∀ p ∈ w.agents, p.2.history ≠ []) :
    ∃ r, collisionAgents P poly collide w = .ok r ∧
      (r = true ↔ ∃ i j a b s t, i ≠ j ∧ Takes P w i a s ∧ Takes P w j b t ∧
        collide (poly a.shape s) (poly b.shape t) = true) := by
  obtain ⟨hvs, hv⟩ := Props.C10_valid_agents P hs
  have hsub : ∀ y ∈ getValidAgents P w, y.2.history ≠ [] := fun y hy => hh y (List.mem_of_mem_filter hy)
  obtain ⟨r, h1, h2⟩ := collOuter_eq poly collide _ hsub (getValidAgents P w) false hsub
  refine ⟨r, h1, h2.trans ?_⟩
  simp only [Bool.false_eq_true, false_or]
  constructor
  · rintro ⟨x, hx, y, hy, hne, s, t, e1, e2, e3⟩
    have kx := (hv x.1 x.2).1 (OMap.mem_find_some hvs hx)
    have ky := (hv y.1 y.2).1 (OMap.mem_find_some hvs hy)
    exact ⟨x.1, y.1, x.2, y.2, s, t, hne.symm, ⟨kx.1, kx.2.1, kx.2.2, (currentState_iff _ _).1 e1⟩,
      ⟨ky.1, ky.2.1, ky.2.2, (currentState_iff _ _).1 e2⟩, e3⟩
  · rintro ⟨i, j, a, b, s, t, hne, ⟨a1, a2, a3, a4⟩, ⟨b1, b2, b3, b4⟩, hc⟩
    exact ⟨(i, a), OMap.find_some_mem ((hv i a).2 ⟨a1, a2, a3⟩), (j, b), OMap.find_some_mem ((hv j b).2 ⟨b1, b2, b3⟩),
      hne.symm, s, t, (currentState_iff _ _).2 a4, (currentState_iff _ _).2 b4, hc⟩

theorem egoLoop_eq (poly : Sh → St → Poly) (collide : Poly → Poly → Bool) (ego : Nat) (pe : Poly)
    (l : List (Nat × Agent K St Act B E Sh)) (hl : ∀ y ∈ l, y.2.history ≠ []) :
    ∃ r, egoLoop poly collide ego pe l = .ok r ∧
      (r = true ↔ ∃ y ∈ l, ego ≠ y.2.id ∧ ∃ t, y.2.currentState = .ok t ∧ collide pe (poly y.2.shape t) = true) := by
  induction l with
  | nil => exact ⟨false, rfl, by simp⟩
  | cons y m ih =>
    obtain ⟨t, ht⟩ := currentState_total (hl y (by simp))
    obtain ⟨r, h1, h2⟩ := ih (fun z hz => hl z (by simp [hz]))
    unfold egoLoop
    by_cases g : ego ≠ y.2.id
    · rw [if_pos g, polygon_eq poly ht, Res.ok_bind]
      by_cases hc : collide pe (poly y.2.shape t) = true
      · rw [if_pos hc]
        exact ⟨true, rfl, by simpa using Or.inl ⟨g, t, ht, hc⟩⟩
      · rw [if_neg hc]
        refine ⟨r, h1, h2.trans ?_⟩
        simp only [List.mem_cons, exists_eq_or_imp]
        constructor
        · exact Or.inr
        · rintro (⟨_, t', e1, e2⟩ | h)
          · rw [ht] at e1; cases e1; exact absurd e2 hc
          · exact h
    · rw [if_neg g]
      refine ⟨r, h1, h2.trans ?_⟩
      simp only [List.mem_cons, exists_eq_or_imp]
      exact ⟨Or.inr, fun h => h.resolve_left (fun k => g k.1)⟩

theorem staticLoop_eq (poly inflated : Sh → St → Poly) (collide : Poly → Poly → Bool) (ego : Nat)
    (a : Agent K St Act B E Sh) (s : St)
    (l : List (Nat × Agent K St Act B E Sh)) (hl : ∀ y ∈ l, y.2.history ≠ []) :
    ∃ r, staticLoop poly inflated collide ego a s l = .ok r ∧
      (r = true ↔ ∃ y ∈ l, ego ≠ y.2.id ∧ ∃ t, y.2.currentState = .ok t ∧
        (collide (inflated a.shape s) (poly y.2.shape t) = true ∨ collide (inflated y.2.shape t) (poly a.shape s) = true)) := by
  induction l with
  | nil => exact ⟨false, rfl, by simp⟩
  | cons y m ih =>
    obtain ⟨t, ht⟩ := currentState_total (hl y (by simp))
    obtain ⟨r, h1, h2⟩ := ih (fun z hz => hl z (by simp [hz]))
    unfold staticLoop
    by_cases g : ego ≠ y.2.id
    · rw [if_pos g, polygon_eq poly ht, Res.ok_bind, polygon_eq inflated ht, Res.ok_bind]
      by_cases hc : collide (inflated a.shape s) (poly y.2.shape t) = true
      · rw [if_pos hc]
        exact ⟨true, rfl, by simpa using Or.inl ⟨g, t, ht, Or.inl hc⟩⟩
      · rw [if_neg hc]
        by_cases hd : collide (inflated y.2.shape t) (poly a.shape s) = true
        · rw [if_pos hd]
          exact ⟨true, rfl, by simpa using Or.inl ⟨g, t, ht, Or.inr hd⟩⟩
        rw [if_neg hd]
        refine ⟨r, h1, h2.trans ?_⟩
        simp only [List.mem_cons, exists_eq_or_imp]
        constructor
        · exact Or.inr
        · rintro (⟨_, t', e1, e2⟩ | h)
          · rw [ht] at e1; cases e1; exact absurd e2 (by simp [hc, hd])
          · exact h
    · rw [if_neg g]
      refine ⟨r, h1, h2.trans ?_⟩
      simp only [List.mem_cons, exists_eq_or_imp]
      exact ⟨Or.inr, fun h => h.resolve_left (fun k => g k.1)⟩

/-- what the two nearest-agent evaluators see -/
theorem near_facts {w : World K St Act B E Sh Box O} (hw : Props.WellFormed w) (hidx : ∀ p ∈ w.rtree, (w.getAgent p.2).isSome)
    (q : List (Box × Nat) → List (Box × Nat)) (hn : ∀ l, ∀ p ∈ q l, p ∈ l) :
    ∃ m, getNearestAgents P q w = .ok m ∧ (∀ y ∈ m, y.2.history ≠ []) ∧
      ∀ (ego : Nat) (R : Agent K St Act B E Sh → St → Prop),
        (∃ y ∈ m, ego ≠ y.2.id ∧ ∃ t, y.2.currentState = .ok t ∧ R y.2 t) ↔
        ∃ id b t, id ≠ ego ∧ (∃ bx, (bx, id) ∈ q w.rtree) ∧ Takes P w id b t ∧ R b t := by
  obtain ⟨m, h1, hs, h2⟩ := Props.collectHits_ok P (fun _ => true) (w := w) (q w.rtree)
    (fun p hp => hidx p (hn _ p hp))
  refine ⟨m, h1, ?_, ?_⟩
  · intro y hy
    obtain ⟨_, k2, _⟩ := (h2 y.1 y.2).1 (OMap.mem_find_some hs hy)
    exact (hw.2.1 _ _ k2).1
  · intro ego R
    constructor
    · rintro ⟨y, hy, hne, t, ht, hR⟩
      obtain ⟨k1, k2, _, k4, k5⟩ := (h2 y.1 y.2).1 (OMap.mem_find_some hs hy)
      have hid := (hw.2.1 _ _ k2).2
      exact ⟨y.1, y.2, t, fun e => hne (by rw [hid]; exact e.symm), k1,
        ⟨k2, k4, (Props.active_iff _ _).1 k5, (currentState_iff _ _).1 ht⟩, hR⟩
    · rintro ⟨id, b, t, hne, k1, ⟨a1, a2, a3, a4⟩, hR⟩
      have hid := (hw.2.1 _ _ a1).2
      exact ⟨(id, b), OMap.find_some_mem ((h2 id b).2 ⟨k1, a1, rfl, a2, (Props.active_iff _ _).2 a3⟩),
        by simpa [hid] using hne.symm, t, (currentState_iff _ _).2 a4, hR⟩

/-- **C40** (ego): if the index only mentions registered agents, the ego-collision evaluator answers true exactly if the
ego collides with another agent that takes part *and is among the indexed boxes returned by the query for the 4
nearest*; for an unknown ego it answers false.  The full property (any colliding agent) is violated, see
`C40_ego_violated`. -/
theorem C40_ego (poly : Sh → St → Poly) (collide : Poly → Poly → Bool)
    (nearest : St → List (Box × Nat) → List (Box × Nat)) (hn : ∀ s l, ∀ p ∈ nearest s l, p ∈ l)
    {w : World K St Act B E Sh Box O} (hw : Props.WellFormed w) (hidx : ∀ p ∈ w.rtree, (w.getAgent p.2).isSome) (ego : Nat) :
    (OMap.find ego w.agents = none → collisionEgo P poly collide nearest ego w = .ok false) ∧
    ∀ a, OMap.find ego w.agents = some a → ∃ s r, a.history.getLast?.map Prod.fst = some s ∧
      collisionEgo P poly collide nearest ego w = .ok r ∧
      (r = true ↔ ∃ id b t, id ≠ ego ∧ (∃ bx, (bx, id) ∈ nearest s w.rtree) ∧ Takes P w id b t ∧
        collide (poly a.shape s) (poly b.shape t) = true) := by
  constructor
  · intro h
    unfold collisionEgo getAgent; rw [h]
  · intro a ha
    obtain ⟨s, hs⟩ := currentState_total (hw.2.1 _ _ ha).1
    obtain ⟨m, h1, hm, h2⟩ := near_facts P hw hidx (nearest s) (hn s)
    obtain ⟨r, h3, h4⟩ := egoLoop_eq poly collide ego (poly a.shape s) m hm
    refine ⟨s, r, (currentState_iff _ _).1 hs, ?_, ?_⟩
    · unfold collisionEgo getAgent
      rw [ha]
      show (a.currentState >>= _) = _
      rw [hs, Res.ok_bind, h1, Res.ok_bind, h3]
    · rw [h4]
      exact h2 ego (fun b t => collide (poly a.shape s) (poly b.shape t) = true)

/-- with at most `k` indexed boxes the `k` nearest are all of them -/
theorem kNearest_all {α D : Type} [LinearOrder D] {k : Nat} {dist : α → D} {l r : List α}
    (h : IsKNearest k dist l r) (hl : l.length ≤ k) : ∀ x ∈ l, x ∈ r := by
  obtain ⟨h1, h2, _⟩ := h
  have hp : List.Perm r l := List.Subperm.perm_of_length_le h2 (by rw [h1]; omega)
  exact fun x hx => hp.mem_iff.2 hx

/-- **C40** (ego, at most four agents): if the index is fresh and the world has at most four agents, the ego-collision
evaluator is exact. -/
theorem C40_ego_few {D : Type} [LinearOrder D] (poly : Sh → St → Poly) (collide : Poly → Poly → Bool)
    (dist : St → Box × Nat → D) (nearest : St → List (Box × Nat) → List (Box × Nat))
    (hn : ∀ s l, IsKNearest 4 (dist s) l (nearest s l))
    {w : World K St Act B E Sh Box O} (hw : Props.WellFormed w) (hfresh : rtreeOf P w.agents = .ok w.rtree)
    (hfew : w.agents.length ≤ 4) (ego : Nat) (a : Agent K St Act B E Sh) (s : St) (ha : Takes P w ego a s) :
    ∃ r, collisionEgo P poly collide nearest ego w = .ok r ∧
      (r = true ↔ ∃ id b t, id ≠ ego ∧ Takes P w id b t ∧ collide (poly a.shape s) (poly b.shape t) = true) := by
  have hidx := Props.indexOk_of_fresh P hfresh
  obtain ⟨_, h2⟩ := C40_ego P poly collide nearest (fun s l p hp => List.Subperm.subset (hn s l).2.1 hp) hw hidx ego
  obtain ⟨s', r, e, h3, h4⟩ := h2 a ha.1
  rw [ha.2.2.2] at e; cases e
  refine ⟨r, h3, h4.trans ⟨?_, ?_⟩⟩
  · rintro ⟨id, b, t, k1, _, k3, k4⟩; exact ⟨id, b, t, k1, k3, k4⟩
  · rintro ⟨id, b, t, k1, k3, k4⟩
    refine ⟨id, b, t, k1, ?_, k3, k4⟩
    have hlen : w.rtree.length = w.agents.length := by
      have := congrArg List.length (World.rtreeOf_keys P hfresh)
      simpa [OMap.keys] using this
    have hk : id ∈ w.rtree.map Prod.snd := by
      rw [World.rtreeOf_keys P hfresh, ← OMap.find_isSome_iff, k3.1]; rfl
    obtain ⟨⟨bx, j⟩, hp, hj⟩ := List.mem_map.1 hk
    simp only at hj; subst hj
    exact ⟨bx, kNearest_all (hn s w.rtree) (by omega) _ hp⟩

/-- **C81** (static safe distance): the check holds exactly if no other agent that takes part and is among the indexed boxes
returned by the query for the 4 nearest touches the inflated ego, or touches the ego when itself inflated.  The full
property (any agent) is violated, see `C81_violated`. -/
theorem C81_static_safe_partial (poly inflated : Sh → St → Poly) (collide : Poly → Poly → Bool)
    (nearest : St → List (Box × Nat) → List (Box × Nat)) (hn : ∀ s l, ∀ p ∈ nearest s l, p ∈ l)
    {w : World K St Act B E Sh Box O} (hw : Props.WellFormed w) (hidx : ∀ p ∈ w.rtree, (w.getAgent p.2).isSome) (ego : Nat) :
    (OMap.find ego w.agents = none → staticSafe P poly inflated collide nearest ego w = .ok true) ∧
    ∀ a, OMap.find ego w.agents = some a → ∃ s r, a.history.getLast?.map Prod.fst = some s ∧
      staticSafe P poly inflated collide nearest ego w = .ok r ∧
      (r = false ↔ ∃ id b t, id ≠ ego ∧ (∃ bx, (bx, id) ∈ nearest s w.rtree) ∧ Takes P w id b t ∧
        (collide (inflated a.shape s) (poly b.shape t) = true ∨ collide (inflated b.shape t) (poly a.shape s) = true)) := by
  constructor
  · intro h
    unfold staticSafe getAgent; rw [h]
  · intro a ha
    obtain ⟨s, hs⟩ := currentState_total (hw.2.1 _ _ ha).1
    obtain ⟨m, h1, hm, h2⟩ := near_facts P hw hidx (nearest s) (hn s)
    obtain ⟨r, h3, h4⟩ := staticLoop_eq poly inflated collide ego a s m hm
    refine ⟨s, !r, (currentState_iff _ _).1 hs, ?_, ?_⟩
    · unfold staticSafe getAgent
      rw [ha]
      show (a.currentState >>= _) = _
      rw [hs, Res.ok_bind, h1, Res.ok_bind, h3, Res.ok_bind]
    · rw [Bool.not_eq_false', h4]
      exact h2 ego (fun b t => collide (inflated a.shape s) (poly b.shape t) = true ∨
        collide (inflated b.shape t) (poly a.shape s) = true)

/-! ### C41: evaluators with memory -/

theorem stepCount_all (ws : List (World K St Act B E Sh Box O)) (n : Int) :
    evalAll stepCount ws n = .ok (n + ws.length, (List.range ws.length).map (fun i : ℕ => n + 1 + (i : Int))) := by
  induction ws generalizing n with
  | nil => simp [evalAll]
  | cons w ws ih =>
    unfold evalAll
    show (evalAll stepCount ws (n + 1) >>= _) = _
    rw [ih, Res.ok_bind]
    simp only [stepCount, List.length_cons, List.range_succ_eq_map, List.map_cons, List.map_map]
    congr 1
    refine Prod.ext (by push_cast; ring) ?_
    simp only [Nat.cast_zero, add_zero, List.cons.injEq, true_and]
    refine List.map_congr_left (fun i _ => ?_)
    simp only [Function.comp]
    push_cast; ring

/-- **C41** (steps): the results of a fresh step counter are 1, 2, 3, … -/
theorem C41_steps (ws : List (World K St Act B E Sh Box O)) :
    ∃ r, evalAll stepCount ws 0 = .ok (r, (List.range ws.length).map (fun i : ℕ => (i : Int) + 1)) := by
  refine ⟨0 + ws.length, ?_⟩
  rw [stepCount_all ws 0]
  congr 2
  refine List.map_congr_left (fun i _ => by ring)

theorem setInsert_fold (l s : List Nat) (hs : s.Nodup) :
    (l.foldl setInsert s).Nodup ∧ ∀ i, i ∈ l.foldl setInsert s ↔ i ∈ s ∨ i ∈ l := by
  induction l generalizing s with
  | nil => exact ⟨hs, by simp⟩
  | cons j l ih =>
    have h1 : (setInsert s j).Nodup := by
      unfold setInsert
      by_cases g : j ∈ s
      · rw [if_pos g]; exact hs
      · rw [if_neg g]
        exact List.nodup_append.2 ⟨hs, by simp, by
          intro a ha b hb; rw [List.mem_singleton] at hb; subst hb; rintro rfl; exact g ha⟩
    have h2 : ∀ i, i ∈ setInsert s j ↔ i ∈ s ∨ i = j := by
      intro i; unfold setInsert
      by_cases g : j ∈ s
      · rw [if_pos g]; exact ⟨Or.inl, fun h => h.elim id (fun e => e ▸ g)⟩
      · rw [if_neg g]; simp
    obtain ⟨h3, h4⟩ := ih _ h1
    refine ⟨h3, fun i => ?_⟩
    rw [List.foldl_cons, h4, h2]; simp [or_assoc]

theorem card_dedup {s l : List Nat} (hs : s.Nodup) (h : ∀ i, i ∈ s ↔ i ∈ l) : s.length = l.dedup.length :=
  ((List.perm_ext_iff_of_nodup hs (List.nodup_dedup l)).2 (fun i => by rw [h, List.mem_dedup])).length_eq

theorem numberOfAgents_all (id : Nat) (ws pre : List (World K St Act B E Sh Box O)) (seen : List Nat)
    (hn : seen.Nodup) (hs : ∀ i, i ∈ seen ↔ i ∈ seenIds id pre) :
    ∃ st r, evalAll (numberOfAgents id) ws seen = .ok (st, r) ∧ r.length = ws.length ∧
      ∀ n x, r[n]? = some x → x = (seenIds id (pre ++ ws.take (n + 1))).dedup.length := by
  induction ws generalizing pre seen with
  | nil => exact ⟨seen, [], rfl, rfl, by simp⟩
  | cons w ws ih =>
    have key : ∃ s', numberOfAgents id w seen = .ok (s', s'.length) ∧ s'.Nodup ∧
        ∀ i, i ∈ s' ↔ i ∈ seenIds id (pre ++ [w]) := by
      unfold numberOfAgents getAgent
      cases hf : OMap.find id w.agents with
      | none =>
        refine ⟨seen, rfl, hn, fun i => ?_⟩
        rw [hs]; unfold seenIds
        simp [hf]
      | some a =>
        obtain ⟨h1, h2⟩ := setInsert_fold (OMap.keys w.agents) seen hn
        refine ⟨_, rfl, h1, fun i => ?_⟩
        rw [h2, hs]; unfold seenIds
        rw [List.filter_append, List.flatMap_append, List.mem_append]
        simp [hf, OMap.keys]
    obtain ⟨s', h1, h2, h3⟩ := key
    obtain ⟨st, r, h4, h5, h6⟩ := ih (pre ++ [w]) s' h2 h3
    refine ⟨st, s'.length :: r, ?_, by simp [h5], ?_⟩
    · unfold evalAll
      rw [h1, Res.ok_bind]
      simp only
      rw [h4, Res.ok_bind]
    · intro n x hx
      cases n with
      | zero =>
        simp only [List.getElem?_cons_zero, Option.some.injEq] at hx
        subst hx
        simpa using card_dedup h2 h3
      | succ n =>
        rw [List.getElem?_cons_succ] at hx
        have := h6 n x hx
        rwa [List.append_assoc, List.singleton_append, ← List.take_succ_cons] at this

/-- **C41** (number of agents): after every evaluation the result is the number of different ids registered in those
evaluated worlds in which the evaluator's agent was registered. -/
theorem C41_number_of_agents (id : Nat) (ws : List (World K St Act B E Sh Box O)) :
    ∃ st r, evalAll (numberOfAgents id) ws [] = .ok (st, r) ∧ r.length = ws.length ∧
      ∀ n x, r[n]? = some x → x = (seenIds id (ws.take (n + 1))).dedup.length := by
  obtain ⟨st, r, h1, h2, h3⟩ := numberOfAgents_all id ws [] [] (by simp) (by simp [seenIds])
  exact ⟨st, r, h1, h2, by simpa using h3⟩

/-- **C41** (number of agents, monotone): the results never decrease. -/
theorem C41_number_mono (id : Nat) (ws : List (World K St Act B E Sh Box O)) (st : List Nat) (r : List Nat)
    (h : evalAll (numberOfAgents id) ws [] = .ok (st, r)) (i j : Nat) (x y : Nat) (hij : i ≤ j)
    (hx : r[i]? = some x) (hy : r[j]? = some y) : x ≤ y := by
  obtain ⟨st', r', h1, _, h3⟩ := C41_number_of_agents id ws
  rw [h] at h1
  injection h1 with h1; injection h1 with _ h1; subst h1
  rw [h3 i x hx, h3 j y hy]
  have hsub : seenIds id (ws.take (i + 1)) ⊆ seenIds id (ws.take (j + 1)) := by
    have : ws.take (i + 1) <+: ws.take (j + 1) := List.take_prefix_take_left (by omega)
    obtain ⟨m, hm⟩ := this
    rw [← hm]; unfold seenIds
    rw [List.filter_append, List.flatMap_append]
    exact List.subset_append_left _ _
  refine List.Subperm.length_le (List.subperm_of_subset (List.nodup_dedup _) ?_)
  intro z hz
  rw [List.mem_dedup] at *
  exact hsub hz

theorem mean_toOption (l : List K) : (mean l).toOption = if l = [] then none else some (l.sum / l.length) := by
  unfold mean
  cases l with
  | nil => rfl
  | cons a l =>
    simp only [List.isEmpty_cons, Bool.false_eq_true, if_false, reduceCtorEq]
    show some _ = some _
    rw [← List.sum_eq_foldl]

theorem meanOf_all (value : World K St Act B E Sh Box O → Agent K St Act B E Sh → Option K) (id : Nat)
    (ws pre : List (World K St Act B E Sh Box O)) :
    ∃ r, evalAll (meanOf (fun w a => .ok (value w a)) id) ws (recorded value id pre) =
        .ok (recorded value id (pre ++ ws), r) ∧ r.length = ws.length ∧
      ∀ n x, r[n]? = some x → x =
        (if recorded value id (pre ++ ws.take (n + 1)) = [] then none
         else some ((recorded value id (pre ++ ws.take (n + 1))).sum / (recorded value id (pre ++ ws.take (n + 1))).length)) := by
  induction ws generalizing pre with
  | nil => exact ⟨[], by simp [evalAll], rfl, by simp⟩
  | cons w ws ih =>
    obtain ⟨r, h1, h2, h3⟩ := ih (pre ++ [w])
    have key : meanOf (fun w a => .ok (value w a)) id w (recorded value id pre) =
        .ok (recorded value id (pre ++ [w]), (mean (recorded value id (pre ++ [w]))).toOption) := by
      unfold meanOf getAgent
      have hr : recorded value id (pre ++ [w]) =
          recorded value id pre ++ ((OMap.find id w.agents).bind (value w)).toList := by
        unfold recorded
        rw [List.filterMap_append]
        cases hq : (OMap.find id w.agents).bind (value w) <;> simp [hq]
      rw [hr]
      cases hf : OMap.find id w.agents with
      | none => simp
      | some a => simp only [Option.bind_some]; rfl
    refine ⟨(mean (recorded value id (pre ++ [w]))).toOption :: r, ?_, by simp [h2], ?_⟩
    · unfold evalAll
      rw [key, Res.ok_bind]
      simp only
      rw [h1, Res.ok_bind]
      simp
    · intro n x hx
      cases n with
      | zero =>
        simp only [List.getElem?_cons_zero, Option.some.injEq] at hx
        subst hx
        simpa using mean_toOption _
      | succ n =>
        rw [List.getElem?_cons_succ] at hx
        have := h3 n x hx
        rwa [List.append_assoc, List.singleton_append, ← List.take_succ_cons] at this

/-- **C41** (means: velocity, gap to the agent in front, planning time): after every evaluation the result is the
arithmetic mean of the values recorded so far, and undefined (NaN) exactly while none was recorded. -/
theorem C41_mean (value : World K St Act B E Sh Box O → Agent K St Act B E Sh → Option K) (id : Nat)
    (ws : List (World K St Act B E Sh Box O)) :
    ∃ st r, evalAll (meanOf (fun w a => .ok (value w a)) id) ws [] = .ok (st, r) ∧ r.length = ws.length ∧
      ∀ n x, r[n]? = some x → x =
        (if recorded value id (ws.take (n + 1)) = [] then none
         else some ((recorded value id (ws.take (n + 1))).sum / (recorded value id (ws.take (n + 1))).length)) := by
  obtain ⟨r, h1, h2, h3⟩ := meanOf_all value id ws []
  exact ⟨_, r, h1, h2, by simpa using h3⟩

theorem safeDist_all (check : Nat → World K St Act B E Sh Box O → Bool) (id : Nat)
    (ws : List (World K St Act B E Sh Box O)) (n : Int) (hp : ∀ w ∈ ws, (OMap.find id w.agents).isSome) :
    ∃ st r, evalAll (safeDist (fun i w => .ok (check i w)) id) ws n = .ok (st, r) ∧ r.length = ws.length ∧
      ∀ k x, r[k]? = some x → x = n + (((ws.take (k + 1)).filter (fun w => !check id w)).length : Int) := by
  induction ws generalizing n with
  | nil => exact ⟨n, [], rfl, rfl, by simp⟩
  | cons w ws ih =>
    obtain ⟨a, ha⟩ := Option.isSome_iff_exists.1 (hp w (by simp))
    obtain ⟨st, r, h1, h2, h3⟩ := ih (n + (if check id w then 0 else 1)) (fun v hv => hp v (by simp [hv]))
    refine ⟨st, (n + (if check id w then 0 else 1)) :: r, ?_, by simp [h2], ?_⟩
    · unfold evalAll safeDist getAgent
      rw [ha]
      show (evalAll (safeDist (fun i w => .ok (check i w)) id) ws _ >>= _) = _
      rw [h1, Res.ok_bind]
    · intro k x hx
      cases k with
      | zero =>
        simp only [List.getElem?_cons_zero, Option.some.injEq] at hx
        subst hx
        cases hc : check id w <;> simp [hc]
      | succ k =>
        rw [List.getElem?_cons_succ] at hx
        rw [h3 k x hx, List.take_succ_cons]
        cases hc : check id w <;> simp [hc] <;> ring

/-- **C41** (violations): as long as the agent exists, the result of a safe-distance evaluator after each evaluation is the
number of unsafe situations among the evaluations so far. -/
theorem C41_violations (check : Nat → World K St Act B E Sh Box O → Bool) (id : Nat)
    (ws : List (World K St Act B E Sh Box O)) (hp : ∀ w ∈ ws, (OMap.find id w.agents).isSome) :
    ∃ st r, evalAll (safeDist (fun i w => .ok (check i w)) id) ws 0 = .ok (st, r) ∧ r.length = ws.length ∧
      ∀ k x, r[k]? = some x → x = (((ws.take (k + 1)).filter (fun w => !check id w)).length : Int) := by
  obtain ⟨st, r, h1, h2, h3⟩ := safeDist_all check id ws 0 hp
  exact ⟨st, r, h1, h2, by simpa using h3⟩

/-- **C41** (violation): unlike the other evaluators, a safe-distance evaluator throws when its agent is gone: no count is
returned for the rest of the history. -/
theorem C41_violations_throw (check : Nat → World K St Act B E Sh Box O → Res Bool) (id : Nat)
    (w : World K St Act B E Sh Box O) (n : Int) (h : OMap.find id w.agents = none) :
    safeDist check id w n = .error .thrown := by
  unfold safeDist getAgent; rw [h]

/-! ### C42: goal reached, expiry, drivable area, distance to goal -/

theorem allAgents_eq : allAgents = 4294967295 := rfl

theorem goalLoop_asked {G : Type} (ask : G → Agent K St Act B E Sh → Res (G × Bool))
    (l : List (Nat × Agent K St Act B E Sh)) (g : G) (n : Nat) (g' : G) (k : Nat)
    (h : goalLoop ask l g n = .ok (g', k)) :
    ∃ bs, Asked ask (l.map Prod.snd) g bs g' ∧ k = n + (bs.filter id).length := by
  induction l generalizing g n with
  | nil => cases h; exact ⟨[], .nil _, by simp⟩
  | cons x l ih =>
    unfold goalLoop at h
    obtain ⟨⟨g1, b⟩, h1, h2⟩ := Res.bind_ok h
    obtain ⟨bs, h3, h4⟩ := ih _ _ h2
    refine ⟨b :: bs, .cons h1 h3, ?_⟩
    cases b <;> simp [h4] <;> omega

theorem asked_length {G A : Type} {ask : G → A → Res (G × Bool)} {l : List A} {g g' : G} {bs : List Bool}
    (h : Asked ask l g bs g') : bs.length = l.length := by
  induction h with
  | nil => rfl
  | cons _ _ ih => simp [ih]

/-- **C42** (all agents): the evaluator asks every registered agent exactly once, in the order of the ids, and answers true
exactly if every one of them answers that it is at its goal (so with no agents it answers true). -/
theorem C42_goal_all {G : Type} (ask : G → Agent K St Act B E Sh → Res (G × Bool)) (w : World K St Act B E Sh Box O)
    (g g' : G) (b : Bool) (h : goalReached ask 4294967295 w g = .ok (g', b)) :
    ∃ bs, Asked ask (w.agents.map Prod.snd) g bs g' ∧ (b = true ↔ ∀ x ∈ bs, x = true) := by
  unfold goalReached at h
  rw [if_pos allAgents_eq.symm] at h
  obtain ⟨⟨g1, k⟩, h1, h2⟩ := Res.bind_ok h
  obtain ⟨bs, h3, h4⟩ := goalLoop_asked ask _ _ _ _ _ h1
  cases h2
  refine ⟨bs, h3, ?_⟩
  have hl := asked_length h3
  rw [List.length_map] at hl
  rw [decide_eq_true_eq, h4, Nat.zero_add, ← hl, List.length_filter_eq_length_iff]
  simp

/-- **C42** (one agent): an unknown agent has not reached its goal, and nobody is asked; a known agent is asked once and
its answer returned. -/
theorem C42_goal_one {G : Type} (ask : G → Agent K St Act B E Sh → Res (G × Bool)) (w : World K St Act B E Sh Box O)
    (g : G) (id : Nat) (hid : id ≠ 4294967295) :
    (OMap.find id w.agents = none → goalReached ask id w g = .ok (g, false)) ∧
    ∀ a, OMap.find id w.agents = some a → goalReached ask id w g = ask g a := by
  constructor <;> intros <;> unfold goalReached getAgent <;> rw [allAgents_eq, if_neg hid] <;> simp [*]

/-- **C42** (expiry): true exactly if the agent is unknown or its behaviour is expired. -/
theorem C42_expired (w : World K St Act B E Sh Box O) (id : Nat) :
    behaviorExpired P id w = true ↔ ∀ a, OMap.find id w.agents = some a → P.status a.behavior = .expired := by
  unfold behaviorExpired getAgent
  cases OMap.find id w.agents with
  | none => simp
  | some a => simp

theorem drivableLoop_eq (poly : Sh → St → Poly) (within : Poly → Poly → Bool)
    (road : Agent K St Act B E Sh → Option Poly) (l : List (Nat × Agent K St Act B E Sh))
    (hl : ∀ x ∈ l, x.2.history ≠ []) (hr : ∀ x ∈ l, (road x.2).isSome) :
    ∃ r, drivableLoop poly within road l = .ok r ∧ (r = true ↔ ∃ x ∈ l, ∃ s rd, x.2.currentState = .ok s ∧
      road x.2 = some rd ∧ within (poly x.2.shape s) rd = false) := by
  induction l with
  | nil => exact ⟨false, rfl, by simp⟩
  | cons x l ih =>
    obtain ⟨r, h1, h2⟩ := ih (fun y hy => hl y (by simp [hy])) (fun y hy => hr y (by simp [hy]))
    obtain ⟨s, hs⟩ := currentState_total (hl x (by simp))
    obtain ⟨rd, hrd⟩ := Option.isSome_iff_exists.1 (hr x (by simp))
    unfold drivableLoop
    rw [polygon_eq poly hs, Res.ok_bind, hrd]
    simp only
    by_cases g : within (poly x.2.shape s) rd = false
    · rw [if_pos g]
      exact ⟨true, rfl, by simpa using Or.inl ⟨s, hs, rd, hrd, g⟩⟩
    · rw [if_neg g]
      refine ⟨r, h1, h2.trans ?_⟩
      simp only [List.mem_cons, exists_eq_or_imp]
      constructor
      · exact Or.inr
      · rintro (⟨s', rd', e1, e2, e3⟩ | h)
        · rw [hs] at e1; cases e1; rw [hrd] at e2; cases e2; exact absurd e3 g
        · exact h

/-- **C42** (drivable area, all agents): if every agent has a road corridor, the evaluator answers true exactly if some agent
that takes part with valid behaviour is not within the polygon of its corridor. -/
theorem C42_drivable_all (poly : Sh → St → Poly) (within : Poly → Poly → Bool)
    (road : Agent K St Act B E Sh → Option Poly) {w : World K St Act B E Sh Box O} (hs : OMap.Sorted w.agents)
    (hl : ∀ x ∈ w.agents, x.2.history ≠ []) (hr : ∀ x ∈ w.agents, (road x.2).isSome) :
    ∃ r, drivableArea P poly within road 4294967295 w = .ok r ∧
      (r = true ↔ ∃ id a s rd, Takes P w id a s ∧ road a = some rd ∧ within (poly a.shape s) rd = false) := by
  obtain ⟨hvs, hv⟩ := Props.C10_valid_agents P hs
  obtain ⟨r, h1, h2⟩ := drivableLoop_eq poly within road (getValidAgents P w)
    (fun x hx => hl x (List.mem_of_mem_filter hx)) (fun x hx => hr x (List.mem_of_mem_filter hx))
  refine ⟨r, ?_, h2.trans ⟨?_, ?_⟩⟩
  · unfold drivableArea
    rw [if_neg (by simp [allAgents])]; exact h1
  · rintro ⟨x, hx, s, rd, e1, e2, e3⟩
    have kx := (hv x.1 x.2).1 (OMap.mem_find_some hvs hx)
    exact ⟨x.1, x.2, s, rd, ⟨kx.1, kx.2.1, kx.2.2, (currentState_iff _ _).1 e1⟩, e2, e3⟩
  · rintro ⟨id, a, s, rd, ⟨a1, a2, a3, a4⟩, e2, e3⟩
    exact ⟨(id, a), OMap.find_some_mem ((hv id a).2 ⟨a1, a2, a3⟩), s, rd, (currentState_iff _ _).2 a4, e2, e3⟩

/-- **C42** (drivable area, one agent): an unknown agent counts as off the road; a known agent is off the road exactly if its
shape is not within its corridor — also while it does not take part; without a corridor the behaviour is undefined. -/
theorem C42_drivable_one (poly : Sh → St → Poly) (within : Poly → Poly → Bool)
    (road : Agent K St Act B E Sh → Option Poly) (w : World K St Act B E Sh Box O) (id : Nat) (hid : id ≠ 4294967295) :
    (OMap.find id w.agents = none → drivableArea P poly within road id w = .ok true) ∧
    ∀ a s, OMap.find id w.agents = some a → a.history.getLast?.map Prod.fst = some s →
      (∀ rd, road a = some rd → drivableArea P poly within road id w = .ok (!within (poly a.shape s) rd)) ∧
      (road a = none → drivableArea P poly within road id w = .error .ub) := by
  constructor
  · intro h
    unfold drivableArea getAgent
    rw [allAgents_eq, if_pos hid, h]
  · intro a s ha hs
    have hs' := (currentState_iff a s).2 hs
    have e : drivableArea P poly within road id w = drivableLoop poly within road [(id, a)] := by
      unfold drivableArea getAgent
      rw [allAgents_eq, if_pos hid, ha]
    constructor
    · intro rd hrd
      rw [e]
      unfold drivableLoop
      rw [polygon_eq poly hs', Res.ok_bind]
      simp only [hrd]
      cases hb : within (poly a.shape s) rd <;> simp [drivableLoop]
    · intro hrd
      rw [e]
      unfold drivableLoop
      rw [polygon_eq poly hs', Res.ok_bind]
      simp only [hrd]

/-- **C42** (distance to goal, violated): for an unknown agent the check only prints and a null pointer is used. -/
theorem C42_distance_unknown (dist : Agent K St Act B E Sh → Res K) (w : World K St Act B E Sh Box O) (id : Nat) :
    (OMap.find id w.agents = none → distanceToGoal dist id w = .error .ub) ∧
    ∀ a, OMap.find id w.agents = some a → distanceToGoal dist id w = dist a := by
  constructor <;> intros <;> unfold distanceToGoal getAgent <;> simp [*]

/-! ### C80: the world's evaluators -/

theorem evaluate_keys {N S R : Type} [LinearOrder N] (call : Nat → S → World K St Act B E Sh Box O → Res (S × R))
    (w : World K St Act B E Sh Box O) (evs : OMap N Nat) (st st' : Nat → S) (res : OMap N R)
    (h : evaluate call w evs st = .ok (st', res)) : res.map Prod.fst = evs.map Prod.fst := by
  induction evs generalizing st res with
  | nil => cases h; rfl
  | cons x evs ih =>
    unfold evaluate at h
    obtain ⟨r, h1, h2⟩ := Res.bind_ok h
    obtain ⟨r', h3, h4⟩ := Res.bind_ok h2
    cases h4
    simp only [List.map_cons]
    rw [ih _ _ h3]

/-- **C80**: if every evaluator object is registered under one name only, evaluating the world calls each registered
evaluator exactly once on its own state and returns exactly one result per registered name; no other evaluator changes. -/
theorem C80_evaluate {N S R : Type} [LinearOrder N] (call : Nat → S → World K St Act B E Sh Box O → Res (S × R))
    (w : World K St Act B E Sh Box O) (evs : OMap N Nat) (st st' : Nat → S) (res : OMap N R)
    (hd : (evs.map Prod.snd).Nodup) (hs : OMap.Sorted evs) (h : evaluate call w evs st = .ok (st', res)) :
    (∀ name, (OMap.find name res).isSome ↔ (OMap.find name evs).isSome) ∧
    (∀ name k, OMap.find name evs = some k → ∃ v, OMap.find name res = some v ∧ call k (st k) w = .ok (st' k, v)) ∧
    ∀ k, (∀ name, OMap.find name evs ≠ some k) → st' k = st k := by
  have hk := evaluate_keys call w evs st st' res h
  refine ⟨fun name => by
    rw [OMap.find_isSome_iff, OMap.find_isSome_iff, OMap.keys, OMap.keys, hk], ?_⟩
  clear hk
  induction evs generalizing st res with
  | nil => cases h; exact ⟨by simp [OMap.find], fun _ _ => rfl⟩
  | cons x evs ih =>
    unfold evaluate at h
    obtain ⟨⟨s1, v1⟩, h1, h2⟩ := Res.bind_ok h
    obtain ⟨⟨st1, res1⟩, h3, h4⟩ := Res.bind_ok h2
    injection h4 with h4; injection h4 with e1 e2; subst e1; subst e2
    simp only [List.map_cons, List.nodup_cons] at hd
    simp only at ih ⊢
    obtain ⟨i1, i2⟩ := ih _ _ hd.2 (List.Pairwise.of_cons hs) h3
    have hx1 : ∀ name, OMap.find name evs ≠ some x.2 := by
      intro name hc
      exact hd.1 (List.mem_map.2 ⟨_, OMap.find_some_mem hc, rfl⟩)
    have hfx : st1 x.2 = s1 := by rw [i2 x.2 hx1]; simp
    constructor
    · intro name k hf
      by_cases g : name = x.1
      · subst g
        simp only [OMap.find, if_pos] at hf ⊢
        cases hf
        exact ⟨v1, rfl, by rw [hfx]; exact h1⟩
      · have hf' : OMap.find name evs = some k := by
          simp only [OMap.find] at hf
          rwa [if_neg (by first | exact g | exact fun e => g e.symm)] at hf
        obtain ⟨v, j1, j2⟩ := i1 name k hf'
        refine ⟨v, ?_, ?_⟩
        · simp only [OMap.find]
          rwa [if_neg (by first | exact g | exact fun e => g e.symm)]
        · have hkx : k ≠ x.2 := by rintro rfl; exact hx1 name hf'
          rw [if_neg hkx] at j2
          exact j2
    · intro k hne
      have hkx : k ≠ x.2 := fun e => hne x.1 (by simp [OMap.find, e])
      rw [i2 k (fun name hc => ?_), if_neg hkx]
      have : name ≠ x.1 := by
        rintro rfl
        have := (List.pairwise_cons.1 hs).1 _ (OMap.find_some_mem hc)
        exact absurd this (lt_irrefl _)
      refine hne name ?_
      simp only [OMap.find]
      rwa [if_neg (by first | exact this | exact fun e => this e.symm)]

/-- **C80** (registration): after any sequence of registrations, a name refers to the evaluator registered last under it
(and the registry is a map, as `C80_evaluate` requires). -/
theorem C80_register {N : Type} [LinearOrder N] (ops : List (N × Nat)) :
    OMap.Sorted (ops.foldl (fun m o => addEvaluator m o.1 o.2) ([] : OMap N Nat)) ∧
    ∀ name, OMap.find name (ops.foldl (fun m o => addEvaluator m o.1 o.2) ([] : OMap N Nat)) =
      (ops.reverse.find? (fun o => decide (o.1 = name))).map Prod.snd := by
  induction ops using List.reverseRecOn with
  | nil => exact ⟨OMap.sorted_nil, fun _ => rfl⟩
  | append_singleton ops o ih =>
    rw [List.foldl_append]
    simp only [addEvaluator] at ih ⊢
    simp only [List.foldl_cons, List.foldl_nil]
    refine ⟨OMap.sorted_insert _ _ ih.1, fun name => ?_⟩
    rw [OMap.find_insert, List.reverse_append, List.reverse_singleton, List.singleton_append, List.find?_cons]
    by_cases g : name = o.1
    · subst g; simp
    · rw [if_neg g, ih.2]
      have : decide (o.1 = name) = false := decide_eq_false (fun e => g e.symm)
      rw [this]

/-- **C80** (violated): a clone of the world shares the evaluator objects.  If the step counter is evaluated once on a clone
(as predictive lookups do), the original's next result is 2, not 1. -/
theorem C80_clone_violated (w : World K St Act B E Sh Box O) :
    ∃ st1 st2 r1 r2, evaluate (fun _ n w => stepCount w n) w (cloneEvaluators (addEvaluator [] (0 : Nat) 7)) (fun _ => 0) =
        .ok (st1, r1) ∧
      evaluate (fun _ n w => stepCount w n) w (addEvaluator [] (0 : Nat) 7) st1 = .ok (st2, r2) ∧
      OMap.find 0 r2 = some 2 ∧
      (∃ st3 r3, evaluate (fun _ n w => stepCount w n) w (addEvaluator [] (0 : Nat) 7) (fun _ => 0) = .ok (st3, r3) ∧
        OMap.find 0 r3 = some 1) :=
  ⟨_, _, _, _, rfl, rfl, rfl, _, _, rfl, rfl⟩

/-! ### Witnesses and non-vacuity

States are positions, shapes are half sizes, boxes are centre and half size, over the rationals. -/

abbrev QBox := (ℚ × ℚ) × (ℚ × ℚ)

/-- two boxes overlap -/
def boxHit (a b : QBox) : Bool :=
  decide (|a.1.1 - b.1.1| ≤ a.2.1 + b.2.1 ∧ |a.1.2 - b.1.2| ≤ a.2.2 + b.2.2)

def qPlug : Plug ℚ (ℚ × ℚ) Unit Unit Unit (ℚ × ℚ) QBox Unit :=
  { status := fun _ => .valid, lastAction := fun _ => (), plan := fun b _ _ _ => b, execute := fun e _ _ => e,
    execStatus := fun _ => .valid, executedState := fun _ => (0, 0), observe := fun o w _ => (o, w),
    envelope := fun sh s => (s, sh), within := fun _ _ => true }

def car (id : Nat) (s sh : ℚ × ℚ) : Nat × Agent ℚ (ℚ × ℚ) Unit Unit Unit (ℚ × ℚ) :=
  (id, { id := id, behavior := (), exec := (), history := [(s, ())], maxHist := 5, firstValid := 0, shape := sh })

/-- a long ego vehicle 1, three small cars beside it, and car 5 overlapping its front -/
def crash : World ℚ (ℚ × ℚ) Unit Unit Unit (ℚ × ℚ) QBox Unit :=
  { agents := [car 1 (0, 0) (10, 1), car 2 (0, 3) (1, 1), car 3 (0, -3) (1, 1), car 4 (4, 3) (1, 1), car 5 (11, 0) (2, 1)]
    time := 0
    rtree := [(((0, 0), (10, 1)), 1), (((0, 3), (1, 1)), 2), (((0, -3), (1, 1)), 3), (((4, 3), (1, 1)), 4),
      (((11, 0), (2, 1)), 5)]
    removeAgents := false, mapBox := none, observer := () }

/-- squared distance of a point to an indexed box -/
def boxDist (p : ℚ × ℚ) (b : QBox × Nat) : ℚ :=
  max (|b.1.1.1 - p.1| - b.1.2.1) 0 ^ 2 + max (|b.1.1.2 - p.2| - b.1.2.2) 0 ^ 2

theorem crash_wf : Props.WellFormed crash := by
  refine ⟨by simp [OMap.Sorted, crash, car], ?_, by simp [crash]⟩
  intro id a h
  have hm := OMap.find_some_mem h
  simp only [crash, car, List.mem_cons, List.not_mem_nil, or_false, Prod.mk.injEq] at hm
  rcases hm with ⟨rfl, rfl⟩ | ⟨rfl, rfl⟩ | ⟨rfl, rfl⟩ | ⟨rfl, rfl⟩ | ⟨rfl, rfl⟩ <;> simp

theorem crash_fresh : rtreeOf qPlug crash.agents = .ok crash.rtree := rfl

/-- whatever the index returns as the 4 nearest boxes to the ego's position, the box of car 5 is not among them -/
theorem crash_far {l : List (QBox × Nat)} (h : IsKNearest 4 (boxDist (0, 0)) crash.rtree l) (b : QBox) :
    (b, 5) ∉ l := by
  obtain ⟨h1, h2, h3⟩ := h
  intro hin
  have hb := List.Subperm.subset h2 hin
  have hb5 : b = ((11, 0), (2, 1)) := by
    simp only [crash, List.mem_cons, List.not_mem_nil, or_false, Prod.mk.injEq] at hb
    rcases hb with ⟨_, h⟩ | ⟨_, h⟩ | ⟨_, h⟩ | ⟨_, h⟩ | ⟨h, _⟩
    · omega
    · omega
    · omega
    · omega
    · exact h
  subst hb5
  have hall : ∀ y ∈ crash.rtree, y ∈ l := by
    intro y hy
    by_contra hny
    have := h3 _ hin y hy hny
    have hne : y ≠ (((11, 0), (2, 1)), 5) := fun e => hny (e ▸ hin)
    have : ∀ y ∈ crash.rtree, y ≠ (((11, 0), (2, 1)), 5) → ¬ boxDist (0, 0) (((11, 0), (2, 1)), 5) ≤ boxDist (0, 0) y := by
      decide +kernel
    exact this y hy hne (by assumption)
  have hsub : List.Subperm crash.rtree l := List.subperm_of_subset (by decide +kernel) hall
  have := hsub.length_le
  rw [h1] at this
  revert this
  decide +kernel

/-- correct implementations of the query exist -/
theorem kNearest_exists {α D : Type} [LinearOrder D] (k : Nat) (dist : α → D) (l : List α) :
    ∃ r, IsKNearest k dist l r := by
  let R : α → α → Prop := fun x y => dist x ≤ dist y
  haveI : DecidableRel R := fun x y => inferInstanceAs (Decidable (dist x ≤ dist y))
  haveI : Std.Total R := ⟨fun x y => le_total _ _⟩
  haveI : IsTrans α R := ⟨fun x y z h1 h2 => le_trans h1 h2⟩
  have hp := List.perm_insertionSort R l
  have hs : (List.insertionSort R l).Pairwise R := List.pairwise_insertionSort R l
  refine ⟨(List.insertionSort R l).take k, by rw [List.length_take, hp.length_eq],
    ((List.take_sublist _ _).subperm).trans hp.subperm, ?_⟩
  intro x hx y hy hny
  rw [← List.take_append_drop k (List.insertionSort R l), List.pairwise_append] at hs
  have hy' := hp.mem_iff.2 hy
  rw [← List.take_append_drop k (List.insertionSort R l), List.mem_append] at hy'
  exact hs.2.2 x hx y (hy'.resolve_left hny)

example : ∃ nearest : ℚ × ℚ → List (QBox × Nat) → List (QBox × Nat), ∀ s l, IsKNearest 4 (boxDist s) l (nearest s l) :=
  ⟨fun s l => (kNearest_exists 4 (boxDist s) l).choose, fun s l => (kNearest_exists 4 (boxDist s) l).choose_spec⟩

/-- **C40 is violated** (ego): ego 1 overlaps car 5 and both take part, the index is fresh, but the ego-collision evaluator
answers "no collision" — for every correct implementation of the 4-nearest query. -/
theorem C40_ego_violated (nearest : ℚ × ℚ → List (QBox × Nat) → List (QBox × Nat))
    (hn : ∀ s l, IsKNearest 4 (boxDist s) l (nearest s l)) :
    collisionEgo qPlug (fun sh s => (s, sh)) boxHit nearest 1 crash = .ok false ∧
    ∃ a b s t, Takes qPlug crash 1 a s ∧ Takes qPlug crash 5 b t ∧ boxHit (s, a.shape) (t, b.shape) = true := by
  constructor
  · obtain ⟨_, h2⟩ := C40_ego qPlug (fun sh s => (s, sh)) boxHit nearest
      (fun s l p hp => List.Subperm.subset (hn s l).2.1 hp) crash_wf (Props.indexOk_of_fresh qPlug crash_fresh) 1
    obtain ⟨s, r, e, h3, h4⟩ := h2 _ rfl
    have hs : s = (0, 0) := by
      have : some ((0, 0) : ℚ × ℚ) = some s := e
      injection this with this; exact this.symm
    subst hs
    rw [h3]
    cases hr : r with
    | false => rfl
    | true =>
      obtain ⟨id, b, t, k1, ⟨bx, k2⟩, k3, k4⟩ := h4.1 hr
      have hne5 : id ≠ 5 := fun e5 => crash_far (hn (0, 0) crash.rtree) bx (e5 ▸ k2)
      have hm := OMap.find_some_mem k3.1
      have ht := k3.2.2.2
      simp only [crash, car, List.mem_cons, List.not_mem_nil, or_false, Prod.mk.injEq] at hm
      rcases hm with ⟨rfl, rfl⟩ | ⟨rfl, rfl⟩ | ⟨rfl, rfl⟩ | ⟨rfl, rfl⟩ | ⟨rfl, rfl⟩
      · exact absurd rfl k1
      · have e2 : t = (0, 3) := (Option.some.inj ht).symm
        subst e2; revert k4; decide +kernel
      · have e2 : t = (0, -3) := (Option.some.inj ht).symm
        subst e2; revert k4; decide +kernel
      · have e2 : t = (4, 3) := (Option.some.inj ht).symm
        subst e2; revert k4; decide +kernel
      · exact absurd rfl hne5
  · exact ⟨_, _, (0, 0), (11, 0), ⟨rfl, rfl, by norm_num [crash, car], rfl⟩, ⟨rfl, rfl, by norm_num [crash, car], rfl⟩,
      by decide +kernel⟩

/-- **C81 is violated**: in the same world, even a required distance of 1/2 on top of the overlap is reported as kept. -/
theorem C81_violated (nearest : ℚ × ℚ → List (QBox × Nat) → List (QBox × Nat))
    (hn : ∀ s l, IsKNearest 4 (boxDist s) l (nearest s l)) :
    staticSafe qPlug (fun sh s => (s, sh)) (fun sh s => (s, (sh.1 + 1 / 2, sh.2 + 1 / 2))) boxHit nearest 1 crash = .ok true ∧
    ∃ a b s t, Takes qPlug crash 1 a s ∧ Takes qPlug crash 5 b t ∧ boxHit (s, a.shape) (t, b.shape) = true := by
  refine ⟨?_, (C40_ego_violated nearest hn).2⟩
  obtain ⟨_, h2⟩ := C81_static_safe_partial qPlug (fun sh s => (s, sh))
    (fun sh s => (s, (sh.1 + 1 / 2, sh.2 + 1 / 2))) boxHit nearest
    (fun s l p hp => List.Subperm.subset (hn s l).2.1 hp) crash_wf (Props.indexOk_of_fresh qPlug crash_fresh) 1
  obtain ⟨s, r, e, h3, h4⟩ := h2 _ rfl
  have hs : s = (0, 0) := by
    have : some ((0, 0) : ℚ × ℚ) = some s := e
    injection this with this; exact this.symm
  subst hs
  rw [h3]
  cases hr : r with
  | true => rfl
  | false =>
    obtain ⟨id, b, t, k1, ⟨bx, k2⟩, k3, k4⟩ := h4.1 hr
    have hne5 : id ≠ 5 := fun e5 => crash_far (hn (0, 0) crash.rtree) bx (e5 ▸ k2)
    have hm := OMap.find_some_mem k3.1
    have ht := k3.2.2.2
    simp only [crash, car, List.mem_cons, List.not_mem_nil, or_false, Prod.mk.injEq] at hm
    rcases hm with ⟨rfl, rfl⟩ | ⟨rfl, rfl⟩ | ⟨rfl, rfl⟩ | ⟨rfl, rfl⟩ | ⟨rfl, rfl⟩
    · exact absurd rfl k1
    · have e2 : t = (0, 3) := (Option.some.inj ht).symm
      subst e2; revert k4; decide +kernel
    · have e2 : t = (0, -3) := (Option.some.inj ht).symm
      subst e2; revert k4; decide +kernel
    · have e2 : t = (4, 3) := (Option.some.inj ht).symm
      subst e2; revert k4; decide +kernel
    · exact absurd rfl hne5

/-- the agents-collision evaluator does report this collision (hypotheses of `C40_agents` are met) -/
example : collisionAgents qPlug (fun sh s => (s, sh)) boxHit crash = .ok true := by
  obtain ⟨r, h1, h2⟩ := C40_agents qPlug (fun sh s => (s, sh)) boxHit crash_wf.1 (Props.wf_hist crash_wf)
  have : r = true := h2.2 ⟨1, 5, _, _, (0, 0), (11, 0), by decide, ⟨rfl, rfl, by norm_num [crash, car], rfl⟩,
    ⟨rfl, rfl, by norm_num [crash, car], rfl⟩, by decide +kernel⟩
  rw [h1, this]

/-- three evaluations, the agent is missing in the second world -/
example : (evalAll (numberOfAgents 1) [crash, { crash with agents := [] },
    { crash with agents := [car 1 (0, 0) (1, 1), car 9 (0, 0) (1, 1)] }] []).toOption.map Prod.snd = some [5, 5, 6] := by
  decide +kernel

example : (evalAll (meanOf (fun _ a => .ok (some a.shape.1)) 1) [{ crash with agents := [] }, crash,
    { crash with agents := [car 1 (0, 0) (4, 1)] }] []).toOption.map Prod.snd = some [none, some 10, some 7] := by
  decide +kernel

end Bark.Eval
