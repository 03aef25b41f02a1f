import Verif.Props.Runtime
import Mathlib.Data.List.Range

/-!
C144–C146: `GetWorldState` called repeatedly, order of the scenarios handed out, iteration over a generator.
-/
set_option linter.unusedSectionVars false
namespace Bark.Run

variable {A M F J T : Type}

/-! ### C144 -/

/-- no object occurs twice in a world -/
def Injective (w : World M) : Prop := (w.agents.map Prod.snd).Nodup

theorem injective_of {w : World M} (hs : OMap.Sorted w.agents)
    (h : ∀ p ∈ w.agents, ∀ q ∈ w.agents, p.2 = q.2 → p = q) : Injective w := by
  unfold Injective
  refine List.Nodup.map_on ?_ (List.Pairwise.imp ?_ hs)
  · intro x hx y hy e; exact h x hx y hy e
  · intro a b hab e; subst e; exact Nat.lt_irrefl _ hab

theorem contents_update (f : Nat → A → A) (h : Heap A) (w : World M) (hw : Injective w) :
    contents (updateAll f h w.agents) w = (contents h w).map fun p => (p.1, f p.1 p.2) := by
  unfold contents
  rw [List.map_map]
  apply List.map_congr_left
  intro p hp
  simp only [Function.comp]
  rw [updateAll_content f w.agents h hw p hp]

theorem contents_plan (c : Code A M F J T) (t : T) (h : Heap A) (w : World M) (hw : Injective w) :
    contents (planWorld c t h w) w = Spec.planned c w.map t (contents h w) := contents_update _ h w hw

theorem contents_execute (c : Code A M F J T) (t : T) (h : Heap A) (w : World M) (hw : Injective w) :
    contents (executeWorld c t h w).1 w = Spec.executed c w.map t (contents h w) := contents_update _ h w hw

theorem contents_filter (h : Heap A) (w : World M) (f : Nat → Bool) :
    contents h { w with agents := w.agents.filter fun p => f p.1 } = (contents h w).filter fun p => f p.1 := by
  unfold contents
  rw [List.filter_map]
  rfl

theorem contents_step (c : Code A M F J T) (t : T) (h : Heap A) (w : World M) (hw : Injective w) :
    contents (stepWorld c t h w).1 (stepWorld c t h w).2 = Spec.advance c w.map t (contents h w) := by
  have h1 := contents_execute c t (planWorld c t h w) w hw
  rw [contents_plan c t h w hw] at h1
  unfold stepWorld Spec.advance
  rw [← h1]
  exact contents_filter _ w _

theorem indexed_unique {id : A → Nat} {as : List A} {cs ds : List (Nat × A)} (h1 : Spec.IsIndexed id as cs)
    (h2 : Spec.IsIndexed id as ds) : cs = ds := by
  have hi : ∀ x, x ∈ cs ↔ x ∈ ds := fun x => (h1.2 x.1 x.2).trans (h2.2 x.1 x.2).symm
  refine OMap.ext (κ := Nat) h1.1 h2.1 fun k => ?_
  cases hc : OMap.find k cs with
  | some v => exact (OMap.mem_find_some h2.1 ((hi _).1 (OMap.find_some_mem hc))).symm
  | none =>
    cases hd : OMap.find k ds with
    | none => rfl
    | some v =>
      rw [OMap.mem_find_some h1.1 ((hi _).2 (OMap.find_some_mem hd))] at hc
      cases hc

/-- C144: the world a scenario's `GetWorldState` returns holds the agents of the scenario in their present contents,
each with its corridor on the map: the initial world when no world of this scenario object was stepped before. The full
claim (the initial state is returned on every call) fails: `C144_second_call_not_initial`. -/
theorem C144_present_contents_partial (c : Code A M F J T) (dflt : J) (h h' : Heap A) (s s' : Scenario M F J)
    (w : World M) (hs : Spec.Proper h s) (e : getWorld c dflt h s = .ok (h', s', w)) :
    Spec.IsInitial c w.map (Spec.agentsOf h s) (contents h' w) :=
  ((getWorld_spec c dflt e).2.2.2.2.2.2 hs.1).1

/-- corridors do not change once generated, nor does generating change the id -/
def Settles (c : Code A M F J T) : Prop := ∀ m a a', c.corridor m a = .ok a' → c.corridor m a' = .ok a'

theorem settled_heap (c : Code A M F J T) (hc : Settles c) (m : M) (rs : List Nat) :
    ∀ (h h' : Heap A) (ag ag' : OMap Nat Nat), addAgents c m h ag rs = .ok (h', ag') → rs.Nodup →
      (∀ r ∈ rs, c.corridor m (h.cell r) = .ok (h.cell r)) → h' = h := by
  induction rs with
  | nil =>
    intro h h' ag ag' e _ _
    simp only [addAgents, Except.ok.injEq, Prod.mk.injEq] at e
    exact e.1.symm
  | cons r rs ih =>
    intro h h' ag ag' e hd hf
    have hd' := List.nodup_cons.1 hd
    have hset : h.set r (h.cell r) = h := by
      unfold Heap.set
      rw [Function.update_eq_self]
    simp only [addAgents, hf r (by simp)] at e
    rw [hset] at e
    exact ih _ _ _ _ e hd'.2 fun x hx => hf x (by simp [hx])

theorem getWorld_add (c : Code A M F J T) (dflt : J) {h h' : Heap A} {s s' : Scenario M F J} {w : World M}
    (e : getWorld c dflt h s = .ok (h', s', w)) : addAgents c w.map h [] s.agents = .ok (h', w.agents) := by
  unfold getWorld at e
  cases hm : mapOf c dflt s with
  | error f => rw [hm] at e; cases e
  | ok m =>
    rw [hm] at e
    simp only at e
    cases ha : addAgents c m h [] s.agents with
    | error f => rw [ha] at e; cases e
    | ok q =>
      rw [ha] at e
      simp only [Except.ok.injEq, Prod.mk.injEq] at e
      obtain ⟨rfl, rfl, rfl⟩ := e
      exact ha

/-- C144: called again at once, `GetWorldState` changes nothing and returns a world with the same agent objects: what
one of the two worlds does is seen in the other -/
theorem C144_same_objects (c : Code A M F J T) (dflt : J) (hc : Settles c) (h h1 h2 : Heap A)
    (s s1 s2 : Scenario M F J) (w1 w2 : World M) (hs : Spec.Proper h s) (e1 : getWorld c dflt h s = .ok (h1, s1, w1))
    (e2 : getWorld c dflt h1 s1 = .ok (h2, s2, w2)) :
    h2 = h1 ∧ w2.map = w1.map ∧ contents h2 w2 = contents h1 w1 ∧ w2.agents = w1.agents ∧
    ∀ t, contents (stepWorld c t h2 w1).1 w2 =
      Spec.executed c w1.map t (Spec.planned c w1.map t (contents h1 w1)) := by
  obtain ⟨a1, a2, a3, a4, a5, a6, a7⟩ := getWorld_spec c dflt e1
  obtain ⟨b1, b2, b3, b4, b5, b6, b7⟩ := getWorld_spec c dflt e2
  have hag : s1.agents = s.agents := by rw [a2]
  have hmap : w2.map = w1.map := by
    rw [a2] at b1
    simp only [mapOf, Except.ok.injEq] at b1
    exact b1.symm
  obtain ⟨⟨as', k1, k2⟩, k3, k4⟩ := a7 hs.1
  obtain ⟨⟨bs', l1, l2⟩, l3, l4⟩ := b7 (hag ▸ hs.1)
  -- the second run does not change the heap
  have hadd1 : addAgents c w1.map h [] s.agents = .ok (h1, w1.agents) := getWorld_add c dflt e1
  have hadd2 : addAgents c w1.map h1 [] s.agents = .ok (h2, w2.agents) := by
    have := getWorld_add c dflt e2
    rw [hmap, hag] at this
    exact this
  obtain ⟨g1, g2⟩ := addAgents_content c w1.map _ _ _ _ _ hadd1 hs.1
  obtain ⟨g3, g4⟩ := addAgents_content c w1.map _ _ _ _ _ hadd2 hs.1
  have hfix : ∀ r ∈ s.agents, c.corridor w1.map (h1.cell r) = .ok (h1.cell r) := by
    have hall : ∀ rs : List Nat,
        List.Forall₂ (fun a a' => c.corridor w1.map a = .ok a') (rs.map h.cell) (rs.map h1.cell) →
        ∀ r ∈ rs, c.corridor w1.map (h1.cell r) = .ok (h1.cell r) := by
      intro rs
      induction rs with
      | nil => intro _ r hr; simp at hr
      | cons x rs ih =>
        intro hf r hr
        rw [List.map_cons, List.map_cons, List.forall₂_cons] at hf
        rcases List.mem_cons.1 hr with rfl | hr
        · exact hc _ _ _ hf.1
        · exact ih hf.2 r hr
    exact hall _ g1
  have hh : h2 = h1 := settled_heap c hc w1.map _ _ _ _ _ hadd2 hs.1 hfix
  have hagents : w2.agents = w1.agents := by
    refine OMap.ext l3 k3 fun i => ?_
    rw [g2 i, g4 i, hh]
  refine ⟨hh, hmap, ?_, hagents, fun t => ?_⟩
  · unfold contents; rw [hh, hagents]
  · have hw : Injective w1 := injective_of k3 k4
    have h3 := contents_execute c t (planWorld c t h2 w1) w1 hw
    rw [contents_plan c t h2 w1 hw, hh] at h3
    rw [← h3]
    unfold contents stepWorld
    rw [hagents, hh]

/-- a small simulation: agents are counters with an id, each step adds one -/
def toy : Code (Nat × Nat) Unit Unit Unit Unit where
  id := Prod.fst
  pickled := fun a => a
  cloned := fun a => a
  corridor := fun _ a => .ok a
  load := fun _ _ => .ok ()
  plan := fun _ _ _ _ a => a
  execute := fun _ _ _ _ a => (a.1, a.2 + 1)
  stays := fun _ _ _ => true

theorem toy_settles : Settles toy := fun _ _ _ _ => rfl

def toyScenario : Scenario Unit Unit Unit := ⟨[0, 1], [7], (), some (), none, true⟩

def toyHeap : Heap (Nat × Nat) := ⟨2, fun r => if r = 0 then (7, 0) else (8, 10)⟩

/-- contents of the world of the first call, of the second call before a step and of one after a step -/
def toyCalls : List (List (Nat × (Nat × Nat))) :=
  match getWorld toy () toyHeap toyScenario with
  | .error _ => []
  | .ok (h1, s1, w1) =>
    match getWorld toy () h1 s1 with
    | .error _ => []
    | .ok (h2, s2, w2) =>
      match getWorld toy () (stepWorld toy () h2 w1).1 s2 with
      | .error _ => []
      | .ok (h4, _, w4) => [contents h1 w1, contents h2 w2, contents h4 w4]

/-- C144: the claim that `GetWorldState` gets the initial world state fails once a world of the same scenario object was
stepped -/
theorem C144_second_call_not_initial :
    toyCalls = [[(7, 7, 0), (8, 8, 10)], [(7, 7, 0), (8, 8, 10)], [(7, 7, 1), (8, 8, 11)]] ∧
    ¬ Spec.IsInitial toy () (Spec.agentsOf toyHeap toyScenario) [(7, 7, 1), (8, 8, 11)] := by
  refine ⟨by decide, ?_⟩
  rintro ⟨as', h1, h2⟩
  have e : as' = [(7, 0), (8, 10)] := by
    cases h1 with
    | cons a b =>
      cases b with
      | cons c d =>
        cases d
        have x1 : toy.corridor () (7, 0) = .ok (7, 0) := rfl
        have x2 : toy.corridor () (8, 10) = .ok (8, 10) := rfl
        have y1 := x1.symm.trans a
        have y2 := x2.symm.trans c
        simp only [Except.ok.injEq] at y1 y2
        rw [← y1, ← y2]
  subst e
  have := (h2.2 7 (7, 1)).1 (by simp)
  obtain ⟨pre, post, e, -⟩ := this
  have hm : ((7, 1) : Nat × Nat) ∈ pre ++ (7, 1) :: post := by simp
  rw [← e] at hm
  revert hm
  decide

example : Spec.Proper toyHeap toyScenario := by
  constructor
  · decide
  · decide

/-! ### C145: the order of scenarios -/

/-- the index the next call of `get_next_scenario` uses -/
def upcoming (g : Generator M F J) : Nat := if g.current ≥ g.list.length then 0 else g.current

theorem getNext_eq (c : Code A M F J T) (h : Heap A) (g : Generator M F J) :
    getNext c h g = match getScenario c h g (upcoming g) with
      | .error f => .error f
      | .ok (h', s) => .ok (h', { g with current := upcoming g + 1 }, s, upcoming g) := rfl

theorem getNext_list {c : Code A M F J T} {h h' : Heap A} {g g' : Generator M F J} {s : Scenario M F J} {k : Nat}
    (e : getNext c h g = .ok (h', g', s, k)) :
    g' = { g with current := upcoming g + 1 } ∧ k = upcoming g ∧ getScenario c h g k = .ok (h', s) := by
  rw [getNext_eq] at e
  cases e2 : getScenario c h g (upcoming g) with
  | error f => rw [e2] at e; cases e
  | ok q =>
    rw [e2] at e
    simp only [Except.ok.injEq, Prod.mk.injEq] at e
    obtain ⟨rfl, rfl, rfl, rfl⟩ := e
    exact ⟨rfl, rfl, e2⟩

theorem nextIter_list {c : Code A M F J T} {h h' : Heap A} {g g' : Generator M F J} {s : Scenario M F J} {k : Nat}
    (e : nextIter c h g = .ok (some (h', g', s, k))) :
    g.iter = some k ∧ k < g.list.length ∧ g' = { g with iter := some (k + 1) } ∧ getScenario c h g k = .ok (h', s) := by
  unfold nextIter at e
  cases e1 : g.iter with
  | none => rw [e1] at e; cases e
  | some j =>
    rw [e1] at e
    simp only at e
    by_cases hj : j < g.list.length
    · rw [if_pos hj] at e
      cases e2 : getScenario c h g (j : Int) with
      | error f => rw [e2] at e; cases e
      | ok q =>
        rw [e2] at e
        simp only [Except.ok.injEq, Option.some.injEq, Prod.mk.injEq] at e
        obtain ⟨rfl, rfl, rfl, rfl⟩ := e
        exact ⟨rfl, hj, rfl, e2⟩
    · rw [if_neg hj] at e; cases e

theorem pyIndex_nat {α : Type} (l : List α) (k : Nat) :
    pyIndex l (k : Int) = match l[k]? with | some a => .ok a | none => .error .thrown := by
  unfold pyIndex
  simp only
  rw [if_neg (show ¬ ((k : Int) < 0) from by omega), if_neg (show ¬ ((k : Int) < 0) from by omega)]
  simp only [Int.toNat_natCast]
  cases l[k]? <;> rfl

/-- in a generator whose scenarios have parameters every index in range is handed out -/
theorem get_ok (c : Code A M F J T) (h : Heap A) (g : Generator M F J) (hj : ∀ s ∈ g.list, s.json ≠ none) (k : Nat)
    (hk : k < g.list.length) : ∃ q, getScenario c h g k = .ok q := by
  unfold getScenario
  rw [pyIndex_nat, List.getElem?_eq_getElem hk]
  simp only [copyScenario]
  cases e : (g.list[k]).json with
  | none => exact absurd e (hj _ (List.getElem_mem hk))
  | some j => exact ⟨_, rfl⟩

/-- changes of the two counters by the calls -/
theorem apply_gen (c : Code A M F J T) (dflt : J) (st : State A M F J) (hj : ∀ s ∈ st.gen.list, s.json ≠ none)
    (hn : 0 < st.gen.list.length) (op : Op T) :
    (apply c dflt st op).gen = match op with
      | .next => { st.gen with current := upcoming st.gen + 1 }
      | .iter => { st.gen with iter := some 0 }
      | .iterNext => match st.gen.iter with
        | none => st.gen
        | some k => { st.gen with iter := some (if k < st.gen.list.length then k + 1 else k) }
      | _ => st.gen := by
  have hup : upcoming st.gen < st.gen.list.length := by
    unfold upcoming
    split_ifs with g
    · exact hn
    · omega
  cases op with
  | next =>
    obtain ⟨⟨h', s⟩, e⟩ := get_ok c st.heap st.gen hj (upcoming st.gen) hup
    simp only [apply, getNext_eq, e]
  | get i =>
    simp only [apply]
    cases getScenario c st.heap st.gen i <;> rfl
  | iter => rfl
  | iterNext =>
    simp only [apply]
    cases hi : st.gen.iter with
    | none => simp only [nextIter, hi]
    | some k =>
      simp only [nextIter, hi]
      by_cases hk : k < st.gen.list.length
      · obtain ⟨⟨h', s⟩, e⟩ := get_ok c st.heap st.gen hj k hk
        simp only [if_pos hk, e]
      · simp only [if_neg hk]
        rw [← hi]
  | worldOf k =>
    simp only [apply]
    cases st.served[k]? with
    | none => rfl
    | some s =>
      simp only
      cases getWorld c dflt st.heap s <;> rfl
  | copyOf k =>
    simp only [apply]
    cases st.served[k]? with
    | none => rfl
    | some s =>
      simp only
      cases copyScenario c st.heap s <;> rfl
  | step k t =>
    simp only [apply]
    cases st.worlds[k]? <;> rfl
  | copyWorld k =>
    simp only [apply]
    cases st.worlds[k]? <;> rfl

theorem mod_succ (m n : Nat) (hn : 0 < n) : (m + 1) % n = if m % n + 1 ≥ n then 0 else m % n + 1 := by
  have h1 : (m + 1) % n = (m % n + 1) % n := by rw [Nat.mod_add_mod]
  have h2 := Nat.mod_lt m hn
  rw [h1]
  split_ifs with g
  · have : m % n + 1 = n := by omega
    rw [this, Nat.mod_self]
  · exact Nat.mod_eq_of_lt (by omega)

theorem upcoming_after (c : Code A M F J T) (dflt : J) (ops : List (Op T)) :
    ∀ (st : State A M F J) (m : Nat), (∀ s ∈ st.gen.list, s.json ≠ none) → 0 < st.gen.list.length →
      upcoming st.gen = m % st.gen.list.length →
      (applyAll c dflt st ops).gen.list = st.gen.list ∧
      upcoming (applyAll c dflt st ops).gen = (m + Spec.nexts ops) % st.gen.list.length := by
  induction ops with
  | nil => intro st m _ _ h; exact ⟨rfl, h⟩
  | cons op ops ih =>
    intro st m hj hn h
    have hg := apply_gen c dflt st hj hn op
    have hlist : (apply c dflt st op).gen.list = st.gen.list := by
      rw [hg]; cases op <;> try rfl
      cases st.gen.iter <;> rfl
    have key : upcoming (apply c dflt st op).gen = (m + Spec.nexts [op]) % st.gen.list.length := by
      cases op with
      | next =>
        rw [hg]
        have : Spec.nexts [(Op.next : Op T)] = 1 := rfl
        rw [this, mod_succ m _ hn, ← h]
        rfl
      | iter => rw [hg]; exact h
      | iterNext =>
        rw [hg]
        cases st.gen.iter <;> exact h
      | get i => rw [hg]; exact h
      | worldOf k => rw [hg]; exact h
      | copyOf k => rw [hg]; exact h
      | step k t => rw [hg]; exact h
      | copyWorld k => rw [hg]; exact h
    have := ih (apply c dflt st op) (m + Spec.nexts [op]) (by rw [hlist]; exact hj) (by rw [hlist]; exact hn)
      (by rw [hlist]; exact key)
    rw [hlist] at this
    refine ⟨this.1, ?_⟩
    have hadd : Spec.nexts (op :: ops) = Spec.nexts [op] + Spec.nexts ops := by
      have : op :: ops = [op] ++ ops := rfl
      rw [this]
      unfold Spec.nexts
      rw [List.countP_append]
    rw [hadd, ← Nat.add_assoc]
    exact this.2

/-- C145: `get_next_scenario` hands out the scenarios in turn, over and over, whatever else is done in between: after
`m` calls the next one returns index `m mod n` and that scenario as created -/
theorem C145_in_turn (c : Code A M F J T) (dflt : J) (st : State A M F J) (hst : Start st)
    (hj : ∀ s ∈ st.gen.list, s.json ≠ none) (hn : 0 < st.gen.list.length) (ops : List (Op T)) :
    ∃ h' g' s s0, getNext c (applyAll c dflt st ops).heap (applyAll c dflt st ops).gen =
        .ok (h', g', s, Spec.nexts ops % st.gen.list.length) ∧
      st.gen.list[Spec.nexts ops % st.gen.list.length]? = some s0 ∧
      Spec.agentsOf h' s = (Spec.agentsOf st.heap s0).map c.pickled ∧ s.evalIds = s0.evalIds ∧ s.file = s0.file ∧
      s.json = s0.json ∧ s.map = s0.map := by
  have h0 : upcoming st.gen = 0 % st.gen.list.length := by
    unfold upcoming
    rw [hst.2.2.1, Nat.zero_mod]
    split_ifs <;> rfl
  obtain ⟨h1, h2⟩ := upcoming_after c dflt ops st 0 hj hn h0
  rw [Nat.zero_add] at h2
  obtain ⟨⟨h', s⟩, e⟩ := get_ok c (applyAll c dflt st ops).heap (applyAll c dflt st ops).gen
    (by rw [h1]; exact hj) (Spec.nexts ops % st.gen.list.length) (by rw [h1]; exact Nat.mod_lt _ hn)
  obtain ⟨s0, k1, k2, k3, -⟩ := C143_served_as_created c dflt st hst ops _ h' s e
  refine ⟨h', _, s, s0, by rw [getNext_eq, h2, e], ?_, k2, by rw [k3], by rw [k3], by rw [k3], by rw [k3]⟩
  rw [pyIndex_nat] at k1
  cases hx : st.gen.list[Spec.nexts ops % st.gen.list.length]? with
  | none => rw [hx] at k1; cases k1
  | some y =>
    rw [hx] at k1
    simp only [Except.ok.injEq] at k1
    rw [k1]

/-- C145: a generator without scenarios raises -/
theorem C145_empty (c : Code A M F J T) (h : Heap A) (g : Generator M F J) (he : g.list = []) :
    getNext c h g = .error .thrown := by
  rw [getNext_eq]
  have : getScenario c h g (upcoming g) = .error .thrown := by
    unfold getScenario
    rw [pyIndex_nat, he]
    rfl
  rw [this]

/-- C145: and so does a scenario without parameters, which cannot be copied -/
theorem C145_no_parameters (c : Code A M F J T) (h : Heap A) (s : Scenario M F J) (hj : s.json = none) :
    copyScenario c h s = .error .thrown := by
  simp only [copyScenario, hj]

/-! ### C146: iteration -/

theorem list_after (c : Code A M F J T) (dflt : J) (ops : List (Op T)) :
    ∀ (st : State A M F J), (∀ s ∈ st.gen.list, s.json ≠ none) → 0 < st.gen.list.length →
      (applyAll c dflt st ops).gen.list = st.gen.list := by
  induction ops with
  | nil => intro st _ _; rfl
  | cons op ops ih =>
    intro st hj hn
    have hg := apply_gen c dflt st hj hn op
    have hlist : (apply c dflt st op).gen.list = st.gen.list := by
      rw [hg]; cases op <;> try rfl
      cases st.gen.iter <;> rfl
    have := ih (apply c dflt st op) (by rw [hlist]; exact hj) (by rw [hlist]; exact hn)
    rw [hlist] at this
    exact this

theorem iter_after (c : Code A M F J T) (dflt : J) (ops : List (Op T)) :
    ∀ (st : State A M F J) (m : Nat), (∀ s ∈ st.gen.list, s.json ≠ none) → 0 < st.gen.list.length →
      Spec.NoIter ops → st.gen.iter = some (min m st.gen.list.length) →
      (applyAll c dflt st ops).gen.iter = some (min (m + Spec.iterNexts ops) st.gen.list.length) := by
  induction ops with
  | nil => intro st m _ _ _ h; exact h
  | cons op ops ih =>
    intro st m hj hn hno h
    have hg := apply_gen c dflt st hj hn op
    have hlist : (apply c dflt st op).gen.list = st.gen.list := by
      rw [hg]; cases op <;> try rfl
      cases st.gen.iter <;> rfl
    have key : (apply c dflt st op).gen.iter = some (min (m + Spec.iterNexts [op]) st.gen.list.length) := by
      cases op with
      | next => rw [hg]; exact h
      | iter => exact absurd rfl (hno .iter (by simp))
      | iterNext =>
        rw [hg, h]
        have e1 : Spec.iterNexts [(Op.iterNext : Op T)] = 1 := rfl
        rw [e1]
        simp only [Option.some.injEq]
        by_cases g : m < st.gen.list.length
        · rw [Nat.min_eq_left (Nat.le_of_lt g), if_pos g]; omega
        · rw [Nat.min_eq_right (by omega), if_neg (by omega)]; omega
      | get i => rw [hg]; exact h
      | worldOf k => rw [hg]; exact h
      | copyOf k => rw [hg]; exact h
      | step k t => rw [hg]; exact h
      | copyWorld k => rw [hg]; exact h
    have := ih (apply c dflt st op) (m + Spec.iterNexts [op]) (by rw [hlist]; exact hj) (by rw [hlist]; exact hn)
      (fun o ho => hno o (by simp [ho])) (by rw [hlist]; exact key)
    rw [hlist] at this
    have hadd : Spec.iterNexts (op :: ops) = Spec.iterNexts [op] + Spec.iterNexts ops := by
      have : op :: ops = [op] ++ ops := rfl
      rw [this]
      unfold Spec.iterNexts
      rw [List.countP_append]
    rw [hadd, ← Nat.add_assoc]
    exact this

theorem applyAll_append (c : Code A M F J T) (dflt : J) (st : State A M F J) (a b : List (Op T)) :
    applyAll c dflt st (a ++ b) = applyAll c dflt (applyAll c dflt st a) b := by
  unfold applyAll
  rw [List.foldl_append]

/-- C146: iterating over a generator gives the scenarios 0, 1, … n-1 as created and then stops, whatever else is done
in between (including `get_next_scenario`), as long as the generator is not iterated over a second time meanwhile -/
theorem C146_iteration (c : Code A M F J T) (dflt : J) (st : State A M F J) (hst : Start st)
    (hj : ∀ s ∈ st.gen.list, s.json ≠ none) (hn : 0 < st.gen.list.length) (before ops : List (Op T))
    (hno : Spec.NoIter ops) :
    let st' := applyAll c dflt st (before ++ .iter :: ops)
    (Spec.iterNexts ops < st.gen.list.length →
      ∃ h' g' s s0, nextIter c st'.heap st'.gen = .ok (some (h', g', s, Spec.iterNexts ops)) ∧
        st.gen.list[Spec.iterNexts ops]? = some s0 ∧
        Spec.agentsOf h' s = (Spec.agentsOf st.heap s0).map c.pickled ∧ s.evalIds = s0.evalIds ∧
        s.file = s0.file ∧ s.json = s0.json ∧ s.map = s0.map) ∧
    (st.gen.list.length ≤ Spec.iterNexts ops → nextIter c st'.heap st'.gen = .ok none) := by
  have e1 : before ++ .iter :: ops = (before ++ [.iter]) ++ ops := by simp
  have hlist := list_after c dflt before st hj hn
  have hb : applyAll c dflt st (before ++ [.iter]) = apply c dflt (applyAll c dflt st before) .iter := by
    rw [applyAll_append]; rfl
  have hiter : (applyAll c dflt st (before ++ .iter :: ops)).gen.iter =
      some (min (Spec.iterNexts ops) st.gen.list.length) := by
    rw [e1, applyAll_append, hb]
    have := iter_after c dflt ops (apply c dflt (applyAll c dflt st before) .iter) 0
      (by intro s hs; exact hj s (hlist ▸ hs)) (by
        show 0 < (applyAll c dflt st before).gen.list.length
        rw [hlist]; exact hn) hno (by
        show some 0 = _
        rw [Nat.zero_min])
    rw [Nat.zero_add] at this
    rw [this]
    show some (min _ (applyAll c dflt st before).gen.list.length) = _
    rw [hlist]
  have hl2 := list_after c dflt (before ++ .iter :: ops) st hj hn
  refine ⟨fun hlt => ?_, fun hge => ?_⟩
  · rw [Nat.min_eq_left (Nat.le_of_lt hlt)] at hiter
    obtain ⟨⟨h', s⟩, e⟩ := get_ok c (applyAll c dflt st (before ++ .iter :: ops)).heap
      (applyAll c dflt st (before ++ .iter :: ops)).gen (by rw [hl2]; exact hj) (Spec.iterNexts ops)
      (by rw [hl2]; exact hlt)
    obtain ⟨s0, k1, k2, k3, -⟩ := C143_served_as_created c dflt st hst _ _ h' s e
    refine ⟨h', _, s, s0, by unfold nextIter; rw [hiter]; simp only; rw [hl2, if_pos hlt, e], ?_, k2, by rw [k3],
      by rw [k3], by rw [k3], by rw [k3]⟩
    rw [pyIndex_nat] at k1
    cases hx : st.gen.list[Spec.iterNexts ops]? with
    | none => rw [hx] at k1; cases k1
    | some y =>
      rw [hx] at k1
      simp only [Except.ok.injEq] at k1
      rw [k1]
  · rw [Nat.min_eq_right hge] at hiter
    unfold nextIter
    rw [hiter]
    simp only
    rw [hl2, if_neg (Nat.lt_irrefl _)]

/-- C146: a loop over a generator inside a loop over the same generator ends the outer loop: after the inner one ran
through, the outer one gets `StopIteration` although it saw one scenario only. The full claim (a loop over a generator
sees every scenario) fails. -/
theorem C146_nested_ends_outer (c : Code A M F J T) (dflt : J) (st : State A M F J) (hst : Start st)
    (hj : ∀ s ∈ st.gen.list, s.json ≠ none) (hn : 0 < st.gen.list.length) :
    let st' := applyAll c dflt st ([.iter, .iterNext] ++ .iter :: List.replicate st.gen.list.length .iterNext)
    nextIter c st'.heap st'.gen = .ok none := by
  have hc : Spec.iterNexts (List.replicate st.gen.list.length (Op.iterNext : Op T)) = st.gen.list.length := by
    unfold Spec.iterNexts
    rw [List.countP_eq_length.2]
    · simp
    · intro a ha; rw [List.eq_of_mem_replicate ha]
  exact (C146_iteration c dflt st hst hj hn [.iter, .iterNext] _
    (by intro o ho; rw [List.eq_of_mem_replicate ho]; intro h; cases h)).2 (by rw [hc])

def toyState : State (Nat × Nat) Unit Unit Unit :=
  ⟨toyHeap, ⟨[toyScenario, { toyScenario with agents := [1] }], 0, none⟩, [], []⟩

/-- the hypotheses of C143, C145 and C146 are met by a generator with two scenarios (which even share an agent) -/
example : Start toyState ∧ (∀ s ∈ toyState.gen.list, s.json ≠ none) ∧ 0 < toyState.gen.list.length := by
  refine ⟨⟨rfl, rfl, rfl, ?_⟩, ?_, by decide⟩
  · intro s hs
    simp only [toyState, List.mem_cons, List.not_mem_nil, or_false] at hs
    rcases hs with rfl | rfl <;> exact ⟨by decide, by decide⟩
  · intro s hs
    simp only [toyState, List.mem_cons, List.not_mem_nil, or_false] at hs
    rcases hs with rfl | rfl <;> exact (by decide)

/-- a non-trivial history: handing out, making a world, stepping it, handing out the same scenario again -/
example : ((applyAll toy () toyState [.next, .worldOf 0, .step 0 (), .step 0 (), .next, .next, .worldOf 2]).worlds.map
    (contents (applyAll toy () toyState [.next, .worldOf 0, .step 0 (), .step 0 (), .next, .next, .worldOf 2]).heap)) =
    [[(7, 7, 2), (8, 8, 12)], [(7, 7, 0), (8, 8, 10)]] := by decide

end Bark.Run
