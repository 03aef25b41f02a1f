import Verif.Spec.Runtime
import Mathlib.Data.List.Basic
import Mathlib.Data.List.Nodup

/-!
C143–C145: scenarios served by a generator and worlds made from them.
-/
set_option linter.unusedSectionVars false
namespace Bark.Run

variable {A M F J T : Type}

/-! ### Heap lemmas -/

theorem set_cell (h : Heap A) (r : Nat) (a : A) (x : Nat) : (h.set r a).cell x = if x = r then a else h.cell x := by
  simp only [Heap.set, Function.update_apply]

theorem set_self (h : Heap A) (r : Nat) (a : A) : (h.set r a).cell r = a := by simp [set_cell]

theorem set_ne (h : Heap A) {r x : Nat} (a : A) (hx : x ≠ r) : (h.set r a).cell x = h.cell x := by simp [set_cell, hx]

theorem alloc_cell (h : Heap A) (a : A) (x : Nat) :
    (h.alloc a).1.cell x = if x = h.next then a else h.cell x := by
  simp only [Heap.alloc, Function.update_apply]

theorem alloc_next (h : Heap A) (a : A) : (h.alloc a).1.next = h.next + 1 := rfl

theorem alloc_ref (h : Heap A) (a : A) : (h.alloc a).2 = h.next := rfl

/-- nothing that existed in `h` differs in `h'` -/
def Frame (h h' : Heap A) : Prop := h.next ≤ h'.next ∧ ∀ x, x < h.next → h'.cell x = h.cell x

theorem Frame.refl (h : Heap A) : Frame h h := ⟨Nat.le_refl _, fun _ _ => rfl⟩

theorem Frame.trans {h h' h'' : Heap A} (a : Frame h h') (b : Frame h' h'') : Frame h h'' :=
  ⟨Nat.le_trans a.1 b.1, fun x hx => (b.2 x (Nat.lt_of_lt_of_le hx a.1)).trans (a.2 x hx)⟩

theorem alloc_frame (h : Heap A) (a : A) : Frame h (h.alloc a).1 :=
  ⟨Nat.le_succ _, fun x hx => by rw [alloc_cell, if_neg (Nat.ne_of_lt hx)]⟩

theorem lookup_mem {l : List (Nat × Nat)} {k v : Nat} (h : l.lookup k = some v) : (k, v) ∈ l := by
  induction l with
  | nil => simp at h
  | cons p l ih =>
    obtain ⟨a, b⟩ := p
    rw [List.lookup_cons] at h
    by_cases e : k = a
    · subst e
      simp at h
      simp [h]
    · have : (k == a) = false := by simpa using e
      rw [this] at h
      exact List.mem_cons_of_mem _ (ih h)

/-! ### Deep copies -/

/-- what a memo of a deep copy satisfies: it maps objects to their copies, made since `n` -/
def MemoOk (c : Code A M F J T) (n : Nat) (h : Heap A) (memo : List (Nat × Nat)) : Prop :=
  ∀ p ∈ memo, n ≤ p.2 ∧ p.2 < h.next ∧ h.cell p.2 = c.pickled (h.cell p.1) ∧ p.1 < n

theorem deepcopy_spec (c : Code A M F J T) (n : Nat) (rs : List Nat) :
    ∀ (h : Heap A) (memo : List (Nat × Nat)), n ≤ h.next → (∀ r ∈ rs, r < n) → MemoOk c n h memo →
      Frame h (deepcopy c h memo rs).1 ∧
      (∀ r ∈ (deepcopy c h memo rs).2, n ≤ r ∧ r < (deepcopy c h memo rs).1.next) ∧
      (deepcopy c h memo rs).2.map (deepcopy c h memo rs).1.cell = rs.map (fun r => c.pickled (h.cell r)) := by
  induction rs with
  | nil => intro h memo _ _ _; exact ⟨Frame.refl h, by simp [deepcopy], by simp [deepcopy]⟩
  | cons r rs ih =>
    intro h memo hn hr hm
    have hrn : r < n := hr r (by simp)
    have hrs : ∀ x ∈ rs, x < n := fun x hx => hr x (by simp [hx])
    cases e : memo.lookup r with
    | some r' =>
      have hp := hm _ (lookup_mem e)
      obtain ⟨f1, f2, f3⟩ := ih h memo hn hrs hm
      simp only [deepcopy, e]
      refine ⟨f1, ?_, ?_⟩
      · intro x hx
        rcases List.mem_cons.1 hx with rfl | hx
        · exact ⟨hp.1, Nat.lt_of_lt_of_le hp.2.1 f1.1⟩
        · exact f2 x hx
      · simp only [List.map_cons, f3]
        rw [f1.2 _ hp.2.1, hp.2.2.1]
    | none =>
      have hfr := alloc_frame h (c.pickled (h.cell r))
      have hm' : MemoOk c n (h.alloc (c.pickled (h.cell r))).1 ((r, h.next) :: memo) := by
        intro p hp
        rcases List.mem_cons.1 hp with rfl | hp
        · refine ⟨hn, Nat.lt_succ_self _, ?_, hrn⟩
          rw [alloc_cell, if_pos rfl, hfr.2 r (Nat.lt_of_lt_of_le hrn hn)]
        · obtain ⟨a, b, d, e'⟩ := hm p hp
          refine ⟨a, Nat.lt_succ_of_lt b, ?_, e'⟩
          rw [hfr.2 _ b, hfr.2 _ (Nat.lt_of_lt_of_le e' hn), d]
      obtain ⟨f1, f2, f3⟩ := ih (h.alloc (c.pickled (h.cell r))).1 ((r, h.next) :: memo)
        (Nat.le_succ_of_le hn) hrs hm'
      simp only [deepcopy, e, alloc_ref]
      refine ⟨hfr.trans f1, ?_, ?_⟩
      · intro x hx
        rcases List.mem_cons.1 hx with rfl | hx
        · exact ⟨hn, Nat.lt_of_lt_of_le (Nat.lt_succ_self _) f1.1⟩
        · exact f2 x hx
      · simp only [List.map_cons, f3]
        rw [f1.2 h.next (Nat.lt_succ_self _), alloc_cell, if_pos rfl]
        congr 1
        apply List.map_congr_left
        intro x hx
        rw [hfr.2 x (Nat.lt_of_lt_of_le (hrs x hx) hn)]

theorem deepcopy_nodup (c : Code A M F J T) (rs : List Nat) :
    ∀ (h : Heap A) (memo : List (Nat × Nat)), rs.Nodup → (∀ r ∈ rs, memo.lookup r = none) →
      (deepcopy c h memo rs).2.Nodup ∧ ∀ r ∈ (deepcopy c h memo rs).2, h.next ≤ r := by
  induction rs with
  | nil => intro h memo _ _; simp [deepcopy]
  | cons r rs ih =>
    intro h memo hd hl
    have hd' := List.nodup_cons.1 hd
    simp only [deepcopy, hl r (by simp), alloc_ref]
    have hl' : ∀ x ∈ rs, ((r, h.next) :: memo).lookup x = none := by
      intro x hx
      have hxr : (x == r) = false := by
        have : x ≠ r := fun e => hd'.1 (e ▸ hx)
        simpa using this
      rw [List.lookup_cons, hxr]
      exact hl x (by simp [hx])
    obtain ⟨f1, f2⟩ := ih (h.alloc (c.pickled (h.cell r))).1 ((r, h.next) :: memo) hd'.2 hl'
    rw [alloc_next] at f2
    refine ⟨List.nodup_cons.2 ⟨fun hx => ?_, f1⟩, ?_⟩
    · exact Nat.lt_irrefl _ (f2 _ hx)
    · intro x hx
      rcases List.mem_cons.1 hx with rfl | hx
      · exact Nat.le_refl _
      · exact Nat.le_of_succ_le (f2 x hx)

/-- what a copied scenario is -/
theorem copyScenario_spec (c : Code A M F J T) {h h' : Heap A} {s s' : Scenario M F J}
    (hs : ∀ r ∈ s.agents, r < h.next) (e : copyScenario c h s = .ok (h', s')) :
    Frame h h' ∧ (∀ r ∈ s'.agents, h.next ≤ r ∧ r < h'.next) ∧
    s'.agents.map h'.cell = s.agents.map (fun r => c.pickled (h.cell r)) ∧
    s' = { s with agents := s'.agents } ∧ (s.agents.Nodup → s'.agents.Nodup) := by
  unfold copyScenario at e
  cases hj : s.json with
  | none => rw [hj] at e; cases e
  | some j =>
    rw [hj] at e
    simp only [Except.ok.injEq, Prod.mk.injEq] at e
    obtain ⟨rfl, rfl⟩ := e
    obtain ⟨f1, f2, f3⟩ := deepcopy_spec c h.next s.agents h [] (Nat.le_refl _) hs (by intro p hp; simp at hp)
    exact ⟨f1, f2, f3, rfl, fun hd => (deepcopy_nodup c s.agents h [] hd (by simp)).1⟩

/-! ### Making a world -/

theorem addAgents_frame (c : Code A M F J T) (m : M) (rs : List Nat) :
    ∀ (h h' : Heap A) (ag ag' : OMap Nat Nat), addAgents c m h ag rs = .ok (h', ag') →
      h'.next = h.next ∧ (∀ x, x ∉ rs → h'.cell x = h.cell x) ∧ ∀ p ∈ ag', p ∈ ag ∨ p.2 ∈ rs := by
  induction rs with
  | nil =>
    intro h h' ag ag' e
    simp only [addAgents, Except.ok.injEq, Prod.mk.injEq] at e
    obtain ⟨rfl, rfl⟩ := e
    exact ⟨rfl, fun _ _ => rfl, fun p hp => Or.inl hp⟩
  | cons r rs ih =>
    intro h h' ag ag' e
    cases ea : c.corridor m (h.cell r) with
    | error f => simp only [addAgents, ea] at e; cases e
    | ok a =>
      simp only [addAgents, ea] at e
      obtain ⟨f1, f2, f3⟩ := ih _ _ _ _ e
      refine ⟨f1, fun x hx => ?_, fun p hp => ?_⟩
      · rw [f2 x (fun h => hx (by simp [h])), set_ne _ _ (fun h => hx (by simp [h]))]
      · rcases f3 p hp with g | g
        · rcases OMap.mem_insert_sub g with rfl | g
          · right; simp
          · exact Or.inl g
        · right; simp [g]

theorem addAgents_nodup (c : Code A M F J T) (m : M) (rs : List Nat) :
    ∀ (h h' : Heap A) (ag ag' : OMap Nat Nat), addAgents c m h ag rs = .ok (h', ag') → rs.Nodup →
      OMap.Sorted ag → (∀ p ∈ ag, p.2 ∉ rs) →
      (∀ p ∈ ag, ∀ q ∈ ag, p.2 = q.2 → p = q) →
      OMap.Sorted ag' ∧ ∀ p ∈ ag', ∀ q ∈ ag', p.2 = q.2 → p = q := by
  induction rs with
  | nil =>
    intro h h' ag ag' e _ hs _ hi
    simp only [addAgents, Except.ok.injEq, Prod.mk.injEq] at e
    obtain ⟨rfl, rfl⟩ := e
    exact ⟨hs, hi⟩
  | cons r rs ih =>
    intro h h' ag ag' e hd hs hx hi
    have hd' := List.nodup_cons.1 hd
    cases ea : c.corridor m (h.cell r) with
    | error f => simp only [addAgents, ea] at e; cases e
    | ok a =>
      simp only [addAgents, ea] at e
      refine ih _ _ _ _ e hd'.2 (OMap.sorted_insert _ _ hs) ?_ ?_
      · intro p hp
        rcases OMap.mem_insert_sub hp with rfl | hp
        · exact hd'.1
        · exact fun h => hx p hp (by simp [h])
      · intro p hp q hq epq
        rcases OMap.mem_insert_sub hp with rfl | hp <;> rcases OMap.mem_insert_sub hq with rfl | hq
        · rfl
        · exact absurd (by simp [← epq]) (hx q hq)
        · exact absurd (by simp [epq]) (hx p hp)
        · exact hi p hp q hq epq

theorem addAgents_content (c : Code A M F J T) (m : M) (rs : List Nat) :
    ∀ (h h' : Heap A) (ag ag' : OMap Nat Nat), addAgents c m h ag rs = .ok (h', ag') → rs.Nodup →
      List.Forall₂ (fun a a' => c.corridor m a = .ok a') (rs.map h.cell) (rs.map h'.cell) ∧
      ∀ i, OMap.find i ag' =
        (rs.reverse.find? (fun r => decide (c.id (h'.cell r) = i))).or (OMap.find i ag) := by
  induction rs with
  | nil =>
    intro h h' ag ag' e _
    simp only [addAgents, Except.ok.injEq, Prod.mk.injEq] at e
    obtain ⟨rfl, rfl⟩ := e
    exact ⟨by simp, by simp⟩
  | cons r rs ih =>
    intro h h' ag ag' e hd
    have hd' := List.nodup_cons.1 hd
    cases ea : c.corridor m (h.cell r) with
    | error f => simp only [addAgents, ea] at e; cases e
    | ok a =>
      simp only [addAgents, ea] at e
      have hr : h'.cell r = a := by
        rw [(addAgents_frame c m rs _ _ _ _ e).2.1 r hd'.1, set_self]
      obtain ⟨f1, f2⟩ := ih _ _ _ _ e hd'.2
      refine ⟨?_, fun i => ?_⟩
      · simp only [List.map_cons]
        refine List.Forall₂.cons (by rw [hr]; exact ea) ?_
        have : rs.map (h.set r a).cell = rs.map h.cell :=
          List.map_congr_left fun x hx => set_ne _ _ fun he => hd'.1 (he ▸ hx)
        rw [← this]; exact f1
      · rw [f2 i, List.reverse_cons, List.find?_append, OMap.find_insert]
        by_cases g : i = c.id a
        · subst g
          simp [hr]
        · have : ¬ c.id a = i := fun h => g h.symm
          simp [hr, g, this]

theorem addAgents_total (c : Code A M F J T) (m : M) (rs : List Nat) :
    ∀ (h : Heap A) (ag : OMap Nat Nat), rs.Nodup → (∀ r ∈ rs, ∃ a, c.corridor m (h.cell r) = .ok a) →
      ∃ q, addAgents c m h ag rs = .ok q := by
  induction rs with
  | nil => intro h ag _ _; exact ⟨_, rfl⟩
  | cons r rs ih =>
    intro h ag hd ha
    have hd' := List.nodup_cons.1 hd
    obtain ⟨a, ea⟩ := ha r (by simp)
    simp only [addAgents, ea]
    refine ih _ _ hd'.2 fun x hx => ?_
    rw [set_ne _ _ (fun he : x = r => hd'.1 (he ▸ hx))]
    exact ha x (by simp [hx])

theorem sorted_contents {h : Heap A} {w : World M} (hs : OMap.Sorted w.agents) :
    (contents h w).Pairwise (fun a b => a.1 < b.1) := by
  unfold contents
  rw [List.pairwise_map]
  exact hs

/-- what `GetWorldState` does -/
theorem getWorld_spec (c : Code A M F J T) (dflt : J) {h h' : Heap A} {s s' : Scenario M F J} {w : World M}
    (e : getWorld c dflt h s = .ok (h', s', w)) :
    mapOf c dflt s = .ok w.map ∧ s' = { s with map := some w.map } ∧
    w.observeFor = (if s.observer then some s.evalIds else none) ∧
    h'.next = h.next ∧ (∀ x, x ∉ s.agents → h'.cell x = h.cell x) ∧ (∀ p ∈ w.agents, p.2 ∈ s.agents) ∧
    (s.agents.Nodup →
      Spec.IsInitial c w.map (Spec.agentsOf h s) (contents h' w) ∧ OMap.Sorted w.agents ∧
      ∀ p ∈ w.agents, ∀ q ∈ w.agents, p.2 = q.2 → p = q) := by
  unfold getWorld at e
  cases hm : mapOf c dflt s with
  | error f => rw [hm] at e; cases e
  | ok m =>
    rw [hm] at e
    simp only at e
    cases ha : addAgents c m h [] s.agents with
    | error f => rw [ha] at e; cases e
    | ok q =>
      obtain ⟨h1, ag⟩ := q
      rw [ha] at e
      simp only [Except.ok.injEq, Prod.mk.injEq] at e
      obtain ⟨rfl, rfl, rfl⟩ := e
      obtain ⟨f1, f2, f3⟩ := addAgents_frame c m _ _ _ _ _ ha
      refine ⟨rfl, rfl, rfl, f1, f2, fun p hp => ?_, fun hd => ?_⟩
      · rcases f3 p hp with g | g
        · simp at g
        · exact g
      · obtain ⟨g1, g2⟩ := addAgents_nodup c m _ _ _ _ _ ha hd OMap.sorted_nil (by simp) (by simp)
        obtain ⟨k1, k2⟩ := addAgents_content c m _ _ _ _ _ ha hd
        refine ⟨⟨_, k1, sorted_contents g1, fun i a => ?_⟩, g1, g2⟩
        constructor
        · intro hia
          unfold contents at hia
          obtain ⟨⟨j, r⟩, hp, ep⟩ := List.mem_map.1 hia
          simp only [Prod.mk.injEq] at ep
          obtain ⟨rfl, rfl⟩ := ep
          have hf := OMap.mem_find_some g1 hp
          have h2 := k2 j
          rw [hf] at h2
          have h3 : s.agents.reverse.find? (fun r => decide (c.id (h1.cell r) = j)) = some r := by
            cases hh : s.agents.reverse.find? (fun r => decide (c.id (h1.cell r) = j)) with
            | none => rw [hh] at h2; simp [OMap.find] at h2
            | some x => rw [hh] at h2; simp at h2; rw [h2]
          rw [List.find?_eq_some_iff_append] at h3
          obtain ⟨hid, as, bs, eab, hno⟩ := h3
          refine ⟨(bs.reverse).map h1.cell, (as.reverse).map h1.cell, ?_, by simpa using hid, ?_⟩
          · have : s.agents = bs.reverse ++ r :: as.reverse := by
              have := congrArg List.reverse eab
              simpa using this
            rw [this]; simp
          · intro b hb
            obtain ⟨x, hx, rfl⟩ := List.mem_map.1 hb
            have := hno x (by simpa using hx)
            simpa using this
        · rintro ⟨pre, post, eq, hid, hno⟩
          obtain ⟨l1, l2, e1, rfl, e3⟩ := List.map_eq_append_iff.1 eq
          obtain ⟨r, l3, rfl, rfl, rfl⟩ := List.map_eq_cons_iff.1 e3
          have h3 : s.agents.reverse.find? (fun r => decide (c.id (h1.cell r) = i)) = some r := by
            rw [List.find?_eq_some_iff_append]
            refine ⟨by simpa using hid, l3.reverse, l1.reverse, by simp [e1], ?_⟩
            intro x hx
            have := hno (h1.cell x) (List.mem_map.2 ⟨x, by simpa using hx, rfl⟩)
            simpa using this
          have h2 := k2 i
          rw [h3] at h2
          have := OMap.find_some_mem (show OMap.find i ag = some r by simpa using h2)
          exact List.mem_map.2 ⟨(i, r), this, rfl⟩

/-! ### Stepping and cloning worlds -/

theorem updateAll_frame (f : Nat → A → A) (m : OMap Nat Nat) :
    ∀ h : Heap A, (updateAll f h m).next = h.next ∧
      ∀ x, (∀ p ∈ m, p.2 ≠ x) → (updateAll f h m).cell x = h.cell x := by
  induction m with
  | nil => intro h; exact ⟨rfl, fun _ _ => rfl⟩
  | cons p m ih =>
    obtain ⟨i, r⟩ := p
    intro h
    obtain ⟨f1, f2⟩ := ih (h.set r (f i (h.cell r)))
    refine ⟨f1, fun x hx => ?_⟩
    rw [updateAll, f2 x (fun p hp => hx p (by simp [hp])), set_ne]
    exact fun e => hx (i, r) (by simp) e.symm

theorem updateAll_content (f : Nat → A → A) (m : OMap Nat Nat) :
    ∀ h : Heap A, (m.map Prod.snd).Nodup → ∀ p ∈ m, (updateAll f h m).cell p.2 = f p.1 (h.cell p.2) := by
  induction m with
  | nil => intro h _ p hp; simp at hp
  | cons p m ih =>
    obtain ⟨i, r⟩ := p
    intro h hd q hq
    have hd' := List.nodup_cons.1 hd
    have hr : ∀ p ∈ m, p.2 ≠ r := fun p hp he => hd'.1 (List.mem_map.2 ⟨p, hp, he⟩)
    rcases List.mem_cons.1 hq with rfl | hq
    · rw [updateAll, (updateAll_frame f m _).2 r hr, set_self]
    · rw [updateAll, ih _ hd'.2 q hq, set_ne _ _ (hr q hq)]

theorem step_frame (c : Code A M F J T) (t : T) (h : Heap A) (w : World M) :
    (stepWorld c t h w).1.next = h.next ∧
    (∀ x, (∀ p ∈ w.agents, p.2 ≠ x) → (stepWorld c t h w).1.cell x = h.cell x) ∧
    ∀ p ∈ (stepWorld c t h w).2.agents, p ∈ w.agents := by
  unfold stepWorld executeWorld planWorld
  refine ⟨?_, fun x hx => ?_, fun p hp => ?_⟩
  · simp only [(updateAll_frame _ _ _).1]
  · simp only [(updateAll_frame _ _ _).2 x hx]
  · exact (List.mem_filter.1 hp).1

theorem cloneAgents_spec (c : Code A M F J T) (m : OMap Nat Nat) :
    ∀ h : Heap A, (∀ p ∈ m, p.2 < h.next) →
      Frame h (cloneAgents c h m).1 ∧
      (∀ p ∈ (cloneAgents c h m).2, h.next ≤ p.2 ∧ p.2 < (cloneAgents c h m).1.next) ∧
      (cloneAgents c h m).2.map (fun p => (p.1, (cloneAgents c h m).1.cell p.2)) =
        m.map (fun p => (p.1, c.cloned (h.cell p.2))) := by
  induction m with
  | nil => intro h _; exact ⟨Frame.refl h, by simp [cloneAgents], by simp [cloneAgents]⟩
  | cons p m ih =>
    obtain ⟨i, r⟩ := p
    intro h hm
    have hfr := alloc_frame h (c.cloned (h.cell r))
    obtain ⟨f1, f2, f3⟩ := ih (h.alloc (c.cloned (h.cell r))).1
      (fun p hp => Nat.lt_succ_of_lt (hm p (by simp [hp])))
    rw [alloc_next] at f2
    simp only [cloneAgents, alloc_ref]
    refine ⟨hfr.trans f1, ?_, ?_⟩
    · intro p hp
      rcases List.mem_cons.1 hp with rfl | hp
      · exact ⟨Nat.le_refl _, Nat.lt_of_lt_of_le (Nat.lt_succ_self _) f1.1⟩
      · exact ⟨Nat.le_of_succ_le (f2 p hp).1, (f2 p hp).2⟩
    · simp only [List.map_cons, f3]
      rw [f1.2 h.next (Nat.lt_succ_self _), alloc_cell, if_pos rfl]
      congr 1
      apply List.map_congr_left
      intro p hp
      rw [hfr.2 _ (hm p (by simp [hp]))]

/-! ### The invariant of histories -/

/-- `r` is an agent of one of the generator's own scenarios -/
def Stored (l : List (Scenario M F J)) (r : Nat) : Prop := ∃ s ∈ l, r ∈ s.agents

/-- the generator's own scenarios are untouched, what the user holds is elsewhere, and scenarios handed out share no
agent with each other -/
structure Inv (st0 st : State A M F J) : Prop where
  list : st.gen.list = st0.gen.list
  next : ∀ r, Stored st0.gen.list r → r < st.heap.next
  same : ∀ r, Stored st0.gen.list r → st.heap.cell r = st0.heap.cell r
  served : ∀ s ∈ st.served, ∀ r ∈ s.agents, r < st.heap.next ∧ ¬ Stored st0.gen.list r
  worlds : ∀ w ∈ st.worlds, ∀ p ∈ w.agents, p.2 < st.heap.next ∧ ¬ Stored st0.gen.list p.2
  apart : st.served.Pairwise Spec.Apart

/-- a scenario copied from an existing one may be added -/
theorem inv_copy (c : Code A M F J T) {st0 st : State A M F J} (hi : Inv st0 st) {s s' : Scenario M F J} {h' : Heap A}
    {g' : Generator M F J} (hg : g'.list = st.gen.list) (hs : ∀ r ∈ s.agents, r < st.heap.next)
    (e : copyScenario c st.heap s = .ok (h', s')) : Inv st0 ⟨h', g', st.served ++ [s'], st.worlds⟩ := by
  obtain ⟨f1, f2, -, -, -⟩ := copyScenario_spec c hs e
  refine ⟨hg.trans hi.list, fun r hr => Nat.lt_of_lt_of_le (hi.next r hr) f1.1,
    fun r hr => (f1.2 r (hi.next r hr)).trans (hi.same r hr), ?_, ?_, ?_⟩
  · intro x hx r hr
    rcases List.mem_append.1 hx with hx | hx
    · exact ⟨Nat.lt_of_lt_of_le (hi.served x hx r hr).1 f1.1, (hi.served x hx r hr).2⟩
    · have : x = s' := by simpa using hx
      subst this
      exact ⟨(f2 r hr).2, fun hst => Nat.lt_irrefl _ (Nat.lt_of_lt_of_le (hi.next r hst) (f2 r hr).1)⟩
  · intro w hw p hp
    exact ⟨Nat.lt_of_lt_of_le (hi.worlds w hw p hp).1 f1.1, (hi.worlds w hw p hp).2⟩
  · rw [List.pairwise_append]
    refine ⟨hi.apart, by simp, fun a ha b hb r hr hrb => ?_⟩
    have : b = s' := by simpa using hb
    subst this
    exact Nat.lt_irrefl _ (Nat.lt_of_lt_of_le (hi.served a ha r hr).1 (f2 r hrb).1)

theorem pyIndex_mem {α : Type} {l : List α} {i : Int} {a : α} (h : pyIndex l i = .ok a) : a ∈ l := by
  unfold pyIndex at h
  simp only at h
  generalize (if i < 0 then i + (l.length : Int) else i) = j at h
  by_cases g : j < 0
  · rw [if_pos g] at h; cases h
  · rw [if_neg g] at h
    cases e : l[j.toNat]? with
    | none => rw [e] at h; cases h
    | some x =>
      rw [e] at h
      simp only [Except.ok.injEq] at h
      subst h
      exact List.mem_of_getElem? e

theorem getScenario_copy {c : Code A M F J T} {h h' : Heap A} {g : Generator M F J} {i : Int} {s : Scenario M F J}
    (e : getScenario c h g i = .ok (h', s)) :
    ∃ s0, pyIndex g.list i = .ok s0 ∧ copyScenario c h s0 = .ok (h', s) := by
  unfold getScenario at e
  cases hp : pyIndex g.list i with
  | error f => rw [hp] at e; cases e
  | ok s0 => rw [hp] at e; exact ⟨s0, rfl, e⟩

theorem inv_get (c : Code A M F J T) {st0 st : State A M F J} (hi : Inv st0 st) {i : Int} {s : Scenario M F J}
    {h' : Heap A} {g' : Generator M F J} (hg : g'.list = st.gen.list)
    (e : getScenario c st.heap st.gen i = .ok (h', s)) : Inv st0 ⟨h', g', st.served ++ [s], st.worlds⟩ := by
  obtain ⟨s0, h1, h2⟩ := getScenario_copy e
  refine inv_copy c hi hg (fun r hr => hi.next r ⟨s0, ?_, hr⟩) h2
  rw [← hi.list]; exact pyIndex_mem h1

theorem pairwise_set {α : Type} {R : α → α → Prop} {l : List α} {k : Nat} {x y : α} (h : l.Pairwise R)
    (hx : l[k]? = some x) (h1 : ∀ z, R z x → R z y) (h2 : ∀ z, R x z → R y z) : (l.set k y).Pairwise R := by
  induction l generalizing k with
  | nil => simp at hx
  | cons a l ih =>
    rw [List.pairwise_cons] at h
    cases k with
    | zero =>
      simp only [List.getElem?_cons_zero, Option.some.injEq] at hx
      subst hx
      rw [List.set_cons_zero, List.pairwise_cons]
      exact ⟨fun z hz => h2 z (h.1 z hz), h.2⟩
    | succ k =>
      simp only [List.getElem?_cons_succ] at hx
      rw [List.set_cons_succ, List.pairwise_cons]
      refine ⟨fun z hz => ?_, ih h.2 hx⟩
      rcases List.mem_or_eq_of_mem_set hz with g | rfl
      · exact h.1 z g
      · exact h1 a (h.1 x (List.mem_of_getElem? hx))

/-- each call keeps the invariant -/
theorem inv_apply (c : Code A M F J T) (dflt : J) {st0 st : State A M F J} (hi : Inv st0 st) (op : Op T) :
    Inv st0 (apply c dflt st op) := by
  cases op with
  | next =>
    simp only [apply]
    cases e : getNext c st.heap st.gen with
    | error f => exact hi
    | ok q =>
      obtain ⟨h, g, s, k⟩ := q
      unfold getNext at e
      simp only at e
      generalize (if st.gen.current ≥ st.gen.list.length then 0 else st.gen.current) = j at e
      cases e2 : getScenario c st.heap st.gen (j : Int) with
      | error f => rw [e2] at e; cases e
      | ok q =>
        obtain ⟨h2, s2⟩ := q
        rw [e2] at e
        simp only [Except.ok.injEq, Prod.mk.injEq] at e
        obtain ⟨rfl, rfl, rfl, rfl⟩ := e
        exact inv_get c hi rfl e2
  | get i =>
    simp only [apply]
    cases e : getScenario c st.heap st.gen i with
    | error f => exact hi
    | ok q => exact inv_get c hi rfl e
  | iter => exact ⟨hi.list, hi.next, hi.same, hi.served, hi.worlds, hi.apart⟩
  | iterNext =>
    simp only [apply]
    cases e : nextIter c st.heap st.gen with
    | error f => exact hi
    | ok q =>
      cases q with
      | none => exact hi
      | some q =>
        obtain ⟨h, g, s, k⟩ := q
        unfold nextIter at e
        cases e1 : st.gen.iter with
        | none => rw [e1] at e; cases e
        | some j =>
          rw [e1] at e
          simp only at e
          by_cases hj : j < st.gen.list.length
          · rw [if_pos hj] at e
            cases e2 : getScenario c st.heap st.gen (j : Int) with
            | error f => rw [e2] at e; cases e
            | ok q =>
              obtain ⟨h2, s2⟩ := q
              rw [e2] at e
              simp only [Except.ok.injEq, Option.some.injEq, Prod.mk.injEq] at e
              obtain ⟨rfl, rfl, rfl, rfl⟩ := e
              exact inv_get c hi rfl e2
          · rw [if_neg hj] at e; cases e
  | worldOf k =>
    simp only [apply]
    cases e : st.served[k]? with
    | none => exact hi
    | some s =>
      have hs : s ∈ st.served := List.mem_of_getElem? e
      simp only
      cases e2 : getWorld c dflt st.heap s with
      | error f => exact hi
      | ok q =>
        obtain ⟨h', s', w⟩ := q
        obtain ⟨-, g2, -, g3, g4, g5, -⟩ := getWorld_spec c dflt e2
        have ha : s'.agents = s.agents := by rw [g2]
        refine ⟨hi.list, fun r hr => by rw [g3]; exact hi.next r hr, fun r hr => ?_, ?_, ?_, ?_⟩
        · rw [g4 r (fun hrs => (hi.served s hs r hrs).2 hr)]
          exact hi.same r hr
        · intro x hx r hr
          have hx' : r < st.heap.next ∧ ¬ Stored st0.gen.list r := by
            rcases List.mem_or_eq_of_mem_set hx with g | rfl
            · exact hi.served x g r hr
            · rw [ha] at hr; exact hi.served s hs r hr
          exact ⟨by rw [g3]; exact hx'.1, hx'.2⟩
        · intro x hx p hp
          have hx' : p.2 < st.heap.next ∧ ¬ Stored st0.gen.list p.2 := by
            rcases List.mem_append.1 hx with g | g
            · exact hi.worlds x g p hp
            · have : x = w := by simpa using g
              subst this
              exact hi.served s hs _ (g5 p hp)
          exact ⟨by rw [g3]; exact hx'.1, hx'.2⟩
        · refine pairwise_set hi.apart e ?_ ?_
          · intro z hz r hr; rw [ha]; exact hz r hr
          · intro z hz r hr; rw [ha] at hr; exact hz r hr
  | copyOf k =>
    simp only [apply]
    cases e : st.served[k]? with
    | none => exact hi
    | some s =>
      have hs : s ∈ st.served := List.mem_of_getElem? e
      simp only
      cases e2 : copyScenario c st.heap s with
      | error f => exact hi
      | ok q => exact inv_copy c hi rfl (fun r hr => (hi.served s hs r hr).1) e2
  | step k t =>
    simp only [apply]
    cases e : st.worlds[k]? with
    | none => exact hi
    | some w =>
      have hw : w ∈ st.worlds := List.mem_of_getElem? e
      obtain ⟨g1, g2, g3⟩ := step_frame c t st.heap w
      refine ⟨hi.list, fun r hr => by show r < (stepWorld c t st.heap w).1.next; rw [g1]; exact hi.next r hr,
        fun r hr => ?_, ?_, ?_, hi.apart⟩
      · show (stepWorld c t st.heap w).1.cell r = _
        rw [g2 r (fun p hp he => (hi.worlds w hw p hp).2 (he ▸ hr))]
        exact hi.same r hr
      · intro x hx r hr
        exact ⟨by show r < (stepWorld c t st.heap w).1.next; rw [g1]; exact (hi.served x hx r hr).1,
          (hi.served x hx r hr).2⟩
      · intro x hx p hp
        have hx' : p.2 < st.heap.next ∧ ¬ Stored st0.gen.list p.2 := by
          rcases List.mem_or_eq_of_mem_set hx with g | rfl
          · exact hi.worlds x g p hp
          · exact hi.worlds w hw p (g3 p hp)
        exact ⟨by show p.2 < (stepWorld c t st.heap w).1.next; rw [g1]; exact hx'.1, hx'.2⟩
  | copyWorld k =>
    simp only [apply]
    cases e : st.worlds[k]? with
    | none => exact hi
    | some w =>
      have hw : w ∈ st.worlds := List.mem_of_getElem? e
      obtain ⟨f1, f2, -⟩ := cloneAgents_spec c w.agents st.heap (fun p hp => (hi.worlds w hw p hp).1)
      refine ⟨hi.list, fun r hr => Nat.lt_of_lt_of_le (hi.next r hr) f1.1,
        fun r hr => (f1.2 r (hi.next r hr)).trans (hi.same r hr), ?_, ?_, hi.apart⟩
      · intro x hx r hr
        exact ⟨Nat.lt_of_lt_of_le (hi.served x hx r hr).1 f1.1, (hi.served x hx r hr).2⟩
      · intro x hx p hp
        rcases List.mem_append.1 hx with g | g
        · exact ⟨Nat.lt_of_lt_of_le (hi.worlds x g p hp).1 f1.1, (hi.worlds x g p hp).2⟩
        · have : x = (cloneWorld c st.heap w).2 := by simpa using g
          subst this
          have hp' := f2 p hp
          exact ⟨hp'.2, fun hst => Nat.lt_irrefl _ (Nat.lt_of_lt_of_le (hi.next _ hst) hp'.1)⟩

theorem inv_applyAll (c : Code A M F J T) (dflt : J) (st0 : State A M F J) (ops : List (Op T)) :
    ∀ st, Inv st0 st → Inv st0 (applyAll c dflt st ops) := by
  induction ops with
  | nil => intro st hi; exact hi
  | cons op ops ih => intro st hi; exact ih _ (inv_apply c dflt hi op)

/-- a generator as created, before anything was handed out -/
def Start (st : State A M F J) : Prop :=
  st.served = [] ∧ st.worlds = [] ∧ st.gen.current = 0 ∧ ∀ s ∈ st.gen.list, Spec.Proper st.heap s

theorem inv_start {st : State A M F J} (h : Start st) : Inv st st := by
  obtain ⟨h1, h2, -, h4⟩ := h
  refine ⟨rfl, ?_, fun _ _ => rfl, ?_, ?_, ?_⟩
  · rintro r ⟨s, hs, hr⟩; exact (h4 s hs).2 r hr
  · rw [h1]; simp
  · rw [h2]; simp
  · rw [h1]; simp

/-- C143: whatever was done with the generator, with scenarios it handed out and with worlds made from them, the
scenario handed out under an index has agents with the contents they had when the generator was created (as a copy
gives them), and everything else as created -/
theorem C143_served_as_created (c : Code A M F J T) (dflt : J) (st : State A M F J) (hst : Start st)
    (ops : List (Op T)) (i : Int) (h' : Heap A) (s : Scenario M F J)
    (e : getScenario c (applyAll c dflt st ops).heap (applyAll c dflt st ops).gen i = .ok (h', s)) :
    ∃ s0, pyIndex st.gen.list i = .ok s0 ∧ Spec.agentsOf h' s = (Spec.agentsOf st.heap s0).map c.pickled ∧
      s = { s0 with agents := s.agents } ∧ Spec.Proper h' s ∧
      ∀ r ∈ s.agents, (applyAll c dflt st ops).heap.next ≤ r := by
  have hi := inv_applyAll c dflt st ops st (inv_start hst)
  obtain ⟨s0, h1, h2⟩ := getScenario_copy e
  have hmem := pyIndex_mem h1
  rw [hi.list] at h1 hmem
  obtain ⟨f1, f2, f3, f4, f5⟩ := copyScenario_spec c (fun r hr => hi.next r ⟨s0, hmem, hr⟩) h2
  refine ⟨s0, h1, ?_, f4, ⟨f5 (hst.2.2.2 s0 hmem).1, fun r hr => (f2 r hr).2⟩, fun r hr => (f2 r hr).1⟩
  unfold Spec.agentsOf
  rw [f3, List.map_map]
  apply List.map_congr_left
  intro r hr
  simp only [Function.comp]
  rw [hi.same r ⟨s0, hmem, hr⟩]

/-- C143: hence the world made from it is the initial world of the scenario as created, with the map of the scenario or
of its file -/
theorem C143_world_as_created (c : Code A M F J T) (dflt : J) (st : State A M F J) (hst : Start st)
    (ops : List (Op T)) (i : Int) (h' h'' : Heap A) (s s' : Scenario M F J) (w : World M)
    (e : getScenario c (applyAll c dflt st ops).heap (applyAll c dflt st ops).gen i = .ok (h', s))
    (e' : getWorld c dflt h' s = .ok (h'', s', w)) :
    ∃ s0, pyIndex st.gen.list i = .ok s0 ∧ (s0.map = some w.map ∨ c.load s0.file (s0.json.getD dflt) = .ok w.map) ∧
      Spec.IsInitial c w.map ((Spec.agentsOf st.heap s0).map c.pickled) (contents h'' w) ∧
      w.observeFor = (if s0.observer then some s0.evalIds else none) := by
  obtain ⟨s0, h1, h2, h3, h4, -⟩ := C143_served_as_created c dflt st hst ops i h' s e
  obtain ⟨g1, -, g3, -, -, -, g7⟩ := getWorld_spec c dflt e'
  refine ⟨s0, h1, ?_, ?_, ?_⟩
  · unfold mapOf at g1
    rw [h3] at g1
    cases hm : s0.map with
    | none => rw [hm] at g1; exact Or.inr g1
    | some m =>
      rw [hm] at g1
      simp only [Except.ok.injEq] at g1
      exact Or.inl (by rw [g1])
  · rw [← h2]; exact (g7 h4.1).1
  · rw [g3, h3]

/-- C143: an index can be handed out at any time exactly when it can at the beginning -/
theorem C143_always_served (c : Code A M F J T) (dflt : J) (st : State A M F J) (hst : Start st) (ops : List (Op T))
    (i : Int) :
    (∃ q, getScenario c (applyAll c dflt st ops).heap (applyAll c dflt st ops).gen i = .ok q) ↔
      ∃ s0, pyIndex st.gen.list i = .ok s0 ∧ s0.json ≠ none := by
  have hi := inv_applyAll c dflt st ops st (inv_start hst)
  unfold getScenario
  rw [hi.list]
  constructor
  · rintro ⟨q, hq⟩
    cases hp : pyIndex st.gen.list i with
    | error f => rw [hp] at hq; cases hq
    | ok s0 =>
      rw [hp] at hq
      refine ⟨s0, rfl, fun hj => ?_⟩
      simp only [copyScenario, hj] at hq
      cases hq
  · rintro ⟨s0, hp, hj⟩
    rw [hp]
    simp only [copyScenario]
    cases hj' : s0.json with
    | none => exact absurd hj' hj
    | some j => exact ⟨_, rfl⟩

/-- C143: scenarios handed out (and copies of them) never share an agent with each other or with the generator's own,
so that stepping worlds of one does not change another -/
theorem C143_apart (c : Code A M F J T) (dflt : J) (st : State A M F J) (hst : Start st) (ops : List (Op T)) :
    (applyAll c dflt st ops).served.Pairwise Spec.Apart ∧
    ∀ s ∈ (applyAll c dflt st ops).served, ∀ s0 ∈ st.gen.list, Spec.Apart s s0 := by
  have hi := inv_applyAll c dflt st ops st (inv_start hst)
  exact ⟨hi.apart, fun s hs s0 hs0 r hr hr0 => (hi.served s hs r hr).2 ⟨s0, hs0, hr0⟩⟩

/-- C143: making a world and stepping it touches the agents of its own scenario only -/
theorem C143_frame (c : Code A M F J T) (dflt : J) (h h' : Heap A) (s s' : Scenario M F J) (w : World M)
    (e : getWorld c dflt h s = .ok (h', s', w)) (t : T) (s2 : Scenario M F J) (hap : Spec.Apart s2 s) :
    Spec.agentsOf h' s2 = Spec.agentsOf h s2 ∧
    Spec.agentsOf (stepWorld c t h' w).1 s2 = Spec.agentsOf h s2 := by
  obtain ⟨-, -, -, -, g4, g5, -⟩ := getWorld_spec c dflt e
  have h1 : Spec.agentsOf h' s2 = Spec.agentsOf h s2 :=
    List.map_congr_left fun r hr => g4 r (hap r hr)
  refine ⟨h1, ?_⟩
  rw [← h1]
  refine List.map_congr_left fun r hr => (step_frame c t h' w).2.1 r fun p hp he => ?_
  exact hap r hr (he ▸ g5 p hp)

end Bark.Run
