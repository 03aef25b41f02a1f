import Verif.Spec.Params
import Mathlib.Data.List.Infix
import Mathlib.Data.List.Basic
import Mathlib.Data.List.Nodup

/-!
C37 – hierarchical parameters behave like a map over paths.
-/
namespace Bark.Par
set_option linter.unusedSectionVars false
open Spec
variable {F : Type}

theorem Spec.NoDelim.tail {c : Char} {s : Str} (h : NoDelim (c :: s)) : NoDelim s :=
  fun hi => h (hi.trans (List.suffix_cons c s).isInfix)

theorem noDelim_nil : NoDelim [] := by
  intro h; have := h.length_le; simp at this

theorem noDelim_single (c : Char) : NoDelim [c] := by
  intro h; have := h.length_le; simp at this

theorem noDelim_cons {c d : Char} {s : Str} :
    NoDelim (c :: d :: s) ↔ ¬ (c = ':' ∧ d = ':') ∧ NoDelim (d :: s) := by
  constructor
  · intro h
    refine ⟨?_, Spec.NoDelim.tail h⟩
    rintro ⟨rfl, rfl⟩
    exact h ⟨[], s, rfl⟩
  · rintro ⟨h1, h2⟩ hi
    rw [List.infix_cons_iff] at hi
    rcases hi with hi | hi
    · obtain ⟨t, ht⟩ := hi
      simp only [List.cons_append, List.nil_append, List.cons.injEq] at ht
      exact h1 ⟨ht.1.symm, ht.2.1.symm⟩
    · exact h2 hi

theorem findDelim_none {s : Str} : findDelim s = none ↔ NoDelim s := by
  induction s with
  | nil => simp [findDelim, noDelim_nil]
  | cons c s ih =>
    cases s with
    | nil => simp [findDelim, noDelim_single]
    | cons d s =>
      rw [noDelim_cons]
      unfold findDelim
      by_cases h : c = ':' ∧ d = ':'
      · simp [h]
      · rw [if_neg h, ← ih]
        cases hf : findDelim (d :: s) with
        | none => simp [h]
        | some x => simp

theorem findDelim_some {s a b : Str} :
    findDelim s = some (a, b) ↔ s = a ++ [':', ':'] ++ b ∧ NoDelim (a ++ [':']) := by
  induction s generalizing a b with
  | nil => simp [findDelim]
  | cons c s ih =>
    cases s with
    | nil =>
      simp only [findDelim, reduceCtorEq, false_iff, not_and]
      intro h
      have := congrArg List.length h
      simp at this
      omega
    | cons d s =>
      unfold findDelim
      by_cases h : c = ':' ∧ d = ':'
      · rw [if_pos h]
        obtain ⟨rfl, rfl⟩ := h
        constructor
        · intro h; cases h; exact ⟨rfl, noDelim_single _⟩
        · rintro ⟨h1, h2⟩
          cases a with
          | nil => simp at h1; rw [h1]
          | cons x a =>
            exfalso
            simp only [List.cons_append, List.cons.injEq] at h1
            obtain ⟨rfl, h1⟩ := h1
            cases a with
            | nil => exact h2 ⟨[], [], rfl⟩
            | cons y a =>
              simp only [List.cons_append, List.cons.injEq] at h1
              obtain ⟨rfl, h1⟩ := h1
              exact h2 ⟨[], a ++ [':'], rfl⟩
      · rw [if_neg h]
        cases a with
        | nil =>
          constructor
          · intro h1; split at h1 <;> cases h1
          · rintro ⟨h1, _⟩
            simp only [List.nil_append, List.cons_append, List.cons.injEq] at h1
            exact absurd ⟨h1.1, h1.2.1⟩ h
        | cons x a =>
          have key : ((match findDelim (d :: s) with
              | some (a, b) => some (c :: a, b)
              | none => none) = some (x :: a, b)) ↔ (c = x ∧ findDelim (d :: s) = some (a, b)) := by
            cases hf : findDelim (d :: s) with
            | none => simp
            | some y => obtain ⟨y1, y2⟩ := y; simp [and_assoc]
          refine Iff.trans key ?_
          rw [ih]
          simp only [List.cons_append, List.cons.injEq, List.append_assoc]
          constructor
          · rintro ⟨rfl, h2, h3⟩
            refine ⟨⟨rfl, h2⟩, ?_⟩
            cases a with
            | nil =>
              simp only [List.nil_append, List.cons.injEq] at h2 ⊢
              rw [noDelim_cons]
              exact ⟨fun hh => h ⟨hh.1, h2.1⟩, noDelim_single _⟩
            | cons y a =>
              simp only [List.cons_append, List.cons.injEq] at h2
              obtain ⟨rfl, h2⟩ := h2
              show NoDelim (c :: d :: (a ++ [':']))
              rw [noDelim_cons]
              exact ⟨h, h3⟩
          · rintro ⟨⟨rfl, h2⟩, h3⟩
            exact ⟨rfl, h2, Spec.NoDelim.tail h3⟩

/-- every name denotes exactly one path. -/
theorem path_exists (n : Str) : ∃ p, Path n p := by
  induction hn : n.length using Nat.strong_induction_on generalizing n with
  | _ k ih =>
    cases hf : findDelim n with
    | none => exact ⟨_, .last n (findDelim_none.1 hf)⟩
    | some x =>
      obtain ⟨c, r⟩ := x
      obtain ⟨p, hp⟩ := ih r.length (hn ▸ findDelim_length hf) r rfl
      obtain ⟨h1, h2⟩ := findDelim_some.1 hf
      exact ⟨c :: p, h1 ▸ .cons c r p h2 hp⟩

theorem Spec.Path.inv {n : Str} {p : List Str} (h : Path n p) :
    (findDelim n = none ∧ p = [n]) ∨
    ∃ c r q, findDelim n = some (c, r) ∧ p = c :: q ∧ Path r q := by
  cases h with
  | last _ h => exact .inl ⟨findDelim_none.2 h, rfl⟩
  | cons c r q h1 h2 => exact .inr ⟨c, r, q, findDelim_some.2 ⟨rfl, h1⟩, rfl, h2⟩

theorem path_unique {n : Str} {p q : List Str} (hp : Path n p) (hq : Path n q) : p = q := by
  induction hp generalizing q with
  | last n h =>
    rcases hq.inv with ⟨_, rfl⟩ | ⟨c, r, q, h1, _, _⟩
    · rfl
    · rw [findDelim_none.2 h] at h1; cases h1
  | cons c r p h1 _ ih =>
    have hf := findDelim_some (b := r) |>.2 ⟨rfl, h1⟩
    rcases hq.inv with ⟨h2, _⟩ | ⟨c', r', q', h2, rfl, h3⟩
    · rw [hf] at h2; cases h2
    · rw [hf] at h2
      cases h2
      rw [ih h3]

theorem noDelim_of_append {a b : Str} (h : NoDelim (a ++ b)) : NoDelim a :=
  fun hi => h (hi.trans (List.prefix_append a b).isInfix)

theorem path_noDelim {n : Str} {p : List Str} (hp : Path n p) : ∀ c ∈ p, NoDelim c := by
  induction hp with
  | last n h => simpa using h
  | cons c r p h1 _ ih =>
    intro x hx
    rcases List.mem_cons.1 hx with rfl | hx
    · exact noDelim_of_append h1
    · exact ih x hx

theorem path_ne_nil {n : Str} {p : List Str} (hp : Path n p) : p ≠ [] := by
  cases hp <;> simp

theorem path_nil {p : List Str} (hp : Path [] p) : p = [[]] :=
  path_unique hp (.last _ noDelim_nil)

/-! association lists -/

theorem M.find_set {α : Type} (k k' : Str) (v : α) (m : M α) :
    M.find k' (M.set k v m) = if k' = k then some v else M.find k' m := by
  induction m with
  | nil => simp [M.set, M.find]
  | cons p m ih =>
    obtain ⟨a, b⟩ := p
    unfold M.set
    by_cases h : k = a
    · subst h
      simp only [if_true, M.find]
      by_cases h2 : k' = k <;> simp [h2]
    · rw [if_neg h]
      simp only [M.find, ih]
      by_cases h2 : k' = a
      · subst h2; rw [if_pos rfl, if_neg (Ne.symm h), if_pos rfl]
      · simp [h2]

theorem M.find_mem {α : Type} {k : Str} {v : α} {m : M α} (h : M.find k m = some v) : (k, v) ∈ m := by
  induction m with
  | nil => cases h
  | cons p m ih =>
    obtain ⟨a, b⟩ := p
    unfold M.find at h
    split at h
    · rename_i e; cases h; subst e; simp
    · exact List.mem_cons_of_mem _ (ih h)

theorem M.mem_find {α : Type} {k : Str} {v : α} {m : M α} (hn : (m.map Prod.fst).Nodup)
    (h : (k, v) ∈ m) : M.find k m = some v := by
  induction m with
  | nil => cases h
  | cons p m ih =>
    obtain ⟨a, b⟩ := p
    simp only [List.map_cons, List.nodup_cons] at hn
    rcases List.mem_cons.1 h with h | h
    · cases h; simp [M.find]
    · unfold M.find
      have : k ≠ a := by
        intro e
        exact hn.1 (List.mem_map.2 ⟨(k, v), ‹(k, v) ∈ m›, e⟩)
      rw [if_neg this]
      exact ih hn.2 h

theorem M.keys_set {α : Type} (k : Str) (v : α) (m : M α) :
    (M.set k v m).map Prod.fst = if k ∈ m.map Prod.fst then m.map Prod.fst else m.map Prod.fst ++ [k] := by
  induction m with
  | nil => simp [M.set]
  | cons p m ih =>
    obtain ⟨a, b⟩ := p
    unfold M.set
    by_cases h : k = a
    · subst h; simp
    · rw [if_neg h, List.map_cons, ih]
      by_cases h2 : k ∈ m.map Prod.fst
      · simp [h, h2]
      · rw [if_neg h2, if_neg (by simp only [List.map_cons, List.mem_cons, not_or]; exact ⟨h, h2⟩)]
        rfl

theorem M.nodup_set {α : Type} {k : Str} {v : α} {m : M α} (h : (m.map Prod.fst).Nodup) :
    ((M.set k v m).map Prod.fst).Nodup := by
  rw [M.keys_set]
  split
  · exact h
  · rename_i h2
    rw [List.nodup_append]
    refine ⟨h, by simp, ?_⟩
    intro a ha b hb
    rw [List.mem_singleton] at hb
    subst hb
    rintro rfl
    exact h2 ha

/-! the heap invariant -/

/-- The heap represents the store `S`; `ps` gives the path of every object; all names of children
satisfy `G`. -/
structure Rel (G : Str → Prop) (h : Heap F) (ps : List (List Str)) (S : Store F) : Prop where
  len : ps.length = h.length
  root : ps[0]? = some []
  nodup : ps.Nodup
  link : ∀ a p, ps[a]? = some p → ∀ c b, M.find c (node h a).childs = some b ↔ ps[b]? = some (p ++ [c])
  vals : ∀ a p, ps[a]? = some p → ∀ n t, M.find n ((node h a).params t) = S (p ++ [n]) t
  dom : ∀ q t v, S q t = some v → (∃ p n, q = p ++ [n] ∧ p ∈ ps) ∧ ∀ c ∈ q, NoDelim c
  lt : ∀ a p, ps[a]? = some p → ∀ c b, M.find c (node h a).childs = some b → a < b
  nodupC : ∀ a p, ps[a]? = some p → ((node h a).childs.map Prod.fst).Nodup
  nodupP : ∀ a p, ps[a]? = some p → ∀ t, (((node h a).params t).map Prod.fst).Nodup
  par : ∀ p c, p ++ [c] ∈ ps → p ∈ ps
  del : ∀ p ∈ ps, ∀ c ∈ p, G c

theorem rel_fresh (G : Str → Prop) : Rel G (fresh : Heap F) [[]] (fun _ _ => none) := by
  have h0 : ∀ a p, ([[]] : List (List Str))[a]? = some p → a = 0 ∧ p = [] := by
    intro a p h
    cases a with
    | zero => simp at h; exact ⟨rfl, h⟩
    | succ a => simp at h
  have hn : node (fresh : Heap F) 0 = Node.empty := rfl
  refine ⟨rfl, rfl, by simp, ?_, ?_, ?_, ?_, ?_, ?_, by simp, ?_⟩
  · intro a p h c b
    obtain ⟨rfl, rfl⟩ := h0 a p h
    rw [hn]
    constructor
    · intro h; cases h
    · intro h; have := h0 _ _ h; simp at this
  · intro a p h n t
    obtain ⟨rfl, rfl⟩ := h0 a p h
    rw [hn]; rfl
  · intro q t v h; cases h
  · intro a p h c b
    obtain ⟨rfl, rfl⟩ := h0 a p h
    rw [hn]; intro h; cases h
  · intro a p h
    obtain ⟨rfl, rfl⟩ := h0 a p h
    rw [hn]; simp [Node.empty]
  · intro a p h t
    obtain ⟨rfl, rfl⟩ := h0 a p h
    rw [hn]; simp [Node.empty]
  · intro p hp c hc
    rw [List.mem_singleton] at hp
    subst hp; cases hc

theorem node_modify (h : Heap F) (a a' : Nat) (f : Node F → Node F) (ha : a < h.length) :
    node (h.modify a f) a' = if a' = a then f (node h a) else node h a' := by
  unfold node
  rw [List.getElem?_modify]
  by_cases e : a' = a
  · subst e
    rw [if_pos rfl, List.getElem?_eq_getElem ha]; simp
  · rw [if_neg e]
    cases h[a']? <;> simp [Ne.symm e]

theorem node_append_lt (h k : Heap F) (a : Nat) (ha : a < h.length) : node (h ++ k) a = node h a := by
  unfold node; rw [List.getElem?_append_left ha]

theorem node_append_len (h : Heap F) (x : Node F) : node (h ++ [x]) h.length = x := by
  unfold node; simp

theorem getElem?_lt {α : Type} {l : List α} {i : Nat} {x : α} (h : l[i]? = some x) : i < l.length :=
  (List.getElem?_eq_some_iff.1 h).1

/-- looking up or creating one child. -/
theorem child_rel {G : Str → Prop} {h : Heap F} {ps : List (List Str)} {S : Store F} (R : Rel G h ps S)
    {a : Nat} {p : List Str} (ha : ps[a]? = some p) {c : Str} (hc : G c) :
    ∃ ps', Rel G (child h a c).1 ps' S ∧ ps <+: ps' ∧ ps'[(child h a c).2]? = some (p ++ [c]) := by
  unfold child
  cases hf : M.find c (node h a).childs with
  | some b => exact ⟨ps, R, List.prefix_refl _, (R.link a p ha c b).1 hf⟩
  | none =>
    have hal : a < h.length := R.len ▸ getElem?_lt ha
    have hnew : p ++ [c] ∉ ps := by
      intro hm
      obtain ⟨b, hb⟩ := List.mem_iff_getElem?.1 hm
      rw [(R.link a p ha c b).2 hb] at hf; cases hf
    -- lookup in the extended label list
    have hget : ∀ i q, (ps ++ [p ++ [c]])[i]? = some q ↔
        (ps[i]? = some q ∨ (i = h.length ∧ q = p ++ [c])) := by
      intro i q
      rcases Nat.lt_trichotomy i ps.length with hi | hi | hi
      · rw [List.getElem?_append_left hi]
        have : i ≠ h.length := by rw [← R.len]; omega
        simp [this]
      · subst hi
        rw [← R.len]
        simp [eq_comm]
      · have h1 : (ps ++ [p ++ [c]])[i]? = none := by
          rw [List.getElem?_eq_none_iff]; simp; omega
        have h2 : ps[i]? = none := by rw [List.getElem?_eq_none_iff]; omega
        rw [h1, h2]
        have : i ≠ h.length := by rw [← R.len]; omega
        simp [this]
    set f : Node F → Node F := fun x => { x with childs := M.set c h.length x.childs } with hfdef
    have hlen : (h.modify a f).length = h.length := List.length_modify ..
    have hn1 : ∀ i, i < h.length → node (h.modify a f ++ [Node.empty]) i
        = if i = a then f (node h a) else node h i := by
      intro i hi
      rw [node_append_lt _ _ _ (by rw [hlen]; exact hi), node_modify _ _ _ _ hal]
    have hn2 : node (h.modify a f ++ [Node.empty]) h.length = Node.empty := by
      have := node_append_len (h.modify a f) (Node.empty)
      rwa [hlen] at this
    have hlt : ∀ i q, ps[i]? = some q → i < h.length := fun i q hi => R.len ▸ getElem?_lt hi
    refine ⟨ps ++ [p ++ [c]], ?_, List.prefix_append _ _, (hget _ _).2 (.inr ⟨rfl, rfl⟩)⟩
    refine ⟨by simp [R.len], ?_, ?_, ?_, ?_, ?_, ?_, ?_, ?_, ?_, ?_⟩
    · exact (hget _ _).2 (.inl R.root)
    · rw [List.nodup_append]
      refine ⟨R.nodup, by simp, ?_⟩
      intro x hx y hy
      rw [List.mem_singleton] at hy
      subst hy
      rintro rfl
      exact hnew hx
    · intro i q hi d b
      rw [hget]
      rcases (hget _ _).1 hi with hi' | ⟨rfl, rfl⟩
      · rw [hn1 i (hlt i q hi')]
        by_cases e : i = a
        · subst e
          rw [if_pos rfl]
          rw [ha] at hi'; cases hi'
          show M.find d (M.set c h.length (node h i).childs) = some b ↔ _
          rw [M.find_set]
          by_cases e2 : d = c
          · subst e2
            rw [if_pos rfl]
            constructor
            · intro hb; cases hb; exact .inr ⟨rfl, rfl⟩
            · rintro (hb | ⟨rfl, _⟩)
              · exact absurd (List.mem_iff_getElem?.2 ⟨b, hb⟩) hnew
              · rfl
          · rw [if_neg e2, R.link i p ha d b]
            constructor
            · exact .inl
            · rintro (hb | ⟨_, hb⟩)
              · exact hb
              · have := List.append_cancel_left hb
                simp at this; exact absurd this e2
        · rw [if_neg e, R.link i q hi' d b]
          constructor
          · exact .inl
          · rintro (hb | ⟨_, hb⟩)
            · exact hb
            · exfalso
              have h2 := List.append_inj_left' hb rfl
              subst h2
              exact e ((List.Nodup.getElem_inj_iff R.nodup
                (hi := getElem?_lt hi') (hj := getElem?_lt ha)).1
                (by rw [(List.getElem?_eq_some_iff.1 hi').2, (List.getElem?_eq_some_iff.1 ha).2]))
      · rw [hn2]
        constructor
        · intro h; cases h
        · rintro (hb | ⟨_, hb⟩)
          · exact absurd (R.par _ _ (List.mem_iff_getElem?.2 ⟨b, hb⟩)) hnew
          · have := congrArg List.length hb
            simp at this
    · intro i q hi n t
      rcases (hget _ _).1 hi with hi' | ⟨rfl, rfl⟩
      · rw [hn1 i (hlt i q hi')]
        rw [← R.vals i q hi']
        by_cases e : i = a
        · subst e; rw [if_pos rfl]
        · rw [if_neg e]
      · rw [hn2]
        show none = _
        cases hS : S (p ++ [c] ++ [n]) t with
        | none => rfl
        | some v =>
          exfalso
          obtain ⟨⟨p', n', h1, h2⟩, _⟩ := R.dom _ _ _ hS
          rw [← List.append_inj_left' h1 rfl] at h2
          exact hnew h2
    · intro q t v hS
      obtain ⟨⟨p', n', h1, h2⟩, h3⟩ := R.dom _ _ _ hS
      exact ⟨⟨p', n', h1, List.mem_append_left _ h2⟩, h3⟩
    · intro i q hi d b hb
      rcases (hget _ _).1 hi with hi' | ⟨rfl, rfl⟩
      · rw [hn1 i (hlt i q hi')] at hb
        by_cases e : i = a
        · subst e
          rw [if_pos rfl] at hb
          change M.find d (M.set c h.length (node h i).childs) = some b at hb
          rw [M.find_set] at hb
          split at hb
          · cases hb; exact hal
          · exact R.lt i q hi' d b hb
        · rw [if_neg e] at hb; exact R.lt i q hi' d b hb
      · rw [hn2] at hb; cases hb
    · intro i q hi
      rcases (hget _ _).1 hi with hi' | ⟨rfl, rfl⟩
      · rw [hn1 i (hlt i q hi')]
        by_cases e : i = a
        · subst e
          rw [if_pos rfl]
          exact M.nodup_set (R.nodupC i q hi')
        · rw [if_neg e]; exact R.nodupC i q hi'
      · rw [hn2]; simp [Node.empty]
    · intro i q hi t
      rcases (hget _ _).1 hi with hi' | ⟨rfl, rfl⟩
      · rw [hn1 i (hlt i q hi')]
        by_cases e : i = a
        · subst e
          rw [if_pos rfl]
          exact R.nodupP i q hi' t
        · rw [if_neg e]; exact R.nodupP i q hi' t
      · rw [hn2]; simp [Node.empty]
    · intro q d hm
      rcases List.mem_append.1 hm with hm | hm
      · exact List.mem_append_left _ (R.par q d hm)
      · rw [List.mem_singleton] at hm
        rw [List.append_inj_left' hm rfl]
        exact List.mem_append_left _ (List.mem_iff_getElem?.2 ⟨a, ha⟩)
    · intro q hq d hd
      rcases List.mem_append.1 hq with hq | hq
      · exact R.del q hq d hd
      · rw [List.mem_singleton] at hq
        subst hq
        rcases List.mem_append.1 hd with hd | hd
        · exact R.del p (List.mem_iff_getElem?.2 ⟨a, ha⟩) d hd
        · rw [List.mem_singleton] at hd; subst hd; exact hc

theorem prefix_get {α : Type} {l k : List α} (h : l <+: k) {i : Nat} {x : α} (hi : l[i]? = some x) :
    k[i]? = some x := by
  obtain ⟨t, rfl⟩ := h
  rw [List.getElem?_append_left (getElem?_lt hi)]; exact hi

theorem addChild_noDelim (h : Heap F) (a : Nat) {c : Str} (hc : NoDelim c) :
    addChild h a c = child h a c := by
  rw [addChild]
  have := findDelim_none.2 hc
  split
  · rename_i e; rw [this] at e; cases e
  · rfl

theorem addChild_rel {G : Str → Prop} {n : Str} {q : List Str} (hp : Path n q)
    (hG : ∀ c, NoDelim (c ++ [':']) → G c) (hq : ∀ c ∈ childPath q, G c) :
    ∀ {h : Heap F} {ps : List (List Str)} {S : Store F} (_ : Rel G h ps S)
    {a : Nat} {p : List Str} (_ : ps[a]? = some p),
    ∃ ps', Rel G (addChild h a n).1 ps' S ∧ ps <+: ps' ∧
      ps'[(addChild h a n).2]? = some (p ++ childPath q) := by
  induction hp with
  | last n hn =>
    intro h ps S R a p ha
    rw [addChild_noDelim _ _ hn]
    have : childPath [n] = [n] := by simp [childPath]
    rw [this] at hq ⊢
    exact child_rel R ha (hq n (by simp))
  | cons c r q hc hr ih =>
    intro h ps S R a p ha
    have hf := (findDelim_some (b := r)).2 ⟨rfl, hc⟩
    rw [addChild]
    have hcd := hG c hc
    obtain ⟨ps1, R1, p1, g1⟩ := child_rel R ha hcd
    split
    · rename_i c' r' e
      rw [hf] at e; cases e
      by_cases hr0 : r = []
      · rw [if_pos hr0]
        subst hr0
        rw [path_nil hr]
        have : childPath [c, []] = [c] := by simp [childPath]
        rw [this]
        exact ⟨ps1, R1, p1, g1⟩
      · rw [if_neg hr0]
        have : childPath (c :: q) = c :: childPath q := by
          unfold childPath
          rcases hr.inv with ⟨_, rfl⟩ | ⟨c', r', q', _, rfl, h3⟩
          · simp [hr0]
          · have hq := path_ne_nil h3
            obtain ⟨x, xs, rfl⟩ := List.exists_cons_of_ne_nil hq
            simp
            split <;> simp
        rw [this] at hq ⊢
        obtain ⟨ps2, R2, p2, g2⟩ := ih (fun d hd => hq d (List.mem_cons_of_mem _ hd)) R1 g1
        refine ⟨ps2, R2, p1.trans p2, ?_⟩
        rw [g2]; simp
    · rename_i e; rw [hf] at e; cases e

theorem assign_rel {G : Str → Prop} (hG : ∀ c, G c → NoDelim c) {h : Heap F} {ps : List (List Str)} {S : Store F} (R : Rel G h ps S)
    {a : Nat} {p : List Str} (ha : ps[a]? = some p) {n : Str} (hn : NoDelim n) (t : Ty) (v : Val F t) :
    Rel G (assign h a n t v) ps (put S (p ++ [n]) t v) := by
  have hal : a < h.length := R.len ▸ getElem?_lt ha
  have hnode : ∀ i, node (assign h a n t v) i = if i = a then
      { node h a with params := fun t' =>
          if e : t = t' then M.set n (e ▸ v) ((node h a).params t') else (node h a).params t' }
      else node h i := by
    intro i
    unfold assign
    rw [node_modify _ _ _ _ hal]
  have hch : ∀ i, (node (assign h a n t v) i).childs = (node h i).childs := by
    intro i
    rw [hnode]
    by_cases e : i = a
    · subst e; rw [if_pos rfl]
    · rw [if_neg e]
  refine ⟨?_, R.root, R.nodup, ?_, ?_, ?_, ?_, ?_, ?_, R.par, R.del⟩
  · rw [R.len]; simp [assign]
  · intro i q hi c b; rw [hch]; exact R.link i q hi c b
  · intro i q hi m t'
    rw [hnode]
    by_cases e : i = a
    · subst e
      rw [if_pos rfl]
      rw [ha] at hi; cases hi
      show M.find m (if e : t = t' then M.set n (e ▸ v) ((node h i).params t') else (node h i).params t') = _
      unfold put
      by_cases et : t = t'
      · subst et
        rw [dif_pos rfl, M.find_set, R.vals i p ha]
        by_cases em : m = n
        · subst em; simp
        · rw [if_neg em, if_neg (fun hh => em (by simpa using List.append_cancel_left hh))]
      · rw [dif_neg et, R.vals i p ha]
        simp [et]
    · rw [if_neg e, R.vals i q hi]
      unfold put
      rw [if_neg]
      intro hh
      have h2 := List.append_inj_left' hh rfl
      subst h2
      exact e ((List.Nodup.getElem_inj_iff R.nodup
        (hi := getElem?_lt hi) (hj := getElem?_lt ha)).1
        (by rw [(List.getElem?_eq_some_iff.1 hi).2, (List.getElem?_eq_some_iff.1 ha).2]))
  · intro q t' w hS
    unfold put at hS
    by_cases e : q = p ++ [n]
    · subst e
      have hm := List.mem_iff_getElem?.2 ⟨a, ha⟩
      refine ⟨⟨p, n, rfl, hm⟩, ?_⟩
      intro c hc
      rcases List.mem_append.1 hc with hc | hc
      · exact hG c (R.del p hm c hc)
      · rw [List.mem_singleton] at hc; subst hc; exact hn
    · rw [if_neg e] at hS
      exact R.dom _ _ _ hS
  · intro i q hi c b; rw [hch]; exact R.lt i q hi c b
  · intro i q hi; rw [hch]; exact R.nodupC i q hi
  · intro i q hi t'
    rw [hnode]
    by_cases e : i = a
    · subst e
      rw [if_pos rfl]
      show ((if e : t = t' then M.set n (e ▸ v) ((node h i).params t') else (node h i).params t').map
        Prod.fst).Nodup
      by_cases et : t = t'
      · rw [dif_pos et]; exact M.nodup_set (R.nodupP i q hi t')
      · rw [dif_neg et]; exact R.nodupP i q hi t'
    · rw [if_neg e]; exact R.nodupP i q hi t'

theorem set_rel {G : Str → Prop} (hG : ∀ c, G c → NoDelim c)
    (hG' : ∀ c, NoDelim (c ++ [':']) → G c) {n : Str} {q : List Str} (hp : Path n q) (t : Ty) (v : Val F t) :
    ∀ {h : Heap F} {ps : List (List Str)} {S : Store F} (_ : Rel G h ps S)
    {a : Nat} {p : List Str} (_ : ps[a]? = some p),
    ∃ ps', Rel G (set h a n t v) ps' (put S (p ++ q) t v) ∧ ps <+: ps' := by
  induction hp with
  | last n hn =>
    intro h ps S R a p ha
    rw [set]
    have := findDelim_none.2 hn
    split
    · rename_i e; rw [this] at e; cases e
    · exact ⟨ps, assign_rel hG R ha hn t v, List.prefix_refl _⟩
  | cons c r q hc hr ih =>
    intro h ps S R a p ha
    have hf := (findDelim_some (b := r)).2 ⟨rfl, hc⟩
    have hcd := noDelim_of_append hc
    obtain ⟨ps1, R1, p1, g1⟩ := child_rel R ha (hG' c hc)
    rw [← addChild_noDelim _ _ hcd] at R1 g1
    rw [set]
    split
    · rename_i c' r' e
      rw [hf] at e; cases e
      obtain ⟨ps2, R2, p2⟩ := ih R1 g1
      refine ⟨ps2, ?_, p1.trans p2⟩
      simpa using R2
    · rename_i e; rw [hf] at e; cases e

theorem getRec_rel {G : Str → Prop} (hG : ∀ c, G c → NoDelim c)
    (hG' : ∀ c, NoDelim (c ++ [':']) → G c) {n : Str} {q : List Str} (hp : Path n q) (t : Ty) :
    ∀ {h : Heap F} {ps : List (List Str)} {S : Store F} (_ : Rel G h ps S)
    {a : Nat} {p : List Str} (_ : ps[a]? = some p),
    (∃ ps', Rel G (getRec h a n t).1 ps' S ∧ ps <+: ps') ∧ (getRec h a n t).2 = S (p ++ q) t := by
  induction hp with
  | last n hn =>
    intro h ps S R a p ha
    have hv := R.vals a p ha n t
    have := findDelim_none.2 hn
    rw [getRec]
    split
    · rename_i v e
      exact ⟨⟨ps, R, List.prefix_refl _⟩, by rw [← hv, e]⟩
    · rename_i e
      split
      · rename_i e2; rw [this] at e2; cases e2
      · exact ⟨⟨ps, R, List.prefix_refl _⟩, by rw [← hv, e]⟩
  | cons c r q hc hr ih =>
    intro h ps S R a p ha
    have hf := (findDelim_some (b := r)).2 ⟨rfl, hc⟩
    have hcd := noDelim_of_append hc
    obtain ⟨ps1, R1, p1, g1⟩ := child_rel R ha (hG' c hc)
    rw [← addChild_noDelim _ _ hcd] at R1 g1
    rw [getRec]
    split
    · rename_i v e
      exfalso
      rw [R.vals a p ha] at e
      have := (R.dom _ _ _ e).2 (c ++ [':', ':'] ++ r) (by simp)
      exact this ⟨c, r, rfl⟩
    · split
      · rename_i c' r' e
        rw [hf] at e; cases e
        obtain ⟨⟨ps2, R2, p2⟩, hval⟩ := ih R1 g1
        refine ⟨⟨ps2, R2, p1.trans p2⟩, ?_⟩
        rw [hval]; simp
      · rename_i e; rw [hf] at e; cases e

/-- The program state after a history represents the store of that history. -/
theorem hist_rel {G : Str → Prop} (hG : ∀ c, G c → NoDelim c)
    (hG' : ∀ c, NoDelim (c ++ [':']) → G c) {ops : List (Op F)} {hs : List (List Str)} {S : Store F} (H : Hist ops hs S)
    (hadd : ∀ hd n p, Op.addChild hd n ∈ ops → Path n p → ∀ c ∈ childPath p, G c) :
    ∃ ps, Rel G (run ops).1 ps S ∧ (run ops).2.length = hs.length ∧
      ∀ (i : Nat) (q : List Str), hs[i]? = some q →
        ∃ a : Nat, (run ops).2[i]? = some a ∧ ps[a]? = some q := by
  induction H with
  | nil =>
    refine ⟨[[]], rel_fresh G, rfl, ?_⟩
    intro i q hi
    cases i with
    | zero => simp at hi; subst hi; exact ⟨0, rfl, rfl⟩
    | succ i => simp at hi
  | set hd n t v _ hq hp ih =>
    rename_i ops hs S q p _
    obtain ⟨ps, R, hl, hh⟩ := ih (fun hd n p hm => hadd hd n p (List.mem_append_left _ hm))
    obtain ⟨a, ha, hpa⟩ := hh hd q hq
    obtain ⟨ps', R', hpre⟩ := set_rel hG hG' hp t v R hpa
    have hrun : run (ops ++ [.set hd n t v]) = (set (run ops).1 a n t v, (run ops).2) := by
      unfold run; rw [List.foldl_append]
      simp only [List.foldl_cons, List.foldl_nil]
      change step (run ops) _ = _
      simp only [step, ha]; rfl
    rw [hrun]
    refine ⟨ps', R', hl, fun i q hi => ?_⟩
    obtain ⟨b, hb, hb2⟩ := hh i q hi
    exact ⟨b, hb, prefix_get hpre hb2⟩
  | get hd n t d _ hq ih =>
    rename_i ops hs S q _
    obtain ⟨ps, R, hl, hh⟩ := ih (fun hd n p hm => hadd hd n p (List.mem_append_left _ hm))
    obtain ⟨a, ha, hpa⟩ := hh hd q hq
    obtain ⟨p, hp⟩ := path_exists n
    obtain ⟨⟨ps', R', hpre⟩, _⟩ := getRec_rel hG hG' hp t R hpa
    have hrun : run (ops ++ [.get hd n t d]) = ((get (run ops).1 a n t d).1, (run ops).2) := by
      unfold run; rw [List.foldl_append]
      simp only [List.foldl_cons, List.foldl_nil]
      change step (run ops) _ = _
      simp only [step, ha]; rfl
    rw [hrun]
    refine ⟨ps', R', hl, fun i q hi => ?_⟩
    obtain ⟨b, hb, hb2⟩ := hh i q hi
    exact ⟨b, hb, prefix_get hpre hb2⟩
  | addChild hd n _ hq hp ih =>
    rename_i ops hs S q p _
    obtain ⟨ps, R, hl, hh⟩ := ih (fun hd n p hm => hadd hd n p (List.mem_append_left _ hm))
    obtain ⟨a, ha, hpa⟩ := hh hd q hq
    obtain ⟨ps', R', hpre, hnew⟩ := addChild_rel hp hG' (hadd hd n p (by simp) hp) R hpa
    have hrun : run (ops ++ [.addChild hd n]) =
        ((addChild (run ops).1 a n).1, (run ops).2 ++ [(addChild (run ops).1 a n).2]) := by
      unfold run; rw [List.foldl_append]
      simp only [List.foldl_cons, List.foldl_nil]
      change step (run ops) _ = _
      simp only [step, ha]; rfl
    rw [hrun]
    refine ⟨ps', R', by simp [hl], fun i q hi => ?_⟩
    rcases Nat.lt_or_ge i hs.length with hlt | hge
    · rw [List.getElem?_append_left hlt] at hi
      obtain ⟨b, hb, hb2⟩ := hh i q hi
      exact ⟨b, by rw [List.getElem?_append_left (getElem?_lt hb)]; exact hb, prefix_get hpre hb2⟩
    · rw [List.getElem?_append_right hge] at hi
      have : i = hs.length := by
        have := getElem?_lt hi
        simp at this; omega
      subst this
      simp at hi
      subst hi
      exact ⟨_, by rw [← hl]; simp, hnew⟩

theorem mem_childPath {p : List Str} {c : Str} (h : c ∈ childPath p) : c ∈ p := by
  unfold childPath at h
  split at h
  · exact List.mem_of_mem_dropLast h
  · exact h

theorem hist_rel' {ops : List (Op F)} {hs : List (List Str)} {S : Store F} (H : Hist ops hs S) :
    ∃ ps, Rel NoDelim (run ops).1 ps S ∧ (run ops).2.length = hs.length ∧
      ∀ (i : Nat) (q : List Str), hs[i]? = some q →
        ∃ a : Nat, (run ops).2[i]? = some a ∧ ps[a]? = some q :=
  hist_rel (fun _ h => h) (fun _ h => noDelim_of_append h) H
    (fun _ _ _ _ hp c hc => path_noDelim hp c (mem_childPath hc))

/-- Every history of calls on handles that exist has a meaning: the store is defined for all
histories. -/
theorem C37_histories_total {ops : List (Op F)} {hs : List (List Str)} {S : Store F}
    (H : Hist ops hs S) (hd : Nat) (hi : hd < hs.length) (n : Str) (t : Ty) (v : Val F t) :
    (∃ S', Hist (ops ++ [.set hd n t v]) hs S') ∧ (∃ S', Hist (ops ++ [.get hd n t v]) hs S') ∧
    (∃ q, Hist (ops ++ [.addChild hd n]) (hs ++ [q]) S) := by
  obtain ⟨p, hp⟩ := path_exists n
  have hq : hs[hd]? = some hs[hd] := List.getElem?_eq_getElem hi
  exact ⟨⟨_, .set hd n t v H hq hp⟩, ⟨_, .get hd n t v H hq⟩, ⟨_, .addChild hd n H hq hp⟩⟩

/-- **C37.** After any history of `Set…`, `Get…` and `AddChild` calls through any handles, reading the
name `n` with type `t` through any handle returns the value last set for the path the name stands for
below the path of the handle, and the default if none was ever set. -/
theorem C37_get {ops : List (Op F)} {hs : List (List Str)} {S : Store F} (H : Hist ops hs S)
    {i : Nat} {q : List Str} (hi : hs[i]? = some q) {n : Str} {p : List Str} (hp : Path n p)
    (t : Ty) (d : Val F t) :
    ∃ a : Nat, (run ops).2[i]? = some a ∧ (get (run ops).1 a n t d).2 = (S (q ++ p) t).getD d := by
  obtain ⟨ps, R, _, hh⟩ := hist_rel' H
  obtain ⟨a, ha, hpa⟩ := hh i q hi
  refine ⟨a, ha, ?_⟩
  unfold get
  rw [(getRec_rel (fun _ h => h) (fun _ h => noDelim_of_append h) hp t R hpa).2]

theorem noDelim_snoc {n : Str} (h : NoDelim n) (hl : n.getLast? ≠ some ':') : NoDelim (n ++ [':']) := by
  induction n with
  | nil => exact noDelim_single _
  | cons c s ih =>
    cases s with
    | nil =>
      show NoDelim [c, ':']
      rw [noDelim_cons]
      refine ⟨fun hh => hl ?_, noDelim_single _⟩
      simp [hh.1]
    | cons d s =>
      show NoDelim (c :: d :: (s ++ [':']))
      rw [noDelim_cons] at h ⊢
      refine ⟨h.1, ih h.2 ?_⟩
      simpa using hl

theorem path_append {n : Str} {p : List Str} (hp : Path n p) (hl : n.getLast? ≠ some ':')
    {m : Str} {q : List Str} (hq : Path m q) :
    Path (n ++ [':', ':'] ++ m) (p ++ q) ∧ childPath p = p ∧ ∀ c ∈ p, NoDelim (c ++ [':']) := by
  induction hp with
  | last n hn =>
    refine ⟨.cons n m q (noDelim_snoc hn hl) hq, by simp [childPath], ?_⟩
    intro c hc
    rw [List.mem_singleton] at hc; subst hc; exact noDelim_snoc hn hl
  | cons c r p hc hr ih =>
    have hr0 : r ≠ [] := by
      rintro rfl
      apply hl; simp
    have hrl : r.getLast? ≠ some ':' := by
      intro e; apply hl; rw [List.getLast?_append, e]; rfl
    obtain ⟨h1, h2, h3⟩ := ih hrl
    refine ⟨?_, ?_, ?_⟩
    · have := Path.cons c _ _ hc h1
      simpa using this
    · unfold childPath at h2 ⊢
      rcases hr.inv with ⟨_, rfl⟩ | ⟨c', r', q', _, rfl, h4⟩
      · rw [if_neg]; simp [hr0]
      · obtain ⟨x, xs, rfl⟩ := List.exists_cons_of_ne_nil (path_ne_nil h4)
        rw [if_neg]
        intro hh
        rw [if_pos ⟨by simp, by simpa using hh.2⟩] at h2
        have := congrArg List.length h2
        simp at this
    · intro x hx
      rcases List.mem_cons.1 hx with rfl | hx
      · exact hc
      · exact h3 x hx

/-- **C37, splitting.** In every state reached by a history, reading `m` through the child obtained for
`n` is the same as reading `n::m`, and setting through the child is indistinguishable, for every later
read through every handle, from setting `n::m` – for every child name `n` not ending in a colon. -/
theorem C37_split {ops : List (Op F)} {hs : List (List Str)} {S : Store F} (H : Hist ops hs S)
    {i : Nat} {q : List Str} (hi : hs[i]? = some q) (n m : Str) (hl : n.getLast? ≠ some ':')
    (t : Ty) (v d : Val F t) :
    ∃ a : Nat, (run ops).2[i]? = some a ∧
      (get (addChild (run ops).1 a n).1 (addChild (run ops).1 a n).2 m t d).2
        = (get (run ops).1 a (n ++ [':', ':'] ++ m) t d).2 ∧
      ∀ (j b : Nat) (k : Str) (t' : Ty) (d' : Val F t'), (run ops).2[j]? = some b →
        (get (set (addChild (run ops).1 a n).1 (addChild (run ops).1 a n).2 m t v) b k t' d').2
          = (get (set (run ops).1 a (n ++ [':', ':'] ++ m) t v) b k t' d').2 := by
  have g1 : ∀ c, NoDelim c → NoDelim c := fun _ h => h
  have g2 : ∀ c : Str, NoDelim (c ++ [':']) → NoDelim c := fun _ h => noDelim_of_append h
  obtain ⟨ps, R, hlen, hh⟩ := hist_rel' H
  obtain ⟨a, ha, hpa⟩ := hh i q hi
  obtain ⟨p, hp⟩ := path_exists n
  obtain ⟨r, hr⟩ := path_exists m
  obtain ⟨h1, h2, _⟩ := path_append hp hl hr
  obtain ⟨ps1, R1, pre1, e1⟩ := addChild_rel hp g2
    (fun c hc => path_noDelim hp c (mem_childPath hc)) R hpa
  rw [h2] at e1
  refine ⟨a, ha, ?_, ?_⟩
  · unfold get
    rw [(getRec_rel g1 g2 hr t R1 e1).2, (getRec_rel g1 g2 h1 t R hpa).2, List.append_assoc]
  · intro j b k t' d' hb
    obtain ⟨kp, hk⟩ := path_exists k
    have hj : j < hs.length := hlen ▸ getElem?_lt hb
    obtain ⟨b', hb', hpb⟩ := hh j hs[j] (List.getElem?_eq_getElem hj)
    rw [hb] at hb'; cases hb'
    obtain ⟨ps2, R2, pre2⟩ := set_rel g1 g2 hr t v R1 e1
    obtain ⟨ps3, R3, pre3⟩ := set_rel g1 g2 h1 t v R hpa
    unfold get
    rw [(getRec_rel g1 g2 hk t' R2 (prefix_get (pre1.trans pre2) hpb)).2,
      (getRec_rel g1 g2 hk t' R3 (prefix_get pre3 hpb)).2, List.append_assoc]

/-- **C37, violation.** A child whose name ends in a colon is not reachable through the joined name:
after `AddChild("A:")->SetInt("B", 3)`, reading through the child gives 3, reading `"A:::B"` from the
root gives the default. -/
theorem C37_trailing_colon :
    let ops : List (Op F) := [.addChild 0 "A:".toList, .set 1 "B".toList .int (3 : Int)]
    ∃ a : Nat, (run ops).2[1]? = some a ∧
      (get (run ops).1 a "B".toList .int (7 : Int)).2 = (3 : Int) ∧
      (get (run ops).1 0 "A:::B".toList .int (7 : Int)).2 = (7 : Int) := by
  intro ops
  have pA : Path "A:".toList ["A:".toList] := .last _ (findDelim_none.1 (by decide))
  have pB : Path "B".toList ["B".toList] := .last _ (findDelim_none.1 (by decide))
  have pAB : Path "A:::B".toList ["A".toList, ":B".toList] :=
    .cons "A".toList ":B".toList _ (findDelim_none.1 (by decide)) (.last _ (findDelim_none.1 (by decide)))
  have H0 : Hist (F := F) [] [[]] _ := .nil
  have H1 := Hist.addChild 0 "A:".toList H0 rfl pA
  have H2 := Hist.set 1 "B".toList .int (3 : Int) H1 rfl pB
  obtain ⟨a, ha, hv⟩ := C37_get H2 (i := 1) rfl pB .int (7 : Int)
  obtain ⟨b, hb, hw⟩ := C37_get H2 (i := 0) rfl pAB .int (7 : Int)
  have hb0 : (run ops).2[0]? = some 0 := by
    show ((run ([.addChild 0 "A:".toList] : List (Op F))).2)[0]? = some 0
    rfl
  have : b = 0 := by
    have e : (run ops).2[0]? = some b := hb
    rw [hb0] at e; cases e; rfl
  subst this
  exact ⟨a, ha, hv, hw⟩

end Bark.Par
