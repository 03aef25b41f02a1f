import Verif.Props.PServerMerge

/-!
C127 – listing and searching parameters; C128 – child servers, item access, deletion, histories.
-/
namespace Bark.PS
set_option linter.unusedSectionVars false
open Bark.Par (Str findDelim)
open Bark.Par.Spec (NoDelim Path)
open Spec
variable {A : Type}

theorem at_srv_cons {k : Str} {v : Val A} {r : Srv A} (hk : k ∉ keys r) {q : List Str} {w : Val A} :
    At (.cons k v r) q w ↔
      (∃ p, q = k :: p ∧ ((p = [] ∧ w = v) ∨ ∃ c, v = .child c ∧ At c p w)) ∨ At r q w := by
  cases q with
  | nil => simp [not_at_nil]
  | cons k' p =>
    rw [at_cons, at_cons, find_cons]
    by_cases e : k' = k
    · subst e
      rw [if_pos rfl, find_new hk]
      simp [eq_comm]
    · simp [e]

/-! ### the condensed list -/

theorem check_child (ok : A → Bool) (c : Srv A) : checkAppend ok (.child c) = false := rfl

theorem joined_cons {k : Str} {p : List Str} (hp : p ≠ []) : joined (k :: p) = k ++ [':', ':'] ++ joined p := by
  cases p with
  | nil => exact absurd rfl hp
  | cons a p => rfl

mutual
theorem condensed_spec (ok : A → Bool) (s : Srv A) (hd : Distinct s) (n : Str) (w : Val A) :
    (n, w) ∈ condensed ok s ↔ ∃ p, n = joined p ∧ At s p w ∧ checkAppend ok w = true := by
  match s with
  | .nil => simp [condensed, at_empty]
  | .cons k v r =>
    simp only [Distinct] at hd
    rw [condensed, List.mem_append, condensed_spec ok r hd.2.2, condensedVal_spec ok k v hd.2.1]
    constructor
    · rintro (⟨p, h1, h2, h3⟩ | ⟨p, h1, h2, h3⟩)
      · exact ⟨_, h1, (at_srv_cons hd.1).2 (.inl ⟨p, rfl, h2⟩), h3⟩
      · exact ⟨_, h1, (at_srv_cons hd.1).2 (.inr h2), h3⟩
    · rintro ⟨p, h1, h2, h3⟩
      rcases (at_srv_cons hd.1).1 h2 with ⟨p', rfl, h4⟩ | h4
      · exact .inl ⟨p', h1, h4, h3⟩
      · exact .inr ⟨p, h1, h4, h3⟩
theorem condensedVal_spec (ok : A → Bool) (k : Str) (v : Val A) (hd : DistinctVal v) (n : Str) (w : Val A) :
    (n, w) ∈ condensedVal ok k v ↔
      ∃ p, n = joined (k :: p) ∧ ((p = [] ∧ w = v) ∨ ∃ c, v = .child c ∧ At c p w) ∧ checkAppend ok w = true := by
  match v with
  | .leaf a =>
    rw [condensedVal]
    by_cases g : checkAppend ok (.leaf a) = true
    · rw [if_pos g]
      simp only [List.mem_singleton, Prod.mk.injEq]
      constructor
      · rintro ⟨rfl, rfl⟩; exact ⟨[], rfl, .inl ⟨rfl, rfl⟩, g⟩
      · rintro ⟨p, rfl, (⟨rfl, rfl⟩ | ⟨c, h, _⟩), _⟩
        · exact ⟨rfl, rfl⟩
        · cases h
    · rw [if_neg g]
      simp only [List.not_mem_nil, false_iff]
      rintro ⟨p, rfl, (⟨rfl, rfl⟩ | ⟨c, h, _⟩), h2⟩
      · exact g h2
      · cases h
  | .many l =>
    rw [condensedVal]
    by_cases g : checkAppend ok (.many l) = true
    · rw [if_pos g]
      simp only [List.mem_singleton, Prod.mk.injEq]
      constructor
      · rintro ⟨rfl, rfl⟩; exact ⟨[], rfl, .inl ⟨rfl, rfl⟩, g⟩
      · rintro ⟨p, rfl, (⟨rfl, rfl⟩ | ⟨c, h, _⟩), _⟩
        · exact ⟨rfl, rfl⟩
        · cases h
    · rw [if_neg g]
      simp only [List.not_mem_nil, false_iff]
      rintro ⟨p, rfl, (⟨rfl, rfl⟩ | ⟨c, h, _⟩), h2⟩
      · exact g h2
      · cases h
  | .child c =>
    simp only [DistinctVal] at hd
    rw [condensedVal, List.mem_filter, List.mem_map]
    constructor
    · rintro ⟨⟨⟨n', w'⟩, h1, h2⟩, h3⟩
      cases h2
      obtain ⟨p, rfl, h4, _⟩ := (condensed_spec ok c hd n' w').1 h1
      have hp : p ≠ [] := by rintro rfl; cases h4
      exact ⟨p, (joined_cons hp).symm, .inr ⟨c, rfl, h4⟩, h3⟩
    · rintro ⟨p, rfl, (⟨rfl, rfl⟩ | ⟨c', h, h4⟩), h2⟩
      · cases h2
      · cases h
        have hp : p ≠ [] := by rintro rfl; cases h4
        exact ⟨⟨(joined p, w), (condensed_spec ok c hd _ _).2 ⟨p, rfl, h4, h2⟩, by rw [joined_cons hp]⟩, h2⟩
end

theorem check_iff {F : Type} (w : Val (PyVal F)) : checkAppend PyVal.ok w = true ↔ Listable w := by
  have floats : ∀ l : List (PyVal F), l.all PyVal.isFloat = true ↔ ∃ r : List F, l = r.map .float := by
    intro l
    constructor
    · induction l with
      | nil => intro _; exact ⟨[], rfl⟩
      | cons a l ih =>
        intro h
        simp only [List.all_cons, Bool.and_eq_true] at h
        obtain ⟨r, rfl⟩ := ih h.2
        cases a with
        | float x => exact ⟨x :: r, rfl⟩
        | bool x => cases h.1
        | int x => cases h.1
        | str x => cases h.1
        | none => cases h.1
        | list x => cases h.1
    · rintro ⟨r, rfl⟩
      simp [List.all_map, PyVal.isFloat]
  have matrix : ∀ l : List (PyVal F), l.all PyVal.isFloats = true ↔
      ∃ r : List (List F), l = r.map (fun r => .list (r.map .float)) := by
    intro l
    constructor
    · induction l with
      | nil => intro _; exact ⟨[], rfl⟩
      | cons a l ih =>
        intro h
        simp only [List.all_cons, Bool.and_eq_true] at h
        obtain ⟨r, rfl⟩ := ih h.2
        cases a with
        | float x => cases h.1
        | bool x => cases h.1
        | int x => cases h.1
        | str x => cases h.1
        | none => cases h.1
        | list x =>
          obtain ⟨y, rfl⟩ := (floats x).1 h.1
          exact ⟨y :: r, rfl⟩
    · rintro ⟨r, rfl⟩
      rw [List.all_map, List.all_eq_true]
      intro x _
      exact (floats _).2 ⟨x, rfl⟩
  constructor
  · intro h
    cases w with
    | child c => cases h
    | many l =>
      cases l with
      | nil => exact .empty
      | cons a b => cases h
    | leaf a =>
      cases a with
      | bool x => exact .bool x
      | int x => exact .int x
      | float x => exact .float x
      | str x => exact .str x
      | none => cases h
      | list l =>
        have h' : (l.all PyVal.isFloat || l.all PyVal.isFloats) = true := h
        rw [Bool.or_eq_true] at h'
        rcases h' with h' | h'
        · obtain ⟨r, rfl⟩ := (floats l).1 h'; exact .floats r
        · obtain ⟨r, rfl⟩ := (matrix l).1 h'; exact .matrix r
  · intro h
    cases h with
    | bool => rfl
    | int => rfl
    | float => rfl
    | str => rfl
    | empty => rfl
    | floats l =>
      show (_ || _) = true
      rw [(floats _).2 ⟨l, rfl⟩]; rfl
    | matrix l =>
      show (_ || _) = true
      rw [(matrix _).2 ⟨l, rfl⟩, Bool.or_true]

/-- C127: the condensed list has an entry for every parameter the C++ side can take, under its joined
path, with its value – and no other entry. -/
theorem C127_condensed {F : Type} {s : Srv (PyVal F)} (hd : Distinct s) (n : Str) (w : Val (PyVal F)) :
    (n, w) ∈ condensed PyVal.ok s ↔ ∃ p, n = joined p ∧ At s p w ∧ Listable w := by
  rw [condensed_spec _ _ hd]
  simp only [check_iff]

theorem allKeys_at {P : Str → Prop} {s : Srv A} (h : AllKeys P s) {p : List Str} {w : Val A} (hp : At s p w) :
    ∀ k ∈ p, P k := by
  have key : ∀ {s : Srv A} {k : Str} {v : Val A}, AllKeys P s → find k s = some v → P k ∧ AllKeysVal P v := by
    intro s k v hs hf
    have : ∀ s : Srv A, AllKeys P s → find k s = some v → P k ∧ AllKeysVal P v := by
      intro s
      exact go s
    exact this s hs hf
  induction p generalizing s with
  | nil => cases hp
  | cons k p ih =>
    intro x hx
    rw [at_cons] at hp
    rcases hp with ⟨rfl, hp⟩ | ⟨c, h1, h2⟩
    · rcases List.mem_cons.1 hx with rfl | hx
      · exact (key h hp).1
      · cases hx
    · rcases List.mem_cons.1 hx with rfl | hx
      · exact (key h h1).1
      · have := (key h h1).2
        simp only [AllKeysVal] at this
        exact ih this h2 x hx
where
  go {P : Str → Prop} {k : Str} {v : Val A} (s : Srv A) (hs : AllKeys P s) (hf : find k s = some v) :
      P k ∧ AllKeysVal P v := by
    match s with
    | .nil => cases hf
    | .cons a b r =>
      simp only [AllKeys] at hs
      rw [find_cons] at hf
      split at hf
      · rename_i e; cases hf; subst e; exact ⟨hs.1, hs.2.1⟩
      · exact go r hs.2.2 hf

/-- C127: with plain keys a listed name stands for one parameter only. -/
theorem C127_unique {F : Type} {s : Srv (PyVal F)} (hd : Distinct s) (hk : AllKeys PlainKey s) {n : Str}
    {v w : Val (PyVal F)} (h1 : (n, v) ∈ condensed PyVal.ok s) (h2 : (n, w) ∈ condensed PyVal.ok s) : v = w := by
  obtain ⟨p, e1, h1, _⟩ := (C127_condensed hd _ _).1 h1
  obtain ⟨q, e2, h2, _⟩ := (C127_condensed hd _ _).1 h2
  have hp : p ≠ [] := by rintro rfl; cases h1
  have hq : q ≠ [] := by rintro rfl; cases h2
  have hpp := path_joined (allKeys_at hk h1) hp
  have hqq := path_joined (allKeys_at hk h2) hq
  rw [← e1] at hpp
  rw [← e2] at hqq
  have := Par.path_unique hpp hqq
  subst this
  exact at_unique h1 h2

/-! ### searching a key -/

theorem joined_last {p : List Str} {x : Str} (h : p.getLast? = some x) (hx : x ≠ []) : joined p ≠ [] := by
  match p with
  | [] => cases h
  | [k] => cases h; exact hx
  | k :: k' :: p => simp [joined]

theorem findKey_cons (x k : Str) (v : Val A) (r : Srv A) :
    findKey x (.cons k v r) = match findKeyVal x k v with
      | some n => some n
      | none => findKey x r := by rw [findKey]; rfl

theorem findKeyVal_child (x k : Str) (c : Srv A) :
    findKeyVal x k (.child c) = match findKey x c with
      | some n => if n = [] then none else some (k ++ [':', ':'] ++ n)
      | none => none := by rw [findKeyVal]; rfl

mutual
theorem findKey_sound (x : Str) (s : Srv A) (hd : Distinct s) {n : Str} (h : findKey x s = some n) :
    ∃ p v, n = joined p ∧ p.getLast? = some x ∧ At s p v ∧ IsValue v := by
  match s with
  | .nil => rw [findKey] at h; cases h
  | .cons k v r =>
    simp only [Distinct] at hd
    rw [findKey_cons] at h
    cases hv : findKeyVal x k v with
    | some n' =>
      rw [hv] at h; cases h
      obtain ⟨p, w, h1, h2, h3, h4⟩ := findKeyVal_sound x k v hd.2.1 hv
      exact ⟨_, w, h1, h2, (at_srv_cons hd.1).2 (.inl ⟨p, rfl, h3⟩), h4⟩
    | none =>
      rw [hv] at h
      obtain ⟨p, w, h1, h2, h3, h4⟩ := findKey_sound x r hd.2.2 h
      exact ⟨p, w, h1, h2, (at_srv_cons hd.1).2 (.inr h3), h4⟩
theorem findKeyVal_sound (x k : Str) (v : Val A) (hd : DistinctVal v) {n : Str} (h : findKeyVal x k v = some n) :
    ∃ p w, n = joined (k :: p) ∧ (k :: p).getLast? = some x ∧
      ((p = [] ∧ w = v) ∨ ∃ c, v = .child c ∧ At c p w) ∧ IsValue w := by
  match v with
  | .leaf a =>
    rw [findKeyVal] at h
    split at h
    · rename_i e; cases h; subst e; exact ⟨[], _, rfl, rfl, .inl ⟨rfl, rfl⟩, isValue_leaf a⟩
    · cases h
  | .many a =>
    rw [findKeyVal] at h
    split at h
    · rename_i e; cases h; subst e; exact ⟨[], _, rfl, rfl, .inl ⟨rfl, rfl⟩, isValue_many a⟩
    · cases h
  | .child c =>
    simp only [DistinctVal] at hd
    rw [findKeyVal_child] at h
    cases hf : findKey x c with
    | none => rw [hf] at h; cases h
    | some n' =>
      rw [hf] at h
      simp only at h
      split at h
      · cases h
      · cases h
        obtain ⟨p, w, rfl, h2, h3, h4⟩ := findKey_sound x c hd hf
        have hp : p ≠ [] := by rintro rfl; cases h3
        exact ⟨p, w, (joined_cons hp).symm, by rw [List.getLast?_cons_of_ne_nil hp]; exact h2, .inr ⟨c, rfl, h3⟩, h4⟩
end

mutual
theorem findKey_complete {x : Str} (hx : x ≠ []) (s : Srv A) (hd : Distinct s) {p : List Str} {v : Val A}
    (hp : At s p v) (hv : IsValue v) (hl : p.getLast? = some x) : ∃ n, findKey x s = some n := by
  match s with
  | .nil => exact absurd hp at_empty
  | .cons k w r =>
    simp only [Distinct] at hd
    rw [findKey_cons]
    cases hf : findKeyVal x k w with
    | some n => exact ⟨n, rfl⟩
    | none =>
      rcases (at_srv_cons hd.1).1 hp with ⟨p', rfl, h⟩ | h
      · obtain ⟨n, hn⟩ := findKeyVal_complete hx k w hd.2.1 h hv hl
        rw [hf] at hn; cases hn
      · exact findKey_complete hx r hd.2.2 h hv hl
theorem findKeyVal_complete {x : Str} (hx : x ≠ []) (k : Str) (w : Val A) (hd : DistinctVal w) {p : List Str} {v : Val A}
    (hp : (p = [] ∧ v = w) ∨ ∃ c, w = .child c ∧ At c p v) (hv : IsValue v) (hl : (k :: p).getLast? = some x) :
    ∃ n, findKeyVal x k w = some n := by
  match w with
  | .leaf a =>
    rcases hp with ⟨rfl, _⟩ | ⟨c, h, _⟩
    · cases hl; exact ⟨k, by rw [findKeyVal]; exact if_pos rfl⟩
    · cases h
  | .many a =>
    rcases hp with ⟨rfl, _⟩ | ⟨c, h, _⟩
    · cases hl; exact ⟨k, by rw [findKeyVal]; exact if_pos rfl⟩
    · cases h
  | .child c =>
    simp only [DistinctVal] at hd
    rcases hp with ⟨_, rfl⟩ | ⟨c', h, h2⟩
    · exact absurd rfl (hv c)
    · cases h
      have hp : p ≠ [] := by rintro rfl; cases h2
      rw [List.getLast?_cons_of_ne_nil hp] at hl
      obtain ⟨n, hn⟩ := findKey_complete hx c hd h2 hv hl
      obtain ⟨q, _, rfl, hq, _, _⟩ := findKey_sound x c hd hn
      rw [findKeyVal_child, hn]
      simp only
      rw [if_neg (joined_last hq hx)]
      exact ⟨_, rfl⟩
end

/-- C127: the search for a key returns the joined path of a parameter with that key, and finds one
whenever there is one. -/
theorem C127_find {s : Srv A} (hd : Distinct s) {x : Str} (hx : x ≠ []) :
    (∀ n, findKey x s = some n → ∃ p v, n = joined p ∧ p.getLast? = some x ∧ At s p v ∧ IsValue v) ∧
    (findKey x s = none ↔ ¬ ∃ p v, p.getLast? = some x ∧ At s p v ∧ IsValue v) := by
  refine ⟨fun n h => findKey_sound x s hd h, ?_⟩
  constructor
  · rintro h ⟨p, v, h1, h2, h3⟩
    obtain ⟨n, hn⟩ := findKey_complete hx s hd h2 h3 h1
    rw [h] at hn; cases hn
  · intro h
    cases hf : findKey x s with
    | none => rfl
    | some n =>
      obtain ⟨p, v, _, h1, h2, h3⟩ := findKey_sound x s hd hf
      exact absurd ⟨p, v, h1, h2, h3⟩ h

/-! ### C128: child servers, items, deletion -/

theorem placed_same {s : Srv A} {k : Str} {v : Val A} (h : find k s = some v) : put k v s = s := put_same h

theorem addPath_child {p : List Str} (hp : p ≠ []) {s : Srv A} (dl : Bool) (h : Reachable s p)
    (hl : ∀ w, At s p w → ∃ c, w = .child c) :
    (dl = false → (∃ c, At s p (.child c)) → addPath dl false (fun _ v => .ok v) false p s = .ok s) ∧
    ((dl = true ∨ ¬ ∃ c, At s p (.child c)) →
      ∃ s', addPath dl false (fun _ v => .ok v) false p s = .ok s' ∧ Placed s s' p (.child .nil)) := by
  induction p generalizing s with
  | nil => exact absurd rfl hp
  | cons k p ih =>
    by_cases hn : p = []
    · subst hn
      rw [addPath_one]
      constructor
      · rintro rfl ⟨c, hc⟩
        rw [at_cons] at hc
        rcases hc with ⟨_, hc⟩ | ⟨_, _, hc⟩
        · rw [hc]
          simp only [Bool.false_eq_true, if_false, Option.getD_some]
          rw [put_same hc]
        · cases hc
      · intro hc
        refine ⟨put k (.child .nil) s, ?_, placed_put s k _⟩
        rcases hc with rfl | hc
        · rfl
        · have : find k s = none := by
            cases hf : find k s with
            | none => rfl
            | some w =>
              obtain ⟨c, rfl⟩ := hl w (at_cons.2 (.inl ⟨rfl, hf⟩))
              exact absurd ⟨c, at_cons.2 (.inl ⟨rfl, hf⟩)⟩ hc
          rw [this]
          cases dl <;> rfl
    · obtain ⟨c, hc, hf⟩ := reachable_top hn h
      have hl' : ∀ w, At c p w → ∃ c, w = .child c := fun w hw => hl w ((at_child hf hn).2 hw)
      obtain ⟨i1, i2⟩ := ih hn (reachable_child h hf) hl'
      rw [addPath_two _ _ _ _ _ hn, hc]
      simp only [at_child hf hn]
      constructor
      · intro h1 h2
        rw [i1 h1 h2]
        simp only
        rcases hf with hf | ⟨hf, rfl⟩
        · rw [put_same hf]
        · obtain ⟨_, h2⟩ := h2; exact absurd h2 at_empty
      · intro h1
        obtain ⟨c', h3, h4⟩ := i2 h1
        exact ⟨put k (.child c') s, by rw [h3], placed_child hn hf h4⟩

/-- C128: `AddChild` under a name made of plain keys, with no parameter on the way: an existing child
server is kept as it is, a missing one is created empty, and with `delete` an existing one is replaced by
an empty one; nothing else changes. -/
theorem C128_add_child {p : List Str} (hp : p ≠ []) (hk : ∀ k ∈ p, PlainKey k) {s : Srv A} (h : Open s p) :
    ((∃ c, At s p (.child c)) → addChild (joined p) false s = .ok s) ∧
    ((¬ ∃ c, At s p (.child c)) → ∃ s', addChild (joined p) false s = .ok s' ∧ Placed s s' p (.child .nil)) ∧
    (∃ s', addChild (joined p) true s = .ok s' ∧ Placed s s' p (.child .nil)) := by
  have hr : Reachable s p := fun q v hq _ hv => h q v hq hv
  have hl : ∀ w, At s p w → ∃ c, w = .child c := fun w hw => h p w List.prefix_rfl hw
  unfold addChild
  rw [childParts_joined hk hp]
  exact ⟨(addPath_child hp false hr hl).1 rfl, fun hc => (addPath_child hp false hr hl).2 (.inr hc),
    (addPath_child hp true hr hl).2 (.inl rfl)⟩

/-- C128: `p[key]` returns what the key maps to and leaves the server as it is; a missing key gets an
empty child server. -/
theorem C128_item {s : Srv A} {k : Str} :
    (∀ v, Has s k v → getItem k s = (s, v)) ∧
    ((¬ ∃ v, Has s k v) → (getItem k s).2 = .child .nil ∧ Placed s (getItem k s).1 [k] (.child .nil)) := by
  constructor
  · intro v hv
    unfold getItem
    rw [has_iff.1 hv]
  · intro h
    have : find k s = none := by
      cases hf : find k s with
      | none => rfl
      | some v => exact absurd ⟨v, has_iff.2 hf⟩ h
    unfold getItem
    rw [this]
    exact ⟨rfl, placed_put s k _⟩

/-- C128: `p[key, description, default]` returns what the key maps to; a missing key gets the default
(a dictionary becomes the server made from it). -/
theorem C128_item_default (ws : Char → Bool) {s : Srv A} {k : Str} :
    (∀ v d, Has s k v → getItemD ws k d s = .ok (s, v)) ∧
    ((¬ ∃ v, Has s k v) →
      (∀ a, ∃ s', getItemD ws k (.leaf a) s = .ok (s', .leaf a) ∧ Placed s s' [k] (.leaf a)) ∧
      (∀ d c, fromDict ws d = .ok c → ∃ s', getItemD ws k (.child d) s = .ok (s', .child c) ∧ Placed s s' [k] (.child c)) ∧
      (∀ ds l, List.Forall₂ (fun d c => fromDict ws d = .ok c) (members ds) l →
        ∃ s' m, getItemD ws k (.many ds) s = .ok (s', .many m) ∧ members m = l ∧ Placed s s' [k] (.many m))) := by
  constructor
  · intro v d hv
    unfold getItemD
    rw [has_iff.1 hv]
  · intro h
    have hf : find k s = none := by
      cases hf : find k s with
      | none => rfl
      | some v => exact absurd ⟨v, has_iff.2 hf⟩ h
    have key : ∀ d d', conv ws d = .ok d' → getItemD ws k d s = .ok (put k d' s, d') := by
      intro d d' hd
      unfold getItemD
      rw [hf]
      simp only [hd]
    refine ⟨fun a => ⟨_, key _ _ rfl, placed_put s k _⟩, fun d c hd => ?_, fun ds l hd => ?_⟩
    · exact ⟨_, key _ (.child c) (by simp only [conv, hd]), placed_put s k _⟩
    · obtain ⟨m, h1, h2⟩ := fromAll_ok hd
      exact ⟨_, m, key _ (.many m) (by simp only [conv, h1]), h2, placed_put s k _⟩

/-- C128: `del p[key]` removes the key with everything below it and nothing else. -/
theorem C128_del {s : Srv A} (hd : Distinct s) (k : Str) (q : List Str) (w : Val A) :
    At (del k s) q w ↔ q.head? ≠ some k ∧ At s q w := by
  have key : ∀ (s : Srv A), Distinct s → ∀ k', find k' (del k s) = if k' = k then none else find k' s := by
    intro s hd
    exact go k s hd
  cases q with
  | nil => simp [not_at_nil]
  | cons k' p =>
    rw [at_cons, at_cons, key s hd]
    by_cases e : k' = k <;> simp [e]
where
  go (k : Str) (s : Srv A) (hd : Distinct s) (k' : Str) : find k' (del k s) = if k' = k then none else find k' s := by
    match s with
    | .nil => simp [del, find]
    | .cons a b r =>
      simp only [Distinct] at hd
      unfold del
      by_cases h : k = a
      · subst h
        rw [if_pos rfl, find_cons]
        by_cases e : k' = k
        · subst e; rw [if_pos rfl, find_new hd.1]
        · rw [if_neg e, if_neg e]
      · rw [if_neg h, find_cons, find_cons, go k r hd.2.2]
        by_cases e : k' = a
        · subst e; rw [if_pos rfl, if_neg (Ne.symm h), if_pos rfl]
        · rw [if_neg e, if_neg e]

/-- C128: the number of entries is the number of keys. -/
theorem C128_len (s : Srv A) : len s = (keys s).length := by
  match s with
  | .nil => rfl
  | .cons k v r => rw [len, keys, List.length_cons, C128_len r]

/-! ### histories keep keys distinct -/

theorem mapAll_distinct {f : Srv A → Res (Srv A)} (hf : ∀ s s', Distinct s → f s = .ok s' → Distinct s') (l : Srvs A)
    {l' : Srvs A} (hl : DistinctAll l) (h : mapAll f l = .ok l') : DistinctAll l' := by
  match l with
  | .nil => rw [mapAll] at h; cases h; exact hl
  | .cons s r =>
    simp only [DistinctAll] at hl
    rw [mapAll] at h
    cases h1 : f s with
    | error e => rw [h1] at h; cases h
    | ok s' =>
      rw [h1] at h
      simp only at h
      cases h2 : mapAll f r with
      | error e => rw [h2] at h; cases h
      | ok r' =>
        rw [h2] at h; cases h
        simp only [DistinctAll]
        exact ⟨hf s s' hl.1 h1, mapAll_distinct hf r hl.2 h2⟩

theorem getD_distinct {k : Str} {s : Srv A} (hs : Distinct s) : DistinctVal ((find k s).getD (.child .nil)) := by
  cases hf : find k s with
  | none => simp [DistinctVal, Distinct]
  | some v => exact distinct_find hs hf

theorem addPath_distinct {dl strict : Bool} {f : Bool → Val A → Res (Val A)}
    (hf : ∀ n v v', DistinctVal v → f n v = .ok v' → DistinctVal v') (p : List Str) (nested : Bool) {s s' : Srv A}
    (hs : Distinct s) (h : addPath dl strict f nested p s = .ok s') : Distinct s' := by
  induction p generalizing s s' nested with
  | nil => rw [addPath] at h; cases h; exact hs
  | cons k p ih =>
    by_cases hn : p = []
    · subst hn
      rw [addPath_one] at h
      cases h1 : f nested (if dl then .child .nil else (find k s).getD (.child .nil)) with
      | error e => rw [h1] at h; cases h
      | ok v =>
        rw [h1] at h; cases h
        refine distinct_put hs (hf _ _ _ ?_ h1)
        split
        · simp [DistinctVal, Distinct]
        · exact getD_distinct hs
    · rw [addPath_two _ _ _ _ _ hn] at h
      have hg := getD_distinct (k := k) hs
      generalize (find k s).getD (.child .nil) = v at h hg
      cases v with
      | leaf a => cases h
      | child c =>
        simp only [DistinctVal] at hg
        simp only at h
        cases h1 : addPath dl strict f nested p c with
        | error e => rw [h1] at h; cases h
        | ok c' =>
          rw [h1] at h; cases h
          exact distinct_put hs (by simp only [DistinctVal]; exact ih nested hg h1)
      | many l =>
        simp only [DistinctVal] at hg
        simp only at h
        split at h
        · cases h
        · cases h1 : mapAll (addPath dl strict f true p) l with
          | error e => rw [h1] at h; cases h
          | ok l' =>
            rw [h1] at h; cases h
            exact distinct_put hs (by
              simp only [DistinctVal]
              exact mapAll_distinct (fun s s' hs h => ih true hs h) l hg h1)

theorem setH_distinct {n : Str} {v : Val A} {s s' : Srv A} (hs : Distinct s) (hv : DistinctVal v)
    (h : setH n v s = .ok s') : Distinct s' := by
  unfold setH at h
  split at h
  · refine addPath_distinct ?_ _ _ hs h
    intro m w w' hw he
    cases w with
    | leaf a => cases he
    | child c =>
      cases he
      simp only [DistinctVal] at hw ⊢
      exact distinct_put hw hv
    | many l =>
      simp only [DistinctVal] at hw
      rw [storeIn] at he
      split at he
      · cases he
      · split at he
        · cases he
        · rename_i l' hl'
          cases he
          simp only [DistinctVal]
          exact mapAll_distinct (fun a b ha hb => by cases hb; exact distinct_put ha hv) l hw hl'
  · cases h; exact distinct_put hs hv

theorem conv_distinct {ws : Char → Bool} {v v' : Val A} (h : conv ws v = .ok v') : DistinctVal v' := by
  cases v with
  | leaf a => cases h; simp [DistinctVal]
  | child d =>
    rw [conv] at h
    cases h1 : fromDict ws d with
    | error e => rw [h1] at h; cases h
    | ok c => rw [h1] at h; cases h; simp only [DistinctVal]; exact fromDict_distinct h1
  | many d =>
    rw [conv] at h
    cases h1 : fromAll ws d with
    | error e => rw [h1] at h; cases h
    | ok c => rw [h1] at h; cases h; simp only [DistinctVal]; exact fromAll_distinct d h1

mutual
theorem append_distinct {ov : Bool} (o s : Srv A) {s' : Srv A} (ho : Distinct o) (hs : Distinct s)
    (h : append ov o s = .ok s') : Distinct s' := by
  match o with
  | .nil => rw [append] at h; cases h; exact hs
  | .cons k v r =>
    simp only [Distinct] at ho
    rw [append] at h
    cases h1 : appendEntry ov k v (find k s) s with
    | error e => rw [h1] at h; cases h
    | ok s1 =>
      rw [h1] at h
      exact append_distinct r s1 ho.2.2 (appendEntry_distinct k v s ho.2.1 hs h1) h
theorem appendEntry_distinct {ov : Bool} (k : Str) (v : Val A) (s : Srv A) {s' : Srv A} (hv : DistinctVal v) (hs : Distinct s)
    (h : appendEntry ov k v (find k s) s = .ok s') : Distinct s' := by
  have hset : ∀ {s'}, setH k v s = .ok s' → Distinct s' := fun h => setH_distinct hs hv h
  have hif : ∀ {s'}, (if ov then setH k v s else .ok s) = .ok s' → Distinct s' := by
    intro s' h
    split at h
    · exact hset h
    · cases h; exact hs
  cases hf : find k s with
  | none =>
    rw [hf] at h
    refine hset ?_
    rw [← h]; cases v <;> rfl
  | some w =>
    rw [hf] at h
    match v, w with
    | .leaf x, w => exact hif (by rw [← h]; cases w <;> rfl)
    | .many x, w => exact hif (by rw [← h]; cases w <;> rfl)
    | .child b, .leaf x => exact hif (by rw [← h]; rfl)
    | .child b, .many x => exact hif (by rw [← h]; rfl)
    | .child b, .child a =>
      rw [appendEntry] at h
      have hb : Distinct b := by simpa only [DistinctVal] using hv
      have ha : Distinct a := by simpa only [DistinctVal] using distinct_find hs hf
      cases h1 : append ov b a with
      | error e => rw [h1] at h; cases h
      | ok a' =>
        rw [h1] at h; cases h
        exact distinct_put hs (by simp only [DistinctVal]; exact append_distinct b a hb ha h1)
end

theorem map_fst {α β : Type} {x : Res (α × β)} {a : α} (h : x.map Prod.fst = .ok a) : ∃ b, x = .ok (a, b) := by
  cases x with
  | error e => cases h
  | ok y => cases h; exact ⟨y.2, rfl⟩

/-- the inputs of a call that are servers have distinct keys (they are servers themselves). -/
def Op.Good : Op A → Prop
  | .append o _ => Distinct o
  | _ => True

/-- C128: in every history of calls starting from a new server no server ever has a key twice. -/
theorem C128_distinct {ws : Char → Bool} {missing : A} {ops : List (Op A)} {s : Srv A} (hg : ∀ o ∈ ops, o.Good)
    (h : ops.foldlM (step ws missing) .nil = .ok s) : Distinct s := by
  have hstep : ∀ (o : Op A) (s s' : Srv A), o.Good → Distinct s → step ws missing s o = .ok s' → Distinct s' := by
    intro o s s' hg hs h
    cases o with
    | get n d =>
      obtain ⟨v, hv⟩ := map_fst h
      exact (getPath_distinct hs hv).1
    | set n v =>
      have h' : setItem ws n v s = .ok s' := h
      unfold setItem at h'
      cases h1 : conv ws v with
      | error e => rw [h1] at h'; cases h'
      | ok v' => rw [h1] at h'; exact setH_distinct hs (conv_distinct h1) h'
    | setTuple n v =>
      have h' : setItemTuple ws n v s = .ok s' := h
      unfold setItemTuple at h'
      cases h1 : conv ws v with
      | error e => rw [h1] at h'; cases h'
      | ok v' => rw [h1] at h'; cases h'; exact hs
    | item k =>
      cases h
      unfold getItem
      split
      · exact hs
      · exact distinct_put hs (by simp [DistinctVal, Distinct])
    | itemD k d =>
      obtain ⟨v, hv⟩ := map_fst h
      unfold getItemD at hv
      split at hv
      · cases hv; exact hs
      · cases h1 : conv ws d with
        | error e => rw [h1] at hv; cases hv
        | ok d' => rw [h1] at hv; cases hv; exact distinct_put hs (conv_distinct h1)
    | addChild n dl =>
      refine addPath_distinct ?_ _ _ hs h
      intro n v v' hv he
      cases he; exact hv
    | del k => cases h; exact (distinct_del hs).1
    | append o ov => exact append_distinct o s hg hs h
    | load d => exact fromDict_distinct h
    | clone => exact fromDict_distinct h
  have key : ∀ (ops : List (Op A)) (s0 : Srv A), (∀ o ∈ ops, o.Good) → Distinct s0 →
      ops.foldlM (step ws missing) s0 = .ok s → Distinct s := by
    intro ops
    induction ops with
    | nil => intro s0 _ hs h; cases h; exact hs
    | cons o ops ih =>
      intro s0 hg hs h
      rw [List.foldlM_cons] at h
      cases h1 : step ws missing s0 o with
      | error e => rw [h1] at h; cases h
      | ok s1 =>
        rw [h1] at h
        exact ih s1 (fun o ho => hg o (List.mem_cons_of_mem _ ho)) (hstep o s0 s1 (hg o (by simp)) hs h1) h
  exact key ops .nil hg distinct_nil h

end Bark.PS
