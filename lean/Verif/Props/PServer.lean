import Verif.Spec.PServer
import Verif.Props.Params
import Mathlib.Data.List.Infix

/-!
Basic facts about the Python parameter server; C122 – reading a parameter.
-/
namespace Bark.PS
set_option linter.unusedSectionVars false
open Bark.Par (Str findDelim)
open Bark.Par.Spec (NoDelim Path)
open Spec
variable {A : Type}

/-! ### dictionaries -/

theorem has_iff {s : Srv A} {k : Str} {v : Val A} : Has s k v ↔ find k s = some v := by
  match s with
  | .nil => simp only [find, reduceCtorEq, iff_false]; intro h; cases h
  | .cons k' v' r =>
    unfold find
    by_cases e : k = k'
    · subst e
      rw [if_pos rfl]
      constructor
      · intro h
        cases h with
        | here => rfl
        | there h1 _ => exact absurd rfl h1
      · intro h; cases h; exact .here _ _ _
    · rw [if_neg e]
      constructor
      · intro h
        cases h with
        | here => exact absurd rfl e
        | there _ h2 => exact has_iff.1 h2
      · intro h; exact .there e (has_iff.2 h)

theorem find_put (k k' : Str) (v : Val A) (s : Srv A) :
    find k' (put k v s) = if k' = k then some v else find k' s := by
  match s with
  | .nil => simp [put, find]
  | .cons a b r =>
    unfold put
    by_cases h : k = a
    · subst h
      rw [if_pos rfl]
      simp only [find]
      by_cases h2 : k' = k <;> simp [h2]
    · rw [if_neg h]
      simp only [find, find_put k k' v r]
      by_cases h2 : k' = a
      · subst h2; rw [if_pos rfl, if_neg (Ne.symm h), if_pos rfl]
      · simp [h2]

theorem put_same {k : Str} {v : Val A} {s : Srv A} (h : find k s = some v) : put k v s = s := by
  match s with
  | .nil => simp [find] at h
  | .cons a b r =>
    unfold find at h
    unfold put
    by_cases e : k = a
    · rw [if_pos e] at h ⊢; cases h; rfl
    · rw [if_neg e] at h ⊢; rw [put_same h]

theorem mem_keys {k : Str} {s : Srv A} : k ∈ keys s ↔ ∃ v, find k s = some v := by
  match s with
  | .nil => simp [keys, find]
  | .cons a b r =>
    simp only [keys, List.mem_cons, find]
    by_cases e : k = a
    · simp [e]
    · simp only [e, false_or, if_false]; exact mem_keys

/-! ### paths -/

theorem at_cons {s : Srv A} {k : Str} {p : List Str} {v : Val A} :
    At s (k :: p) v ↔ (p = [] ∧ find k s = some v) ∨
      ∃ c, find k s = some (.child c) ∧ At c p v := by
  constructor
  · intro h
    cases h with
    | one h => exact .inl ⟨rfl, has_iff.1 h⟩
    | step h1 h2 => exact .inr ⟨_, has_iff.1 h1, h2⟩
  · rintro (⟨rfl, h⟩ | ⟨c, h1, h2⟩)
    · exact .one (has_iff.2 h)
    · exact .step (has_iff.2 h1) h2

theorem not_at_nil {s : Srv A} {v : Val A} : ¬ At s [] v := by intro h; cases h

theorem at_empty {p : List Str} {v : Val A} : ¬ At (.nil : Srv A) p v := by
  intro h
  cases p with
  | nil => cases h
  | cons k p => rw [at_cons] at h; simp [find] at h

theorem at_unique {s : Srv A} {p : List Str} {v w : Val A} (h1 : At s p v) (h2 : At s p w) : v = w := by
  induction p generalizing s with
  | nil => cases h1
  | cons k p ih =>
    rw [at_cons] at h1 h2
    rcases h1 with ⟨rfl, h1⟩ | ⟨c, h1, h1'⟩
    · rcases h2 with ⟨_, h2⟩ | ⟨c, _, h2⟩
      · rw [h1] at h2; cases h2; rfl
      · cases h2
    · rcases h2 with ⟨rfl, h2⟩ | ⟨c', h2, h2'⟩
      · cases h1'
      · rw [h1] at h2; cases h2; exact ih h1' h2'

/-- how the content changes when one entry is replaced. -/
theorem at_put {s : Srv A} {k : Str} {x : Val A} {p : List Str} {v : Val A} :
    At (put k x s) p v ↔ (∃ q, p = k :: q ∧ ((q = [] ∧ v = x) ∨ ∃ c, x = .child c ∧ At c q v)) ∨
      (p.head? ≠ some k ∧ At s p v) := by
  cases p with
  | nil => simp [not_at_nil]
  | cons k' p =>
    rw [at_cons, at_cons, find_put]
    by_cases e : k' = k
    · subst e
      simp only [if_true, Option.some.injEq, List.cons.injEq, true_and, List.head?_cons, not_true_eq_false,
        ne_eq, false_and, or_false, exists_eq_left']
      constructor
      · rintro (⟨h1, h2⟩ | ⟨c, h1, h2⟩)
        · exact .inl ⟨h1, h2.symm⟩
        · exact .inr ⟨c, h1, h2⟩
      · rintro (⟨h1, h2⟩ | ⟨c, h1, h2⟩)
        · exact .inl ⟨h1, h2.symm⟩
        · exact .inr ⟨c, h1, h2⟩
    · simp [e]

/-! ### names -/

theorem dropWhile_spec (ws : Char → Bool) (s : Str) :
    ∃ pre, s = pre ++ s.dropWhile ws ∧ (∀ c ∈ pre, ws c = true) ∧
      (∀ c ∈ (s.dropWhile ws).head?, ws c = false) := by
  induction s with
  | nil => exact ⟨[], by simp⟩
  | cons a s ih =>
    rw [List.dropWhile_cons]
    by_cases h : ws a = true
    · rw [if_pos h]
      obtain ⟨pre, h1, h2, h3⟩ := ih
      refine ⟨a :: pre, by rw [List.cons_append, ← h1], ?_, h3⟩
      intro c hc
      rcases List.mem_cons.1 hc with rfl | hc
      · exact h
      · exact h2 c hc
    · rw [if_neg h]
      exact ⟨[], rfl, by simp, by simpa using h⟩

theorem strip_spec (ws : Char → Bool) (s : Str) : Stripped ws s (strip ws s) := by
  obtain ⟨pre, h1, h2, h3⟩ := dropWhile_spec ws s
  obtain ⟨suf, h4, h5, h6⟩ := dropWhile_spec ws (s.dropWhile ws).reverse
  have e : s.dropWhile ws = strip ws s ++ suf.reverse := by
    unfold strip
    rw [← List.reverse_append, ← h4, List.reverse_reverse]
  refine ⟨pre, suf.reverse, by rw [List.append_assoc, ← e, ← h1], h2, ?_, ?_, ?_⟩
  · intro c hc; exact h5 c (List.mem_reverse.1 hc)
  · intro c hc
    apply h3
    rw [e]
    cases hs : strip ws s with
    | nil => rw [hs] at hc; simp at hc
    | cons a l => rw [hs] at hc; exact hc
  · intro c hc
    apply h6
    rw [← List.getLast?_reverse]; exact hc

theorem dropWhile_stripped (ws : Char → Bool) (pre b : Str) (h1 : ∀ c ∈ pre, ws c = true)
    (h2 : ∀ c ∈ b.head?, ws c = false) : (pre ++ b).dropWhile ws = b := by
  induction pre with
  | nil =>
    cases b with
    | nil => rfl
    | cons a b =>
      have := h2 a rfl
      simp [this]
  | cons a pre ih =>
    rw [List.cons_append, List.dropWhile_cons, if_pos (h1 a (by simp))]
    exact ih (fun c hc => h1 c (List.mem_cons_of_mem _ hc))

theorem stripped_unique {ws : Char → Bool} {a b : Str} (h : Stripped ws a b) : b = strip ws a := by
  obtain ⟨pre, suf, rfl, h1, h2, h3, h4⟩ := h
  unfold strip
  cases b with
  | nil =>
    have : ((pre ++ [] ++ suf).dropWhile ws) = [] := by
      have := dropWhile_stripped ws (pre ++ suf) [] (by
        intro c hc
        rcases List.mem_append.1 hc with hc | hc
        · exact h1 c hc
        · exact h2 c hc) (by simp)
      simpa using this
    rw [this]; rfl
  | cons x b =>
    have e1 : ((pre ++ (x :: b) ++ suf).dropWhile ws) = (x :: b) ++ suf := by
      rw [List.append_assoc]
      exact dropWhile_stripped ws pre _ h1 (by simpa using h3)
    rw [e1, List.reverse_append]
    rw [dropWhile_stripped ws suf.reverse (x :: b).reverse
      (fun c hc => h2 c (List.mem_reverse.1 hc)) (by rw [List.head?_reverse]; exact h4)]
    rw [List.reverse_reverse]

theorem splitAll_path {n : Str} {p : List Str} (h : Path n p) : splitAll n = p := by
  induction h with
  | last n h =>
    rw [splitAll]
    split
    · rename_i c r e
      rw [Par.findDelim_none.2 h] at e; cases e
    · rfl
  | cons c r p h1 _ ih =>
    have hf := Par.findDelim_some (b := r) |>.2 ⟨rfl, h1⟩
    rw [splitAll]
    split
    · rename_i c' r' e
      rw [hf] at e; cases e
      rw [ih]
    · rename_i e
      rw [hf] at e; cases e

theorem forall2_map {α β : Type} {R : α → β → Prop} {f : α → β} (hf : ∀ a b, R a b → b = f a)
    {l : List α} {m : List β} (h : List.Forall₂ R l m) : m = l.map f := by
  induction h with
  | nil => rfl
  | cons h _ ih => rw [List.map_cons, ← hf _ _ h, ← ih]

theorem names_iff {ws : Char → Bool} {n : Str} {p : List Str} :
    Names ws n p ↔ (splitAll n).map (strip ws) = p := by
  constructor
  · rintro ⟨q, h1, h2⟩
    rw [splitAll_path h1]
    exact (forall2_map (fun a b h => stripped_unique h) h2).symm
  · intro h
    obtain ⟨q, hq⟩ := Par.path_exists n
    rw [splitAll_path hq] at h
    refine ⟨q, hq, ?_⟩
    rw [← h, List.forall₂_map_right_iff, List.forall₂_same]
    intro a _
    exact strip_spec ws a

theorem splitAll_ne (n : Str) : splitAll n ≠ [] := by
  obtain ⟨q, hq⟩ := Par.path_exists n
  rw [splitAll_path hq]; exact Par.path_ne_nil hq

theorem names_ne {ws : Char → Bool} {n : Str} {p : List Str} (h : Names ws n p) : p ≠ [] := by
  rw [names_iff] at h
  subst h
  simp [splitAll_ne]

/-! ### C122: reading -/

theorem getPath_cons (d : A) (k : Str) (ks : List Str) (s : Srv A) :
    getPath d (k :: ks) s = match find k s with
      | some (.child c) => match getPath d ks c with
          | .error e => .error e
          | .ok (c', v) => .ok (put k (.child c') s, v)
      | some v => .ok (s, v)
      | none => match ks with
          | [] => .ok (put k (.leaf d) s, .leaf d)
          | k' :: ks' => match getPath d (k' :: ks') .nil with
              | .error e => .error e
              | .ok (c', v) => .ok (put k (.child c') s, v) := by
  cases ks <;> rw [getPath] <;> rfl

/-- what reading along a path does. -/
theorem getPath_present {s : Srv A} {p : List Str} {v : Val A} (d : A) (h : At s p v) (hv : IsValue v)
    (q : List Str) : getPath d (p ++ q) s = .ok (s, v) := by
  induction p generalizing s with
  | nil => cases h
  | cons k p ih =>
    rw [at_cons] at h
    rcases h with ⟨rfl, h⟩ | ⟨c, h1, h2⟩
    · rw [List.cons_append, getPath_cons]; simp only [h]
      cases v with
      | leaf a => rfl
      | child c => exact absurd rfl (hv c)
      | many l => rfl
    · rw [List.cons_append, getPath_cons]; simp only [h1, ih h2, put_same h1]

theorem getPath_section {s : Srv A} {p : List Str} {c : Srv A} (d : A) (h : At s p (.child c)) :
    getPath d p s = .error .thrown := by
  induction p generalizing s with
  | nil => cases h
  | cons k p ih =>
    rw [at_cons] at h
    rcases h with ⟨rfl, h⟩ | ⟨c', h1, h2⟩
    · rw [getPath_cons, h]; rfl
    · rw [getPath_cons]; simp only [h1, ih h2]

theorem vacant_child {s c : Srv A} {k : Str} {p : List Str} (h : Vacant s (k :: p))
    (hc : find k s = some (.child c)) : Vacant c p := by
  intro q v hq hv
  have := h (k :: q) v (by rw [List.cons_prefix_cons]; exact ⟨rfl, hq⟩) (at_cons.2 (.inr ⟨c, hc, hv⟩))
  exact ⟨fun e => this.1 (by rw [e]), this.2⟩

/-- the content after storing the default: the parameter read, and what was there before. -/
theorem getPath_absent {s : Srv A} {p : List Str} (d : A) (hp : p ≠ []) (h : Vacant s p) :
    ∃ s', getPath d p s = .ok (s', .leaf d) ∧
      (∀ q v, IsValue v → (At s' q v ↔ (q = p ∧ v = .leaf d) ∨ At s q v)) ∧
      (∀ q, (∃ c, At s' q (.child c)) ↔ (∃ c, At s q (.child c)) ∨ (q ≠ [] ∧ q <+: p ∧ q ≠ p)) := by
  induction p generalizing s with
  | nil => exact absurd rfl hp
  | cons k p ih =>
    cases hf : find k s with
    | some w =>
      cases w with
      | leaf a =>
        exact absurd (h [k] _ (by simp) (at_cons.2 (.inl ⟨rfl, hf⟩))).2 (by simp)
      | many l =>
        exact absurd (h [k] _ (by simp) (at_cons.2 (.inl ⟨rfl, hf⟩))).2 (by simp)
      | child c =>
        have hpn : p ≠ [] := by
          intro e
          exact (h [k] _ (by simp) (at_cons.2 (.inl ⟨rfl, hf⟩))).1 (by rw [e])
        obtain ⟨c', h1, h2, h3⟩ := ih hpn (vacant_child h hf)
        refine ⟨put k (.child c') s, by rw [getPath_cons]; simp only [hf, h1], ?_, ?_⟩
        · intro q v hv
          rw [at_put]
          constructor
          · rintro (⟨q', rfl, (⟨_, h5⟩ | ⟨c2, h5, h6⟩)⟩ | ⟨_, h4⟩)
            · exact absurd h5 (hv _)
            · cases h5
              rcases (h2 _ _ hv).1 h6 with ⟨rfl, h7⟩ | h7
              · exact .inl ⟨rfl, h7⟩
              · exact .inr (at_cons.2 (.inr ⟨c, hf, h7⟩))
            · exact .inr h4
          · rintro (⟨rfl, rfl⟩ | h4)
            · exact .inl ⟨p, rfl, .inr ⟨c', rfl, (h2 _ _ hv).2 (.inl ⟨rfl, rfl⟩)⟩⟩
            · cases q with
              | nil => cases h4
              | cons k' q =>
                by_cases e : k' = k
                · subst e
                  rw [at_cons] at h4
                  rcases h4 with ⟨rfl, h4⟩ | ⟨c2, h4, h5⟩
                  · rw [hf] at h4; cases h4; exact absurd rfl (hv c)
                  · rw [hf] at h4; cases h4
                    exact .inl ⟨q, rfl, .inr ⟨c', rfl, (h2 _ _ hv).2 (.inr h5)⟩⟩
                · exact .inr ⟨by simpa using e, h4⟩
        · intro q
          constructor
          · rintro ⟨x, hx⟩
            rw [at_put] at hx
            rcases hx with ⟨q', rfl, (⟨rfl, h5⟩ | ⟨c2, h5, h6⟩)⟩ | ⟨_, h4⟩
            · exact .inl ⟨c, at_cons.2 (.inl ⟨rfl, hf⟩)⟩
            · cases h5
              rcases (h3 _).1 ⟨_, h6⟩ with ⟨c3, h7⟩ | ⟨h7, h8, h9⟩
              · exact .inl ⟨c3, at_cons.2 (.inr ⟨c, hf, h7⟩)⟩
              · exact .inr ⟨by simp, by rw [List.cons_prefix_cons]; exact ⟨rfl, h8⟩, by simpa using h9⟩
            · exact .inl ⟨x, h4⟩
          · intro hx
            cases q with
            | nil =>
              rcases hx with ⟨c2, h4⟩ | ⟨h4, _⟩
              · cases h4
              · exact absurd rfl h4
            | cons k' q =>
              by_cases e : k' = k
              · subst e
                cases q with
                | nil => exact ⟨c', at_put.2 (.inl ⟨[], rfl, .inl ⟨rfl, rfl⟩⟩)⟩
                | cons k2 q =>
                  have : ∃ c3, At c' (k2 :: q) (.child c3) := by
                    rw [h3]
                    rcases hx with ⟨c2, h4⟩ | ⟨_, h5, h6⟩
                    · rw [at_cons] at h4
                      rcases h4 with ⟨h4, _⟩ | ⟨c4, h4, h5⟩
                      · cases h4
                      · rw [hf] at h4; cases h4; exact .inl ⟨c2, h5⟩
                    · rw [List.cons_prefix_cons] at h5
                      exact .inr ⟨by simp, h5.2, by simpa using h6⟩
                  obtain ⟨c3, h7⟩ := this
                  exact ⟨c3, at_put.2 (.inl ⟨_, rfl, .inr ⟨c', rfl, h7⟩⟩)⟩
              · rcases hx with ⟨c2, h4⟩ | ⟨_, h5, _⟩
                · exact ⟨c2, at_put.2 (.inr ⟨by simpa using e, h4⟩)⟩
                · rw [List.cons_prefix_cons] at h5; exact absurd h5.1 e
    | none =>
      have hk : ∀ q v, q.head? = some k → ¬ At s q v := by
        intro q v hq hv
        cases q with
        | nil => simp at hq
        | cons k' q =>
          simp only [List.head?_cons, Option.some.injEq] at hq
          subst hq
          rw [at_cons, hf] at hv
          simp at hv
      cases p with
      | nil =>
        refine ⟨put k (.leaf d) s, by rw [getPath_cons]; simp only [hf], ?_, ?_⟩
        · intro q v hv
          rw [at_put]
          constructor
          · rintro (⟨q', rfl, (⟨rfl, h5⟩ | ⟨c2, h5, h6⟩)⟩ | ⟨_, h4⟩)
            · exact .inl ⟨rfl, h5⟩
            · cases h5
            · exact .inr h4
          · rintro (⟨rfl, rfl⟩ | h4)
            · exact .inl ⟨[], rfl, .inl ⟨rfl, rfl⟩⟩
            · exact .inr ⟨fun e => hk _ _ e h4, h4⟩
        · intro q
          constructor
          · rintro ⟨x, hx⟩
            rw [at_put] at hx
            rcases hx with ⟨q', rfl, (⟨rfl, h5⟩ | ⟨c2, h5, h6⟩)⟩ | ⟨_, h4⟩
            · cases h5
            · cases h5
            · exact .inl ⟨x, h4⟩
          · rintro (⟨x, h4⟩ | ⟨h4, h5, h6⟩)
            · exact ⟨x, at_put.2 (.inr ⟨fun e => hk _ _ e h4, h4⟩)⟩
            · obtain ⟨t, ht⟩ := h5
              cases q with
              | nil => exact absurd rfl h4
              | cons a q =>
                simp only [List.cons_append, List.cons.injEq, List.append_eq_nil_iff] at ht
                exact absurd (by rw [ht.1, ht.2.1]) h6
      | cons k2 p =>
        have hv0 : Vacant (.nil : Srv A) (k2 :: p) := fun q v _ hv => absurd hv at_empty
        obtain ⟨c', h1, h2, h3⟩ := ih (by simp) hv0
        refine ⟨put k (.child c') s, by rw [getPath_cons]; simp only [hf, h1], ?_, ?_⟩
        · intro q v hv
          rw [at_put]
          constructor
          · rintro (⟨q', rfl, (⟨_, h5⟩ | ⟨c2, h5, h6⟩)⟩ | ⟨_, h4⟩)
            · exact absurd h5 (hv _)
            · cases h5
              rcases (h2 _ _ hv).1 h6 with ⟨rfl, h7⟩ | h7
              · exact .inl ⟨rfl, h7⟩
              · exact absurd h7 at_empty
            · exact .inr h4
          · rintro (⟨rfl, rfl⟩ | h4)
            · exact .inl ⟨_, rfl, .inr ⟨c', rfl, (h2 _ _ hv).2 (.inl ⟨rfl, rfl⟩)⟩⟩
            · exact .inr ⟨fun e => hk _ _ e h4, h4⟩
        · intro q
          constructor
          · rintro ⟨x, hx⟩
            rw [at_put] at hx
            rcases hx with ⟨q', rfl, (⟨rfl, h5⟩ | ⟨c2, h5, h6⟩)⟩ | ⟨_, h4⟩
            · exact .inr ⟨by simp, by simp, by simp⟩
            · cases h5
              rcases (h3 _).1 ⟨_, h6⟩ with ⟨c3, h7⟩ | ⟨h7, h8, h9⟩
              · exact absurd h7 at_empty
              · exact .inr ⟨by simp, by rw [List.cons_prefix_cons]; exact ⟨rfl, h8⟩, by simpa using h9⟩
            · exact .inl ⟨x, h4⟩
          · rintro (⟨x, h4⟩ | ⟨h4, h5, h6⟩)
            · exact ⟨x, at_put.2 (.inr ⟨fun e => hk _ _ e h4, h4⟩)⟩
            · cases q with
              | nil => exact absurd rfl h4
              | cons a q =>
                rw [List.cons_prefix_cons] at h5
                obtain ⟨rfl, h5⟩ := h5
                cases q with
                | nil => exact ⟨c', at_put.2 (.inl ⟨[], rfl, .inl ⟨rfl, rfl⟩⟩)⟩
                | cons b q =>
                  obtain ⟨c3, h7⟩ := (h3 (b :: q)).2 (.inr ⟨by simp, h5, by simpa using h6⟩)
                  exact ⟨c3, at_put.2 (.inl ⟨_, rfl, .inr ⟨c', rfl, h7⟩⟩)⟩

/-- C122: a parameter that is there is returned, whatever the default, and nothing changes. -/
theorem C122_present {ws : Char → Bool} {s : Srv A} {n : Str} {p : List Str} {v : Val A} (d : A)
    (hn : Names ws n p) (h : At s p v) (hv : IsValue v) : get ws n d s = .ok (s, v) := by
  unfold get
  rw [names_iff.1 hn]
  simpa using getPath_present d h hv []

/-- C122: where neither the path nor a prefix of it is a parameter and the path is no child server, the
default is returned and stored; every other parameter stays as it is, and the only new child servers are
those leading to the parameter. -/
theorem C122_absent {ws : Char → Bool} {s : Srv A} {n : Str} {p : List Str} (d : A)
    (hn : Names ws n p) (h : Vacant s p) :
    ∃ s', get ws n d s = .ok (s', .leaf d) ∧ At s' p (.leaf d) ∧
      (∀ q v, IsValue v → (At s' q v ↔ (q = p ∧ v = .leaf d) ∨ At s q v)) ∧
      (∀ q, (∃ c, At s' q (.child c)) ↔ (∃ c, At s q (.child c)) ∨ (q ≠ [] ∧ q <+: p ∧ q ≠ p)) := by
  unfold get
  rw [names_iff.1 hn]
  obtain ⟨s', h1, h2, h3⟩ := getPath_absent d (names_ne hn) h
  exact ⟨s', h1, (h2 p _ (by intro c; simp)).2 (.inl ⟨rfl, rfl⟩), h2, h3⟩

/-- C122: the first read fixes the value: every later read of that name, with any default, returns it
and changes nothing. -/
theorem C122_stable {ws : Char → Bool} {s s' : Srv A} {n : Str} {v : Val A} {d : A} (d' : A)
    (h : get ws n d s = .ok (s', v)) : get ws n d' s' = .ok (s', v) := by
  unfold get at h ⊢
  generalize (splitAll n).map (strip ws) = p at h ⊢
  induction p generalizing s s' v with
  | nil => cases h
  | cons k p ih =>
    rw [getPath_cons] at h
    cases hf : find k s with
    | some w =>
      rw [hf] at h
      cases w with
      | leaf a => simp only at h; cases h; simp only [getPath_cons, hf]
      | many l => simp only at h; cases h; simp only [getPath_cons, hf]
      | child c =>
        simp only at h
        cases hg : getPath d p c with
        | error e => rw [hg] at h; cases h
        | ok x =>
          obtain ⟨c', v'⟩ := x
          rw [hg] at h; cases h
          rw [getPath_cons]; simp only [find_put, if_true, ih hg]
          rw [put_same]
          rw [find_put, if_pos rfl]
    | none =>
      rw [hf] at h
      cases p with
      | nil => simp only at h; cases h; simp only [getPath_cons, find_put, if_true]
      | cons k2 p =>
        simp only at h
        cases hg : getPath d (k2 :: p) .nil with
        | error e => rw [hg] at h; cases h
        | ok x =>
          obtain ⟨c', v'⟩ := x
          rw [hg] at h; cases h
          rw [getPath_cons]; simp only [find_put, if_true]
          have := ih hg
          rw [this]
          simp only
          rw [put_same]
          rw [find_put, if_pos rfl]

/-- C122 fails when a proper prefix of the path is a parameter: that other parameter is returned. -/
theorem C122_prefix_violated {ws : Char → Bool} {s : Srv A} {n : Str} {p q : List Str} {v : Val A} (d : A)
    (hn : Names ws n p) (hq : q <+: p) (h : At s q v) (hv : IsValue v) : get ws n d s = .ok (s, v) := by
  unfold get
  rw [names_iff.1 hn]
  obtain ⟨t, rfl⟩ := hq
  exact getPath_present d h hv t

/-- C122: reading a name that denotes a child server raises. -/
theorem C122_section {ws : Char → Bool} {s : Srv A} {n : Str} {p : List Str} {c : Srv A} (d : A)
    (hn : Names ws n p) (h : At s p (.child c)) : get ws n d s = .error .thrown := by
  unfold get
  rw [names_iff.1 hn]
  exact getPath_section d h

/-- C122: these cases are all there are. -/
theorem C122_cases (s : Srv A) (p : List Str) :
    Vacant s p ∨ (∃ q v, q <+: p ∧ At s q v ∧ IsValue v) ∨ (∃ c, At s p (.child c)) := by
  by_cases h1 : ∃ q v, q <+: p ∧ At s q v ∧ IsValue v
  · exact .inr (.inl h1)
  · by_cases h2 : ∃ c, At s p (.child c)
    · exact .inr (.inr h2)
    · left
      intro q v hq hv
      cases v with
      | leaf a => exact absurd ⟨q, _, hq, hv, by intro c; simp⟩ h1
      | many a => exact absurd ⟨q, _, hq, hv, by intro c; simp⟩ h1
      | child c => exact ⟨fun e => h2 ⟨c, e ▸ hv⟩, c, rfl⟩

/-- C122: reading raises exactly for names of child servers. -/
theorem C122_raises_iff {ws : Char → Bool} {s : Srv A} {n : Str} {p : List Str} (d : A)
    (hn : Names ws n p) : (∃ e, get ws n d s = .error e) ↔ ∃ c, At s p (.child c) := by
  constructor
  · rintro ⟨e, he⟩
    rcases C122_cases s p with h | ⟨q, v, h1, h2, h3⟩ | h
    · obtain ⟨s', h1, _⟩ := C122_absent d hn h
      rw [h1] at he; cases he
    · rw [C122_prefix_violated d hn h1 h2 h3] at he; cases he
    · exact h
  · rintro ⟨c, h⟩
    exact ⟨_, C122_section d hn h⟩

/-- every name denotes exactly one path. -/
theorem names_total (ws : Char → Bool) (n : Str) : ∃! p, Names ws n p :=
  ⟨_, names_iff.2 rfl, fun _ h => (names_iff.1 h).symm⟩

end Bark.PS
