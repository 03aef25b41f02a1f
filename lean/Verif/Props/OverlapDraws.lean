import Verif.Props.Overlap
import Mathlib.Data.List.Nodup
import Mathlib.Algebra.Order.Field.Rat
import Mathlib.Tactic.NormNum

/-! Exactly who is removed when overlaps are resolved (C133): every colliding pair is decided once by a sample and the
weights of the two sources. -/
namespace Bark.Gen
open Spec

/-- what is known after the pairs `seen` were looked at -/
structure Drawn (col : Id → Id → Bool) (seen : List (Id × Id)) (c : Collisions) : Prop where
  keys : (c.map Prod.fst).Nodup
  oneWay : ∀ i j, i ≠ j → ¬ ((∃ l, ((i, j), l) ∈ c) ∧ ∃ l, ((j, i), l) ∈ c)
  began : ∀ k l, (k, l) ∈ c → ∃ q ∈ seen, k.1 = q.1.1
  sound : ∀ k l, (k, l) ∈ c → ∀ p ∈ l, k = (p.1.1, p.2.1) ∧ p.1.1 < p.2.1 ∧ p ∈ seen ∧ col p.1 p.2 = true
  found : ∀ p ∈ seen, p.1.1 < p.2.1 → col p.1 p.2 = true → p ∈ Dict.getD (p.1.1, p.2.1) [] c
  once : ∀ k l, (k, l) ∈ c → l.Nodup

theorem getD_nil_or {c : Collisions} {k : Id} {p : Id × Id} (h : p ∈ Dict.getD k [] c) :
    (k, Dict.getD k [] c) ∈ c := by
  rcases Dict.getD_mem (k := k) (dflt := ([] : List (Id × Id))) (d := c) with e | e
  · rw [e] at h
    simp at h
  · exact e

theorem pairKey_cases' (c : Collisions) (i j : Nat) :
    (pairKey c i j = (i, j) ∧ ((∃ l, ((i, j), l) ∈ c) ∨ ¬ ∃ l, ((j, i), l) ∈ c)) ∨
    (pairKey c i j = (j, i) ∧ (∃ l, ((j, i), l) ∈ c) ∧ ¬ ∃ l, ((i, j), l) ∈ c) := by
  unfold pairKey
  by_cases h1 : Dict.has (i, j) c = true
  · rw [if_pos h1]
    exact Or.inl ⟨rfl, Or.inl (Dict.has_iff.1 h1)⟩
  · rw [if_neg h1]
    by_cases h2 : Dict.has (j, i) c = true
    · rw [if_pos h2]
      exact Or.inr ⟨rfl, Dict.has_iff.1 h2, fun h => h1 (Dict.has_iff.2 h)⟩
    · rw [if_neg h2]
      exact Or.inl ⟨rfl, Or.inr fun h => h2 (Dict.has_iff.2 h)⟩

/-- storing a list under the key of the two sources -/
theorem Drawn.put {col : Id → Id → Bool} {seen : List (Id × Id)} {c : Collisions} (hi : Drawn col seen c) {x o : Id}
    (hne : x.1 ≠ o.1) (add : List (Id × Id)) (hnew : (x, o) ∉ seen)
    (hadd : (add = [] ∧ (x.1 < o.1 → col x o = false)) ∨
      (add = [(x, o)] ∧ x.1 < o.1 ∧ col x o = true ∧ pairKey c x.1 o.1 = (x.1, o.1))) :
    Drawn col (seen ++ [(x, o)])
      (Dict.put (pairKey c x.1 o.1) (Dict.getD (pairKey c x.1 o.1) [] c ++ add) c) := by
  have hold : ∀ p ∈ Dict.getD (pairKey c x.1 o.1) [] c, (pairKey c x.1 o.1, Dict.getD (pairKey c x.1 o.1) [] c) ∈ c :=
    fun p hp => getD_nil_or hp
  have hk := pairKey_cases' c x.1 o.1
  refine ⟨Dict.put_keys_nodup hi.keys, ?_, ?_, ?_, ?_, ?_⟩
  · rintro i j hij ⟨⟨l1, h1⟩, ⟨l2, h2⟩⟩
    have key : ∀ k l, (k, l) ∈ Dict.put (pairKey c x.1 o.1) (Dict.getD (pairKey c x.1 o.1) [] c ++ add) c →
        k = pairKey c x.1 o.1 ∨ ∃ l, (k, l) ∈ c := by
      intro k l hm
      rcases Dict.mem_put hm with e | e
      · simp only [Prod.mk.injEq] at e
        exact Or.inl e.1
      · exact Or.inr ⟨l, e⟩
    have no : ∀ a b : Nat, a ≠ b → (a, b) = pairKey c x.1 o.1 → ¬ ∃ l, ((b, a), l) ∈ c := by
      intro a b hab he hex
      rcases hk with ⟨e, h'⟩ | ⟨e, h', h''⟩
      · rw [e] at he
        simp only [Prod.mk.injEq] at he
        rw [he.1, he.2] at hex
        rcases h' with h' | h'
        · exact hi.oneWay _ _ hne ⟨h', hex⟩
        · exact h' hex
      · rw [e] at he
        simp only [Prod.mk.injEq] at he
        rw [he.1, he.2] at hex
        exact h'' hex
    rcases key _ _ h1 with e1 | e1
    · rcases key _ _ h2 with e2 | e2
      · rw [← e2] at e1
        simp only [Prod.mk.injEq] at e1
        exact hij e1.1
      · exact no i j hij e1 e2
    · rcases key _ _ h2 with e2 | e2
      · exact no j i (Ne.symm hij) e2 e1
      · exact hi.oneWay i j hij ⟨e1, e2⟩
  · intro k l hm
    rcases Dict.mem_put hm with e | e
    · simp only [Prod.mk.injEq] at e
      rw [e.1]
      rcases hk with ⟨e, -⟩ | ⟨e, ⟨l', h'⟩, -⟩
      · rw [e]
        exact ⟨(x, o), by simp, rfl⟩
      · rw [e]
        obtain ⟨q, hq, h⟩ := hi.began _ _ h'
        exact ⟨q, by simp [hq], h⟩
    · obtain ⟨q, hq, h⟩ := hi.began _ _ e
      exact ⟨q, by simp [hq], h⟩
  · intro k l hm p hp
    have olds : ∀ l', (k, l') ∈ c → p ∈ l' → k = (p.1.1, p.2.1) ∧ p.1.1 < p.2.1 ∧ p ∈ seen ++ [(x, o)] ∧
        col p.1 p.2 = true := by
      intro l' h h'
      obtain ⟨a, b, d, e⟩ := hi.sound _ _ h p h'
      exact ⟨a, b, by simp [d], e⟩
    rcases Dict.mem_put hm with e | e
    · simp only [Prod.mk.injEq] at e
      obtain ⟨rfl, rfl⟩ := e
      rcases List.mem_append.1 hp with hp | hp
      · exact olds _ (hold p hp) hp
      · rcases hadd with ⟨rfl, -⟩ | ⟨rfl, h1, h2, h3⟩
        · simp at hp
        · simp only [List.mem_singleton] at hp
          subst hp
          exact ⟨h3, h1, by simp, h2⟩
    · exact olds _ e hp
  · intro p hp hlt hcol
    rw [Dict.getD_put]
    rcases List.mem_append.1 hp with hp | hp
    · have := hi.found p hp hlt hcol
      split
      · rename_i e
        rw [← e]
        exact List.mem_append.2 (Or.inl this)
      · exact this
    · simp only [List.mem_singleton] at hp
      subst hp
      rcases hadd with ⟨rfl, h⟩ | ⟨rfl, h1, h2, h3⟩
      · rw [h hlt] at hcol
        cases hcol
      · rw [if_pos h3.symm]
        simp
  · intro k l hm
    rcases Dict.mem_put hm with e | e
    · simp only [Prod.mk.injEq] at e
      rw [e.2]
      have hn : (Dict.getD (pairKey c x.1 o.1) [] c).Nodup := by
        rcases Dict.getD_mem (k := pairKey c x.1 o.1) (dflt := ([] : List (Id × Id))) (d := c) with e | e
        · rw [e]; simp
        · exact hi.once _ _ e
      rcases hadd with ⟨rfl, -⟩ | ⟨rfl, -⟩
      · simpa using hn
      · rw [List.nodup_append]
        refine ⟨hn, by simp, ?_⟩
        intro a ha b hb
        simp only [List.mem_singleton] at hb
        subst hb
        rintro rfl
        exact hnew (hi.sound _ _ (hold _ ha) _ ha).2.2.1
    · exact hi.once _ _ e

/-- one more pair -/
theorem Drawn.step {col : Id → Id → Bool} (hsymm : ∀ x o, col x o = col o x) {seen : List (Id × Id)} {c c' : Collisions}
    (hi : Drawn col seen c) {x o : Id} (h : findStep col x c o = .ok c') (hnew : (x, o) ∉ seen)
    (hle : ∀ q ∈ seen, q.1.1 ≤ x.1) (hback : o.1 < x.1 → col x o = true → (o, x) ∈ seen) :
    Drawn col (seen ++ [(x, o)]) c' := by
  unfold findStep at h
  by_cases g : x.1 = o.1
  · rw [if_pos g] at h
    split at h <;> cases h
    refine ⟨hi.keys, hi.oneWay, ?_, ?_, ?_, hi.once⟩
    · intro k l hm
      obtain ⟨q, hq, h⟩ := hi.began _ _ hm
      exact ⟨q, by simp [hq], h⟩
    · intro k l hm p hp
      obtain ⟨a, b, d, e⟩ := hi.sound _ _ hm p hp
      exact ⟨a, b, by simp [d], e⟩
    · intro p hp hlt hcol
      rcases List.mem_append.1 hp with hp | hp
      · exact hi.found p hp hlt hcol
      · simp only [List.mem_singleton] at hp
        subst hp
        exact absurd g (Nat.ne_of_lt hlt)
  · rw [if_neg g] at h
    simp only at h
    by_cases hlt : x.1 < o.1
    · have hkey : pairKey c x.1 o.1 = (x.1, o.1) := by
        rcases pairKey_cases' c x.1 o.1 with ⟨e, -⟩ | ⟨-, ⟨l, hl⟩, -⟩
        · exact e
        · obtain ⟨q, hq, he⟩ := hi.began _ _ hl
          have := hle q hq
          simp only at he
          omega
      have hany : ((Dict.getD (pairKey c x.1 o.1) [] c).any fun p => decide (p.1 = o)) = false := by
        rw [Bool.eq_false_iff]
        intro ht
        simp only [List.any_eq_true, decide_eq_true_eq] at ht
        obtain ⟨p, hp, rfl⟩ := ht
        have := (hi.sound _ _ (getD_nil_or hp) p hp).1
        rw [hkey] at this
        simp only [Prod.mk.injEq] at this
        exact g this.1
      rw [hany] at h
      by_cases hcol : col x o = true
      · rw [hcol] at h
        simp only [Bool.not_false, Bool.and_self, if_true, Except.ok.injEq] at h
        subst h
        exact hi.put g [(x, o)] hnew (Or.inr ⟨rfl, hlt, hcol, hkey⟩)
      · have hcol' : col x o = false := by simpa using hcol
        rw [hcol'] at h
        simp only [Bool.and_false, Bool.false_eq_true, if_false, Except.ok.injEq] at h
        subst h
        have := hi.put g [] hnew (Or.inl ⟨rfl, fun _ => hcol'⟩)
        simpa using this
    · have hgt : o.1 < x.1 := by omega
      have hc' : c' = Dict.put (pairKey c x.1 o.1) (Dict.getD (pairKey c x.1 o.1) [] c) c := by
        by_cases hcol : col x o = true
        · have hf := hi.found (o, x) (hback hgt hcol) hgt (by rw [hsymm]; exact hcol)
          simp only at hf
          have hkey : pairKey c x.1 o.1 = (o.1, x.1) := by
            rcases pairKey_cases' c x.1 o.1 with ⟨-, h' | h'⟩ | ⟨e, -⟩
            · exact absurd ⟨h', _, getD_nil_or hf⟩ (hi.oneWay _ _ g)
            · exact absurd ⟨_, getD_nil_or hf⟩ h'
            · exact e
          have hany : ((Dict.getD (pairKey c x.1 o.1) [] c).any fun p => decide (p.1 = o)) = true := by
            rw [List.any_eq_true]
            exact ⟨(o, x), by rw [hkey]; exact hf, by simp⟩
          rw [hany] at h
          simp only [Bool.not_true, Bool.false_and, Bool.false_eq_true, if_false, Except.ok.injEq] at h
          exact h.symm
        · have hcol' : col x o = false := by simpa using hcol
          rw [hcol'] at h
          simp only [Bool.and_false, Bool.false_eq_true, if_false, Except.ok.injEq] at h
          exact h.symm
      rw [hc']
      have := hi.put g [] hnew (Or.inl ⟨rfl, fun h => absurd h hlt⟩)
      simpa using this

/-- the pairs looked at, in order -/
def looked (near : Id → List Id) (xs : List Id) : List (Id × Id) := xs.flatMap fun x => (near x).map fun o => (x, o)

theorem Drawn.agent {col : Id → Id → Bool} (hsymm : ∀ x o, col x o = col o x) {x : Id} : ∀ {os : List Id}
    {seen rest : List (Id × Id)} {c c' : Collisions}, Drawn col seen c → findAgent col x c os = .ok c' →
    (seen ++ (os.map fun o => (x, o)) ++ rest).Nodup →
    (seen ++ (os.map fun o => (x, o)) ++ rest).Pairwise (fun p q => p.1.1 ≤ q.1.1) →
    (∀ p ∈ seen ++ (os.map fun o => (x, o)) ++ rest, p.2.1 < p.1.1 → col p.1 p.2 = true →
      (p.2, p.1) ∈ seen ++ (os.map fun o => (x, o)) ++ rest) →
    Drawn col (seen ++ os.map fun o => (x, o)) c'
  | [], seen, rest, c, c', hi, h, _, _, _ => by
    simp only [findAgent, Except.ok.injEq] at h
    subst h
    simpa using hi
  | o :: os, seen, rest, c, c', hi, h, hn, hs, hb => by
    unfold findAgent at h
    cases h1 : findStep col x c o with
    | error f => rw [h1] at h; cases h
    | ok c1 =>
      rw [h1] at h
      simp only at h
      have e : seen ++ ((o :: os).map fun o => (x, o)) ++ rest =
          (seen ++ [(x, o)]) ++ (os.map fun o => (x, o)) ++ rest := by simp
      have e2 : seen ++ ((o :: os).map fun o => (x, o)) ++ rest =
          seen ++ ((x, o) :: ((os.map fun o => (x, o)) ++ rest)) := by simp
      have hi' : Drawn col (seen ++ [(x, o)]) c1 := by
        refine hi.step hsymm h1 ?_ ?_ ?_
        · intro hm
          rw [e2, List.nodup_append] at hn
          exact hn.2.2 _ hm _ (by simp) rfl
        · intro q hq
          rw [e2, List.pairwise_append] at hs
          exact hs.2.2 q hq (x, o) (by simp)
        · intro hlt hcol
          have hm := hb (x, o) (by rw [e2]; simp) hlt hcol
          rw [e2] at hm hs
          rcases List.mem_append.1 hm with hm | hm
          · exact hm
          · rw [List.pairwise_append, List.pairwise_cons] at hs
            rcases List.mem_cons.1 hm with hm | hm
            · simp only [Prod.mk.injEq] at hm
              rw [hm.1] at hlt
              omega
            · have := hs.2.1.1 _ hm
              simp only at this
              omega
      have := Drawn.agent hsymm (rest := rest) hi' h (by rw [← e]; exact hn) (by rw [← e]; exact hs)
        (by rw [← e]; exact hb)
      simpa using this

theorem Drawn.all {near : Id → List Id} {col : Id → Id → Bool} (hsymm : ∀ x o, col x o = col o x) : ∀ {xs : List Id}
    {seen : List (Id × Id)} {c c' : Collisions}, Drawn col seen c → findAll near col c xs = .ok c' →
    (seen ++ looked near xs).Nodup → (seen ++ looked near xs).Pairwise (fun p q => p.1.1 ≤ q.1.1) →
    (∀ p ∈ seen ++ looked near xs, p.2.1 < p.1.1 → col p.1 p.2 = true → (p.2, p.1) ∈ seen ++ looked near xs) →
    Drawn col (seen ++ looked near xs) c'
  | [], seen, c, c', hi, h, _, _, _ => by
    simp only [findAll, Except.ok.injEq] at h
    subst h
    simpa [looked] using hi
  | x :: xs, seen, c, c', hi, h, hn, hs, hb => by
    unfold findAll at h
    cases h1 : findAgent col x c (near x) with
    | error f => rw [h1] at h; cases h
    | ok c1 =>
      rw [h1] at h
      simp only at h
      have e : seen ++ looked near (x :: xs) = seen ++ ((near x).map fun o => (x, o)) ++ looked near xs := by
        simp [looked]
      rw [e] at hn hs hb ⊢
      exact Drawn.all hsymm (hi.agent hsymm h1 hn hs hb) h hn hs hb

section ids
variable {A : Type}

theorem idsFrom_sorted : ∀ (ls : List (List A)) (i : Nat), (idsFrom i ls).Pairwise (fun p q => p.1 ≤ q.1) ∧
    (idsFrom i ls).Nodup
  | [], i => by simp [idsFrom]
  | l :: ls, i => by
    obtain ⟨h1, h2⟩ := idsFrom_sorted ls (i + 1)
    unfold idsFrom
    have hlater : ∀ q ∈ idsFrom (i + 1) ls, i < q.1 := by
      intro q hq
      obtain ⟨j, l', e, -⟩ := idsFrom_mem.1 hq
      omega
    constructor
    · rw [List.pairwise_append]
      refine ⟨?_, h1, ?_⟩
      · rw [List.pairwise_map]
        exact List.pairwise_of_forall (by simp)
      · intro p hp q hq
        obtain ⟨a, -, rfl⟩ := List.mem_map.1 hp
        exact (hlater q hq).le
    · rw [List.nodup_append]
      refine ⟨?_, h2, ?_⟩
      · exact (List.nodup_range).map (fun a b h => by simpa using h)
      · intro p hp q hq e
        obtain ⟨a, -, rfl⟩ := List.mem_map.1 hp
        have := hlater q hq
        rw [← e] at this
        simp at this

end ids

section marks
variable {K D : Type} [LinearOrder K] [Add K] [OfNat K 0] [DecidableEq D]

theorem resolveOne_marked {w : K × K} {u : K} (hu : 0 ≤ u) {m : Dict Nat (List Nat)} {p : Id × Id} (x : Id) :
    Marked (resolveOne w u m p) x ↔ Marked m x ∨ LosesDraw w.1 w.2 u p x := by
  unfold resolveOne LosesDraw
  by_cases g : u ≤ w.1
  · rw [if_pos ⟨hu, g⟩, mark_marked]
    have : ¬ w.1 < u := not_lt.2 g
    constructor
    · rintro (h | h)
      · exact Or.inl h
      · exact Or.inr (Or.inl ⟨h, Or.inl g⟩)
    · rintro (h | ⟨h, -⟩ | ⟨-, h⟩)
      · exact Or.inl h
      · exact Or.inr h
      · exact absurd h this
  · rw [if_neg (fun h => g h.2)]
    have hlt : w.1 < u := not_le.1 g
    by_cases g2 : u ≤ w.1 + w.2
    · rw [if_pos ⟨hlt, g2⟩, mark_marked]
      constructor
      · rintro (h | h)
        · exact Or.inl h
        · exact Or.inr (Or.inr ⟨h, hlt⟩)
      · rintro (h | ⟨-, h | h⟩ | ⟨h, -⟩)
        · exact Or.inl h
        · exact absurd h g
        · exact absurd h (not_lt.2 g2)
        · exact Or.inr h
    · rw [if_neg (fun h => g2 h.2), mark_marked, mark_marked]
      constructor
      · rintro ((h | h) | h)
        · exact Or.inl h
        · exact Or.inr (Or.inl ⟨h, Or.inr (not_le.1 g2)⟩)
        · exact Or.inr (Or.inr ⟨h, hlt⟩)
      · rintro (h | ⟨h, -⟩ | ⟨h, -⟩)
        · exact Or.inl (Or.inl h)
        · exact Or.inl (Or.inr h)
        · exact Or.inr h

theorem resolvePairs_marked {w : K × K} {u : Nat → K} (hu : ∀ n, 0 ≤ u n) : ∀ {ps : List (Id × Id)}
    {m : Dict Nat (List Nat)} {k : Nat} (x : Id),
    (resolvePairs w u m k ps).2 = k + ps.length ∧ (Marked (resolvePairs w u m k ps).1 x ↔
      Marked m x ∨ ∃ (i : Nat) (p : Id × Id), ps[i]? = some p ∧ LosesDraw w.1 w.2 (u (k + i)) p x)
  | [], m, k, x => by simp [resolvePairs]
  | p :: ps, m, k, x => by
    unfold resolvePairs
    obtain ⟨h1, h2⟩ := resolvePairs_marked hu (w := w) (ps := ps) (m := resolveOne w (u k) m p) (k := k + 1) x
    refine ⟨by rw [h1, List.length_cons]; omega, ?_⟩
    rw [h2, resolveOne_marked (hu k)]
    constructor
    · rintro ((h | h) | ⟨i, q, hq, h⟩)
      · exact Or.inl h
      · exact Or.inr ⟨0, p, rfl, h⟩
      · exact Or.inr ⟨i + 1, q, by simpa using hq, by rw [show k + (i + 1) = k + 1 + i by omega]; exact h⟩
    · rintro (h | ⟨i, q, hq, h⟩)
      · exact Or.inl (Or.inl h)
      · cases i with
        | zero =>
          simp only [List.getElem?_cons_zero, Option.some.injEq] at hq
          subst hq
          exact Or.inl (Or.inr h)
        | succ i => exact Or.inr ⟨i, q, by simpa using hq, by rw [show k + 1 + i = k + (i + 1) by omega]; exact h⟩

theorem weights_spec {table : Dict (D × D) (Weight K × Weight K)} {d1 d2 : D} {w : K × K}
    (h : weights table d1 d2 = .ok w) : WeightsOf table d1 d2 w.1 w.2 := by
  unfold weights at h
  simp only at h
  by_cases h1 : Dict.has (d1, d2) table = true
  · rw [if_pos h1] at h
    have hm := Dict.getD_mem_of_has (dflt := ((.int 0, .int 0) : Weight K × Weight K)) h1
    generalize Dict.getD (d1, d2) (.int 0, .int 0) table = v at h hm
    obtain ⟨v1, v2⟩ := v
    cases v1 <;> cases v2 <;> simp only [Except.ok.injEq, reduceCtorEq] at h
    subst h
    exact Or.inl hm
  · rw [if_neg h1] at h
    by_cases h2 : Dict.has (d2, d1) table = true
    · rw [if_pos h2] at h
      have hm := Dict.getD_mem_of_has (dflt := ((.int 0, .int 0) : Weight K × Weight K)) h2
      generalize Dict.getD (d2, d1) (.int 0, .int 0) table = v at h hm
      obtain ⟨v1, v2⟩ := v
      cases v1 <;> cases v2 <;> simp only [Except.ok.injEq, reduceCtorEq] at h
      subst h
      exact Or.inr ⟨fun v hv => h1 (Dict.has_iff.2 ⟨v, hv⟩), hm⟩
    · rw [if_neg h2] at h
      cases h

theorem resolveAll_marked {table : Dict (D × D) (Weight K × Weight K)} {desc : Nat → D} {u : Nat → K}
    (hu : ∀ n, 0 ≤ u n) : ∀ {c : Collisions} {m m' : Dict Nat (List Nat)} {k : Nat},
    (∀ key l, (key, l) ∈ c → ∀ p ∈ l, key = (p.1.1, p.2.1)) → resolveAll table desc u m k c = .ok m' →
    (∀ p ∈ c.flatMap Prod.snd, ∃ a b, WeightsOf table (desc p.1.1) (desc p.2.1) a b) ∧ ∀ x, Marked m' x ↔
      Marked m x ∨ ∃ (i : Nat) (p : Id × Id) (w : K × K), (c.flatMap Prod.snd)[i]? = some p ∧
        weights table (desc p.1.1) (desc p.2.1) = .ok w ∧ LosesDraw w.1 w.2 (u (k + i)) p x
  | [], m, m', k, _, h => by
    simp only [resolveAll, Except.ok.injEq] at h
    subst h
    exact ⟨by simp, fun x => by simp⟩
  | (key, ps) :: cs, m, m', k, hk, h => by
    unfold resolveAll at h
    cases hw : weights table (desc key.1) (desc key.2) with
    | error f => rw [hw] at h; cases h
    | ok w =>
      rw [hw] at h
      simp only at h
      obtain ⟨h0, h1⟩ := resolveAll_marked hu (fun key l hm => hk key l (by simp [hm])) h
      have hkey : ∀ p ∈ ps, weights table (desc p.1.1) (desc p.2.1) = .ok w := by
        intro p hp
        have := hk key ps (by simp) p hp
        rw [this] at hw
        exact hw
      refine ⟨?_, fun x => ?_⟩
      · intro p hp
        rw [List.flatMap_cons, List.mem_append] at hp
        rcases hp with hp | hp
        · exact ⟨_, _, weights_spec (hkey p hp)⟩
        · exact h0 p hp
      · obtain ⟨e, hp⟩ := resolvePairs_marked hu (w := w) (ps := ps) (m := m) (k := k) x
        rw [h1 x, hp, e, List.flatMap_cons]
        simp only
        constructor
        · rintro ((h | ⟨i, p, hi, hl⟩) | ⟨i, p, w', hi, hw', hl⟩)
          · exact Or.inl h
          · refine Or.inr ⟨i, p, w, ?_, hkey p (List.mem_of_getElem? hi), hl⟩
            rw [List.getElem?_append_left (List.getElem?_eq_some_iff.1 hi).1]
            exact hi
          · refine Or.inr ⟨ps.length + i, p, w', ?_, hw', by rw [← Nat.add_assoc]; exact hl⟩
            rw [List.getElem?_append_right (by omega)]
            simpa using hi
        · rintro (h | ⟨i, p, w', hi, hw', hl⟩)
          · exact Or.inl (Or.inl h)
          · by_cases hlt : i < ps.length
            · rw [List.getElem?_append_left hlt] at hi
              have := hkey p (List.mem_of_getElem? hi)
              rw [this] at hw'
              cases hw'
              exact Or.inl (Or.inr ⟨i, p, hi, hl⟩)
            · rw [List.getElem?_append_right (by omega)] at hi
              exact Or.inr ⟨i - ps.length, p, w', hi, hw',
                by rw [show k + ps.length + (i - ps.length) = k + i by omega]; exact hl⟩

/-- Every pair of colliding agents of different sources is decided exactly once, by a sample of its own and the weights
of the two sources; the agents removed are exactly those that lose such a decision. -/
theorem C133_decided {A : Type} {near : Id → List Id} {col : Id → Id → Bool}
    {table : Dict (D × D) (Weight K × Weight K)} {desc : Nat → D} {u : Nat → K} (hu : ∀ n, 0 ≤ u n)
    {ls out : List (List A)} (hg : Geometry ls near col) (hnear : ∀ x, (near x).Nodup)
    (h : resolveOverlaps near col table desc u ls = .ok out) :
    ∃ (draws : List (Id × Id)) (keep : Id → Bool), draws.Nodup ∧
      (∀ x o, (x, o) ∈ draws ↔ x.1 < o.1 ∧ Valid ls x ∧ Valid ls o ∧ col x o = true) ∧
      (∀ p ∈ draws, ∃ a b, WeightsOf table (desc p.1.1) (desc p.2.1) a b) ∧
      (∀ i : Nat, out[i]? = (ls[i]?).map (survivors keep i)) ∧
      ((table.map Prod.fst).Nodup → ∀ x, keep x = false ↔ ∃ (i : Nat) (p : Id × Id) (a b : K), draws[i]? = some p ∧
        WeightsOf table (desc p.1.1) (desc p.2.1) a b ∧ LosesDraw a b (u i) p x) := by
  obtain ⟨keep, hout, -, -, c, m, hc, hm, hkeep⟩ := resolve_core hg h
  have hs := idsFrom_sorted ls 0
  have hmem : ∀ x o, (x, o) ∈ looked near (idsFrom 0 ls) ↔ Valid ls x ∧ o ∈ near x := by
    intro x o
    unfold looked
    simp only [List.mem_flatMap, List.mem_map, Prod.mk.injEq]
    constructor
    · rintro ⟨y, hy, z, hz, rfl, rfl⟩
      exact ⟨ids_valid.1 hy, hz⟩
    · rintro ⟨hv, ho⟩
      exact ⟨x, ids_valid.2 hv, o, ho, rfl, rfl⟩
  have hd : Drawn col ([] ++ looked near (idsFrom 0 ls)) c := by
    refine Drawn.all hg.symm ⟨by simp, by simp, by simp, by simp, by simp, by simp⟩ hc ?_ ?_ ?_
    · rw [List.nil_append]
      unfold looked
      rw [List.nodup_flatMap]
      refine ⟨fun x _ => (hnear x).map (fun a b h => by simpa using h), ?_⟩
      refine hs.2.imp ?_
      intro a b hab p hp hp'
      obtain ⟨_, -, rfl⟩ := List.mem_map.1 hp
      obtain ⟨_, -, e⟩ := List.mem_map.1 hp'
      simp only [Prod.mk.injEq] at e
      exact hab e.1.symm
    · rw [List.nil_append]
      unfold looked
      rw [List.pairwise_flatMap]
      refine ⟨fun x _ => ?_, hs.1.imp ?_⟩
      · rw [List.pairwise_map]
        exact List.pairwise_of_forall (by simp)
      · intro a b hab p hp q hq
        obtain ⟨_, -, rfl⟩ := List.mem_map.1 hp
        obtain ⟨_, -, rfl⟩ := List.mem_map.1 hq
        exact hab
    · rw [List.nil_append]
      rintro ⟨x, o⟩ hp - hcol
      obtain ⟨hv, ho⟩ := (hmem x o).1 hp
      have hvo := hg.valid x o ho
      exact (hmem o x).2 ⟨hvo, hg.complete o x hvo hv (by rw [hg.symm]; exact hcol)⟩
  rw [List.nil_append] at hd
  obtain ⟨hw, hmark⟩ := resolveAll_marked hu (fun key l hm p hp => (hd.sound key l hm p hp).1) hm
  refine ⟨c.flatMap Prod.snd, keep, ?_, ?_, hw, hout, ?_⟩
  · rw [List.nodup_flatMap]
    refine ⟨fun kl hkl => hd.once kl.1 kl.2 hkl, ?_⟩
    have hk := hd.keys
    unfold List.Nodup at hk
    rw [List.pairwise_map] at hk
    refine hk.imp_of_mem ?_
    intro a b ha hb hab p hp hp'
    exact hab ((hd.sound _ _ ha p hp).1.trans (hd.sound _ _ hb p hp').1.symm)
  · intro x o
    rw [List.mem_flatMap]
    constructor
    · rintro ⟨kl, hkl, hp⟩
      obtain ⟨-, h1, h2, h3⟩ := hd.sound kl.1 kl.2 hkl _ hp
      obtain ⟨hv, ho⟩ := (hmem x o).1 h2
      exact ⟨h1, hv, hg.valid x o ho, h3⟩
    · rintro ⟨h1, hv, hvo, h3⟩
      have := hd.found (x, o) ((hmem x o).2 ⟨hv, hg.complete x o hv hvo h3⟩) h1 h3
      exact ⟨_, getD_nil_or this, this⟩
  · intro htab x
    have hunique : ∀ {d1 d2 : D} {a b : K} {w : K × K}, weights table d1 d2 = .ok w → WeightsOf table d1 d2 a b →
        w = (a, b) := by
      intro d1 d2 a b w hw hab
      have key : ∀ {k : D × D} {v v' : Weight K × Weight K}, (k, v) ∈ table → (k, v') ∈ table → v = v' := by
        intro k v v' h1 h2
        have := List.inj_on_of_nodup_map htab h1 h2 rfl
        simp only [Prod.mk.injEq, true_and] at this
        exact this
      rcases weights_spec hw with h1 | ⟨h1, h1'⟩
      · rcases hab with h2 | ⟨h2, -⟩
        · have := key h1 h2
          simp only [Prod.mk.injEq, Weight.float.injEq] at this
          exact Prod.ext this.1 this.2
        · exact absurd h1 (h2 _)
      · rcases hab with h2 | ⟨-, h2⟩
        · exact absurd h2 (h1 _)
        · have := key h1' h2
          simp only [Prod.mk.injEq, Weight.float.injEq] at this
          exact Prod.ext this.2 this.1
    rw [hkeep, hmark]
    constructor
    · rintro (h | ⟨i, p, w, hi, hw', hl⟩)
      · simp [Marked, Dict.getD] at h
      · exact ⟨i, p, w.1, w.2, hi, weights_spec hw', by simpa using hl⟩
    · rintro ⟨i, p, a, b, hi, hab, hl⟩
      right
      have hp : p ∈ c.flatMap Prod.snd := List.mem_of_getElem? hi
      obtain ⟨kl, hkl, hpl⟩ := List.mem_flatMap.1 hp
      have hwt : ∃ w, weights table (desc p.1.1) (desc p.2.1) = .ok w := by
        have := (hd.sound kl.1 kl.2 hkl p hpl).1
        have hx := resolveAll_weights.1 ⟨m, hm⟩ kl.1 kl.2 hkl
        rw [this] at hx
        exact hx
      obtain ⟨w, hw'⟩ := hwt
      have := hunique hw' hab
      subst this
      exact ⟨i, p, (a, b), hi, hw', by simpa using hl⟩

end marks

/-! A truck of one source overlaps a car and a bus of another one. -/

/-- the boxes that overlap -/
def touching : Id → List Id := fun x =>
  if x = (0, 0) then [(0, 0), (1, 0)] else if x = (0, 1) then [(0, 1), (1, 0)]
  else if x = (1, 0) then [(1, 0), (0, 0), (0, 1)] else []

/-- agents of different sources collide here -/
def clash : Id → Id → Bool := fun x o => decide (x ∈ touching o ∧ o ∈ touching x ∧ x ≠ o)

theorem touching_valid : ∀ x, Valid [["car", "bus"], ["truck"]] x ↔ x = (0, 0) ∨ x = (0, 1) ∨ x = (1, 0) := by
  rintro ⟨i, j⟩
  constructor
  · rintro ⟨l, h1, h2⟩
    match i, h1 with
    | 0, h1 =>
      simp at h1
      subst h1
      have : j = 0 ∨ j = 1 := by simp at h2; omega
      rcases this with rfl | rfl <;> simp
    | 1, h1 =>
      simp at h1
      subst h1
      have : j = 0 := by simpa using h2
      subst this
      simp
    | i + 2, h1 => simp at h1
  · rintro (h | h | h) <;> rw [h] <;> exact ⟨_, rfl, by decide⟩

theorem touching_geometry : Geometry [["car", "bus"], ["truck"]] touching clash where
  valid := by
    intro x o h
    rw [touching_valid]
    unfold touching at h
    split_ifs at h <;> simp at h <;> aesop
  complete := fun x o _ _ h => (of_decide_eq_true h).2.1
  symm := by
    intro x o
    unfold clash
    congr 1
    apply propext
    constructor <;> rintro ⟨a, b, c⟩ <;> exact ⟨b, a, Ne.symm c⟩

/-- the first draw removes the car, the second one the truck; the bus stays -/
example : (∀ n : Nat, (0 : ℚ) ≤ if n = 0 then 1 / 4 else 3 / 4) ∧ (∀ x, (touching x).Nodup) ∧
    resolveOverlaps touching clash [(("highway", "ramp"), (.float (1 / 2 : ℚ), .float (1 / 2)))]
      (fun i => if i = 0 then "highway" else "ramp") (fun n => if n = 0 then 1 / 4 else 3 / 4)
      [["car", "bus"], ["truck"]] = .ok [["bus"], []] := by
  refine ⟨?_, ?_, ?_⟩
  · intro n
    split <;> norm_num
  · intro x
    unfold touching
    split_ifs <;> decide
  · decide +kernel

end Bark.Gen
