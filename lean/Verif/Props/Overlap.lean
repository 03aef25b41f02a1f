import Verif.Spec.Overlap
import Verif.Props.ScenGen

/-!
C133 – overlapping agents of different sources.
-/
namespace Bark.Gen
open Spec

section DictLemmas
variable {κ α : Type} [DecidableEq κ]

theorem Dict.mem_put {k : κ} {v : α} : ∀ {d : Dict κ α} {x}, x ∈ Dict.put k v d → x = (k, v) ∨ x ∈ d
  | [], x, h => by simpa [Dict.put] using h
  | (k', v') :: d, x, h => by
    unfold Dict.put at h
    by_cases g : k' = k
    · rw [if_pos g] at h
      rcases List.mem_cons.1 h with h | h
      · exact Or.inl h
      · exact Or.inr (by simp [h])
    · rw [if_neg g] at h
      rcases List.mem_cons.1 h with h | h
      · exact Or.inr (by simp [h])
      · rcases Dict.mem_put h with h | h
        · exact Or.inl h
        · exact Or.inr (by simp [h])

theorem Dict.put_mem (k : κ) (v : α) : ∀ (d : Dict κ α), (k, v) ∈ Dict.put k v d
  | [] => by simp [Dict.put]
  | (k', v') :: d => by
    unfold Dict.put
    by_cases g : k' = k
    · rw [if_pos g]; simp
    · rw [if_neg g]
      exact List.mem_cons_of_mem _ (Dict.put_mem k v d)

/-- entries other than the replaced one stay -/
theorem Dict.put_keeps {k : κ} {v dflt : α} : ∀ {d : Dict κ α} {x}, x ∈ d →
    x ∈ Dict.put k v d ∨ x = (k, Dict.getD k dflt d)
  | (k', v') :: d, x, h => by
    unfold Dict.put Dict.getD
    by_cases g : k' = k
    · rw [if_pos g, if_pos g]
      rcases List.mem_cons.1 h with h | h
      · right
        rw [h, g]
      · left
        simp [h]
    · rw [if_neg g, if_neg g]
      rcases List.mem_cons.1 h with h | h
      · left
        simp [h]
      · rcases Dict.put_keeps (k := k) (v := v) (dflt := dflt) h with h | h
        · left
          simp [h]
        · right
          exact h

theorem Dict.getD_mem {k : κ} {dflt : α} : ∀ {d : Dict κ α}, Dict.getD k dflt d = dflt ∨
    (k, Dict.getD k dflt d) ∈ d
  | [] => Or.inl rfl
  | (k', v') :: d => by
    unfold Dict.getD
    by_cases g : k' = k
    · rw [if_pos g]
      right
      simp [g]
    · rw [if_neg g]
      rcases Dict.getD_mem (k := k) (dflt := dflt) (d := d) with h | h
      · exact Or.inl h
      · exact Or.inr (by simp [h])

theorem Dict.put_keys_nodup {k : κ} {v : α} : ∀ {d : Dict κ α}, (d.map Prod.fst).Nodup →
    ((Dict.put k v d).map Prod.fst).Nodup
  | [], _ => by simp [Dict.put]
  | (k', v') :: d, h => by
    unfold Dict.put
    rw [List.map_cons, List.nodup_cons] at h
    by_cases g : k' = k
    · rw [if_pos g, List.map_cons, List.nodup_cons]
      exact ⟨g ▸ h.1, h.2⟩
    · rw [if_neg g, List.map_cons, List.nodup_cons]
      refine ⟨?_, Dict.put_keys_nodup h.2⟩
      intro hm
      obtain ⟨x, hx, he⟩ := List.mem_map.1 hm
      rcases Dict.mem_put hx with h' | h'
      · rw [h'] at he
        exact g he.symm
      · exact h.1 (List.mem_map.2 ⟨x, h', he⟩)

theorem Dict.getD_put {k : κ} {v dflt : α} (k2 : κ) : ∀ {d : Dict κ α},
    Dict.getD k2 dflt (Dict.put k v d) = if k2 = k then v else Dict.getD k2 dflt d
  | [] => by
    unfold Dict.put Dict.getD
    by_cases g : k = k2
    · simp [g]
    · simp [g, Ne.symm g, Dict.getD]
  | (k', v') :: d => by
    unfold Dict.put
    by_cases g : k' = k
    · rw [if_pos g]
      subst g
      unfold Dict.getD
      by_cases g2 : k' = k2
      · simp [g2]
      · simp [g2, Ne.symm g2]
    · rw [if_neg g]
      have e1 : Dict.getD k2 dflt ((k', v') :: Dict.put k v d) =
        if k' = k2 then v' else Dict.getD k2 dflt (Dict.put k v d) := rfl
      have e2 : Dict.getD k2 dflt ((k', v') :: d) = if k' = k2 then v' else Dict.getD k2 dflt d := rfl
      rw [e1, e2, Dict.getD_put k2]
      by_cases g2 : k' = k2
      · rw [if_pos g2, if_pos g2, if_neg (fun e => g (g2.trans e))]
      · rw [if_neg g2, if_neg g2]

theorem Dict.getD_of_mem {k : κ} {v dflt : α} : ∀ {d : Dict κ α}, (d.map Prod.fst).Nodup → (k, v) ∈ d →
    Dict.getD k dflt d = v
  | (k', v') :: d, hn, h => by
    rw [List.map_cons, List.nodup_cons] at hn
    unfold Dict.getD
    rcases List.mem_cons.1 h with h | h
    · simp only [Prod.mk.injEq] at h
      rw [if_pos h.1.symm, h.2]
    · rw [if_neg, Dict.getD_of_mem hn.2 h]
      rintro rfl
      exact hn.1 (List.mem_map.2 ⟨_, h, rfl⟩)

end DictLemmas

/-- the pair is recorded -/
def Rec (c : Collisions) (p : Id × Id) : Prop := ∃ key l, (key, l) ∈ c ∧ p ∈ l

theorem rec_put {c : Collisions} {key : Id} {l : List (Id × Id)} {p : Id × Id} :
    Rec (Dict.put key (Dict.getD key [] c ++ l) c) p ↔ Rec c p ∨ p ∈ l := by
  constructor
  · rintro ⟨k, l', hm, hp⟩
    rcases Dict.mem_put hm with h | h
    · simp only [Prod.mk.injEq] at h
      rw [h.2] at hp
      rcases List.mem_append.1 hp with hp | hp
      · left
        rcases Dict.getD_mem (k := key) (dflt := ([] : List (Id × Id))) (d := c) with h' | h'
        · rw [h'] at hp
          simp at hp
        · exact ⟨_, _, h', hp⟩
      · exact Or.inr hp
    · exact Or.inl ⟨k, l', h, hp⟩
  · rintro (⟨k, l', hm, hp⟩ | hp)
    · rcases Dict.put_keeps (k := key) (v := Dict.getD key [] c ++ l) (dflt := []) hm with h | h
      · exact ⟨_, _, h, hp⟩
      · simp only [Prod.mk.injEq] at h
        rw [h.2] at hp
        exact ⟨_, _, Dict.put_mem _ _ _, List.mem_append.2 (Or.inl hp)⟩
    · exact ⟨_, _, Dict.put_mem _ _ _, List.mem_append.2 (Or.inr hp)⟩

/-- one step: what is recorded afterwards -/
theorem findStep_rec {col : Id → Id → Bool} {x o : Id} {c c' : Collisions} (h : findStep col x c o = .ok c') :
    (∀ p, Rec c p → Rec c' p) ∧ (∀ p, Rec c' p → Rec c p ∨ (p = (x, o) ∧ col x o = true ∧ x.1 ≠ o.1)) ∧
    (x.1 ≠ o.1 → col x o = true → Rec c' (x, o) ∨ ∃ z, Rec c (o, z)) ∧ (x.1 = o.1 → x = o) := by
  unfold findStep at h
  by_cases g : x.1 = o.1
  · rw [if_pos g] at h
    by_cases g2 : x.2 = o.2
    · rw [if_pos g2] at h
      cases h
      exact ⟨fun p hp => hp, fun p hp => Or.inl hp, fun hne => absurd g hne, fun _ => Prod.ext g g2⟩
    · rw [if_neg g2] at h
      cases h
  · rw [if_neg g] at h
    simp only at h
    generalize pairKey c x.1 o.1 = key at h
    by_cases hf : (!(Dict.getD key [] c).any fun p => p.1 = o) && col x o
    · rw [if_pos hf] at h
      cases h
      have hcol : col x o = true := (Bool.and_eq_true_iff.1 hf).2
      refine ⟨fun p hp => rec_put.2 (Or.inl hp), fun p hp => ?_, fun _ _ => Or.inl (rec_put.2 (Or.inr (by simp))),
        fun e => absurd e g⟩
      rcases rec_put.1 hp with hp | hp
      · exact Or.inl hp
      · simp only [List.mem_singleton] at hp
        exact Or.inr ⟨hp, hcol, g⟩
    · rw [if_neg hf] at h
      cases h
      have hput : ∀ p, Rec (Dict.put key (Dict.getD key [] c) c) p ↔ Rec c p := by
        intro p
        have := rec_put (c := c) (key := key) (l := []) (p := p)
        simpa using this
      refine ⟨fun p hp => (hput p).2 hp, fun p hp => Or.inl ((hput p).1 hp), fun _ hcol => ?_, fun e => absurd e g⟩
      right
      rw [hcol, Bool.and_true, Bool.not_eq_true'] at hf
      simp only [Bool.not_eq_false, List.any_eq_true, decide_eq_true_eq] at hf
      obtain ⟨p, hp, he⟩ := hf
      rcases Dict.getD_mem (k := key) (dflt := ([] : List (Id × Id))) (d := c) with h' | h'
      · rw [h'] at hp
        simp at hp
      · exact ⟨p.2, _, _, h', by rw [← he]; exact hp⟩

theorem findAgent_rec {col : Id → Id → Bool} {x : Id} : ∀ {os : List Id} {c c' : Collisions},
    findAgent col x c os = .ok c' →
    (∀ p, Rec c p → Rec c' p) ∧
    (∀ p, Rec c' p → Rec c p ∨ (p.1 = x ∧ p.2 ∈ os ∧ col x p.2 = true ∧ x.1 ≠ p.2.1)) ∧
    (∀ o ∈ os, x.1 ≠ o.1 → col x o = true → Rec c' (x, o) ∨ ∃ z, Rec c' (o, z)) ∧
    (∀ o ∈ os, x.1 = o.1 → x = o)
  | [], c, c', h => by
    simp only [findAgent, Except.ok.injEq] at h
    subst h
    exact ⟨fun p hp => hp, fun p hp => Or.inl hp, by simp, by simp⟩
  | o :: os, c, c', h => by
    unfold findAgent at h
    cases hs : findStep col x c o with
    | error f => rw [hs] at h; cases h
    | ok c1 =>
      rw [hs] at h
      simp only at h
      obtain ⟨a1, a2, a3, a4⟩ := findStep_rec hs
      obtain ⟨b1, b2, b3, b4⟩ := findAgent_rec h
      refine ⟨fun p hp => b1 p (a1 p hp), fun p hp => ?_, ?_, ?_⟩
      · rcases b2 p hp with hp | ⟨e1, e2, e3, e4⟩
        · rcases a2 p hp with hp | ⟨rfl, e2, e3⟩
          · exact Or.inl hp
          · exact Or.inr ⟨rfl, by simp, e2, e3⟩
        · exact Or.inr ⟨e1, by simp [e2], e3, e4⟩
      · intro o' ho' hne hcol
        rcases List.mem_cons.1 ho' with rfl | ho'
        · rcases a3 hne hcol with hr | ⟨z, hr⟩
          · exact Or.inl (b1 _ hr)
          · exact Or.inr ⟨z, b1 _ (a1 _ hr)⟩
        · exact b3 o' ho' hne hcol
      · intro o' ho' he
        rcases List.mem_cons.1 ho' with rfl | ho'
        · exact a4 he
        · exact b4 o' ho' he

/-- what is known after the agents `done` -/
structure FindInv (near : Id → List Id) (col : Id → Id → Bool) (done : List Id) (c : Collisions) : Prop where
  sound : ∀ x o, Rec c (x, o) → x ∈ done ∧ o ∈ near x ∧ col x o = true ∧ x.1 ≠ o.1
  complete : ∀ x ∈ done, ∀ o ∈ near x, x.1 ≠ o.1 → col x o = true → Rec c (x, o) ∨ Rec c (o, x)

theorem findAll_inv {A : Type} {ls : List (List A)} {near : Id → List Id} {col : Id → Id → Bool}
    (hg : Geometry ls near col) : ∀ {xs done : List Id} {c c' : Collisions}, (∀ x ∈ done ++ xs, Valid ls x) →
    FindInv near col done c → findAll near col c xs = .ok c' → FindInv near col (done ++ xs) c'
  | [], done, c, c', _, hi, h => by
    simp only [findAll, Except.ok.injEq] at h
    subst h
    simpa using hi
  | x :: xs, done, c, c', hv, hi, h => by
    unfold findAll at h
    cases hs : findAgent col x c (near x) with
    | error f => rw [hs] at h; cases h
    | ok c1 =>
      rw [hs] at h
      simp only at h
      obtain ⟨b1, b2, b3, b4⟩ := findAgent_rec hs
      have hi' : FindInv near col (done ++ [x]) c1 := by
        constructor
        · intro y o hr
          rcases b2 _ hr with hr | ⟨e1, e2, e3, e4⟩
          · obtain ⟨h1, h2⟩ := hi.sound y o hr
            exact ⟨by simp [h1], h2⟩
          · simp only at e1 e2 e3 e4
            subst e1
            exact ⟨by simp, e2, e3, e4⟩
        · intro y hy o ho hne hcol
          rcases List.mem_append.1 hy with hy | hy
          · rcases hi.complete y hy o ho hne hcol with hr | hr
            · exact Or.inl (b1 _ hr)
            · exact Or.inr (b1 _ hr)
          · simp only [List.mem_singleton] at hy
            subst hy
            rcases b3 o ho hne hcol with hr | ⟨z, hr⟩
            · exact Or.inl hr
            · rcases b2 _ hr with hr | ⟨e1, -, -, -⟩
              · have hdone := (hi.sound o z hr).1
                have hyn : y ∈ near o := hg.complete o y (hv o (by simp [hdone])) (hv y (by simp))
                  (by rw [hg.symm]; exact hcol)
                rcases hi.complete o hdone y hyn (Ne.symm hne) (by rw [hg.symm]; exact hcol) with hr | hr
                · exact Or.inr (b1 _ hr)
                · exact Or.inl (b1 _ hr)
              · simp only at e1
                exact absurd (by rw [e1]) hne
      have := findAll_inv hg (done := done ++ [x]) (xs := xs) (by simpa using hv) hi' h
      simpa using this

theorem idsFrom_mem {A : Type} : ∀ {ls : List (List A)} {i : Nat} {x : Id},
    x ∈ idsFrom i ls ↔ ∃ j l, x.1 = i + j ∧ ls[j]? = some l ∧ x.2 < l.length
  | [], i, x => by simp [idsFrom]
  | l :: ls, i, x => by
    unfold idsFrom
    rw [List.mem_append, idsFrom_mem]
    constructor
    · rintro (h | ⟨j, l', h1, h2, h3⟩)
      · obtain ⟨a, ha, rfl⟩ := List.mem_map.1 h
        exact ⟨0, l, rfl, rfl, by simpa using ha⟩
      · exact ⟨j + 1, l', by omega, by simpa using h2, h3⟩
    · rintro ⟨j, l', h1, h2, h3⟩
      cases j with
      | zero =>
        left
        simp only [List.getElem?_cons_zero, Option.some.injEq] at h2
        subst h2
        exact List.mem_map.2 ⟨x.2, by simpa using h3, Prod.ext (by simp only; omega) rfl⟩
      | succ j =>
        right
        exact ⟨j, l', by omega, by simpa using h2, h3⟩

theorem ids_valid {A : Type} {ls : List (List A)} {x : Id} : x ∈ idsFrom 0 ls ↔ Valid ls x := by
  rw [idsFrom_mem]
  constructor
  · rintro ⟨j, l, h1, h2, h3⟩
    exact ⟨l, by rw [h1, Nat.zero_add]; exact h2, h3⟩
  · rintro ⟨l, h1, h2⟩
    exact ⟨x.1, l, by simp, h1, h2⟩

/-! ### Marking -/

/-- the agent is marked for deletion -/
def Marked (m : Dict Nat (List Nat)) (x : Id) : Prop := x.2 ∈ Dict.getD x.1 [] m

instance (m : Dict Nat (List Nat)) (x : Id) : Decidable (Marked m x) :=
  inferInstanceAs (Decidable (x.2 ∈ Dict.getD x.1 [] m))

/-- no key twice, no index twice -/
def MarksOk (m : Dict Nat (List Nat)) : Prop := (m.map Prod.fst).Nodup ∧ ∀ s l, (s, l) ∈ m → l.Nodup ∧ l ≠ []

theorem mark_marked {m : Dict Nat (List Nat)} {x y : Id} : Marked (mark m x) y ↔ Marked m y ∨ y = x := by
  unfold mark Marked
  by_cases g : x.2 ∈ Dict.getD x.1 [] m
  · rw [if_pos g]
    constructor
    · exact Or.inl
    · rintro (h | rfl)
      · exact h
      · exact g
  · rw [if_neg g, Dict.getD_put]
    by_cases g2 : y.1 = x.1
    · rw [if_pos g2, List.mem_append, List.mem_singleton, g2]
      constructor
      · rintro (h | h)
        · exact Or.inl h
        · exact Or.inr (Prod.ext g2 h)
      · rintro (h | h)
        · exact Or.inl h
        · exact Or.inr (by rw [h])
    · rw [if_neg g2]
      constructor
      · exact Or.inl
      · rintro (h | rfl)
        · exact h
        · exact absurd rfl g2

theorem mark_ok {m : Dict Nat (List Nat)} {x : Id} (h : MarksOk m) : MarksOk (mark m x) := by
  unfold mark
  by_cases g : x.2 ∈ Dict.getD x.1 [] m
  · rw [if_pos g]
    exact h
  · rw [if_neg g]
    refine ⟨Dict.put_keys_nodup h.1, ?_⟩
    intro s l hm
    rcases Dict.mem_put hm with h' | h'
    · simp only [Prod.mk.injEq] at h'
      rw [h'.2, List.nodup_append]
      refine ⟨⟨?_, by simp, ?_⟩, by simp⟩
      · rcases Dict.getD_mem (k := x.1) (dflt := ([] : List Nat)) (d := m) with e | e
        · rw [e]; simp
        · exact (h.2 _ _ e).1
      · intro a ha b hb
        simp only [List.mem_singleton] at hb
        subst hb
        rintro rfl
        exact g ha
    · exact h.2 _ _ h'

section Weights
variable {K D : Type} [LinearOrder K] [Add K] [OfNat K 0] [DecidableEq D]

theorem resolveOne_spec {w : K × K} {u : K} {m : Dict Nat (List Nat)} {p : Id × Id} (hm : MarksOk m) :
    MarksOk (resolveOne w u m p) ∧ (∀ x, Marked m x → Marked (resolveOne w u m p) x) ∧
    (Marked (resolveOne w u m p) p.1 ∨ Marked (resolveOne w u m p) p.2) ∧
    (∀ x, Marked (resolveOne w u m p) x → Marked m x ∨ x = p.1 ∨ x = p.2) := by
  unfold resolveOne
  by_cases g : 0 ≤ u ∧ u ≤ w.1
  · rw [if_pos g]
    refine ⟨mark_ok hm, fun x hx => mark_marked.2 (Or.inl hx), Or.inl (mark_marked.2 (Or.inr rfl)), fun x hx => ?_⟩
    rcases mark_marked.1 hx with h | h
    · exact Or.inl h
    · exact Or.inr (Or.inl h)
  · rw [if_neg g]
    by_cases g2 : w.1 < u ∧ u ≤ w.1 + w.2
    · rw [if_pos g2]
      refine ⟨mark_ok hm, fun x hx => mark_marked.2 (Or.inl hx), Or.inr (mark_marked.2 (Or.inr rfl)), fun x hx => ?_⟩
      rcases mark_marked.1 hx with h | h
      · exact Or.inl h
      · exact Or.inr (Or.inr h)
    · rw [if_neg g2]
      refine ⟨mark_ok (mark_ok hm), fun x hx => mark_marked.2 (Or.inl (mark_marked.2 (Or.inl hx))),
        Or.inr (mark_marked.2 (Or.inr rfl)), fun x hx => ?_⟩
      rcases mark_marked.1 hx with h | h
      · rcases mark_marked.1 h with h | h
        · exact Or.inl h
        · exact Or.inr (Or.inl h)
      · exact Or.inr (Or.inr h)

theorem resolvePairs_spec {w : K × K} {u : Nat → K} : ∀ {ps : List (Id × Id)} {m : Dict Nat (List Nat)} {k : Nat},
    MarksOk m → MarksOk (resolvePairs w u m k ps).1 ∧ (∀ x, Marked m x → Marked (resolvePairs w u m k ps).1 x) ∧
    (∀ p ∈ ps, Marked (resolvePairs w u m k ps).1 p.1 ∨ Marked (resolvePairs w u m k ps).1 p.2) ∧
    (∀ x, Marked (resolvePairs w u m k ps).1 x → Marked m x ∨ ∃ p ∈ ps, x = p.1 ∨ x = p.2)
  | [], m, k, hm => ⟨hm, fun _ h => h, by simp, fun _ h => Or.inl h⟩
  | p :: ps, m, k, hm => by
    obtain ⟨a1, a2, a3, a4⟩ := resolveOne_spec (w := w) (u := u k) (p := p) hm
    obtain ⟨b1, b2, b3, b4⟩ := resolvePairs_spec (w := w) (u := u) (ps := ps) (k := k + 1) a1
    refine ⟨b1, fun x hx => b2 x (a2 x hx), ?_, ?_⟩
    · intro q hq
      rcases List.mem_cons.1 hq with rfl | hq
      · rcases a3 with h | h
        · exact Or.inl (b2 _ h)
        · exact Or.inr (b2 _ h)
      · exact b3 q hq
    · intro x hx
      rcases b4 x hx with h | ⟨q, hq, h⟩
      · rcases a4 x h with h | h
        · exact Or.inl h
        · exact Or.inr ⟨p, by simp, h⟩
      · exact Or.inr ⟨q, by simp [hq], h⟩

theorem resolveAll_spec {table : Dict (D × D) (Weight K × Weight K)} {desc : Nat → D} {u : Nat → K} :
    ∀ {c : Collisions} {m : Dict Nat (List Nat)} {k : Nat} {m' : Dict Nat (List Nat)},
    MarksOk m → resolveAll table desc u m k c = .ok m' → MarksOk m' ∧ (∀ x, Marked m x → Marked m' x) ∧
    (∀ p, Rec c p → Marked m' p.1 ∨ Marked m' p.2) ∧
    (∀ x, Marked m' x → Marked m x ∨ ∃ p, Rec c p ∧ (x = p.1 ∨ x = p.2))
  | [], m, k, m', hm, h => by
    simp only [resolveAll, Except.ok.injEq] at h
    subst h
    refine ⟨hm, fun _ h => h, ?_, fun _ h => Or.inl h⟩
    rintro p ⟨key, l, hk, -⟩
    simp at hk
  | (key, ps) :: cs, m, k, m', hm, h => by
    unfold resolveAll at h
    cases hw : weights table (desc key.1) (desc key.2) with
    | error f => rw [hw] at h; cases h
    | ok w =>
      rw [hw] at h
      simp only at h
      obtain ⟨a1, a2, a3, a4⟩ := resolvePairs_spec (w := w) (u := u) (ps := ps) (k := k) hm
      obtain ⟨b1, b2, b3, b4⟩ := resolveAll_spec a1 h
      refine ⟨b1, fun x hx => b2 x (a2 x hx), ?_, ?_⟩
      · rintro p ⟨key', l, hk, hp⟩
        rcases List.mem_cons.1 hk with e | hk
        · simp only [Prod.mk.injEq] at e
          rw [e.2] at hp
          rcases a3 p hp with h | h
          · exact Or.inl (b2 _ h)
          · exact Or.inr (b2 _ h)
        · exact b3 p ⟨key', l, hk, hp⟩
      · intro x hx
        rcases b4 x hx with h | ⟨p, ⟨key', l, hk, hp⟩, h⟩
        · rcases a4 x h with h | ⟨p, hp, h⟩
          · exact Or.inl h
          · exact Or.inr ⟨p, ⟨key, ps, by simp, hp⟩, h⟩
        · exact Or.inr ⟨p, ⟨key', l, by simp [hk], hp⟩, h⟩

end Weights

/-! ### Deleting -/

theorem insertDesc_mem {a b : Nat} : ∀ {l : List Nat}, b ∈ insertDesc a l ↔ b = a ∨ b ∈ l
  | [] => by simp [insertDesc]
  | c :: l => by
    unfold insertDesc
    by_cases g : c ≤ a
    · rw [if_pos g]; simp
    · rw [if_neg g, List.mem_cons, insertDesc_mem, List.mem_cons]
      tauto

theorem sortDesc_mem {b : Nat} : ∀ {l : List Nat}, b ∈ sortDesc l ↔ b ∈ l
  | [] => by simp [sortDesc]
  | a :: l => by
    unfold sortDesc
    rw [insertDesc_mem, sortDesc_mem, List.mem_cons]

theorem insertDesc_sorted {a : Nat} : ∀ {l : List Nat}, l.Pairwise (fun x y => y < x) → a ∉ l →
    (insertDesc a l).Pairwise (fun x y => y < x)
  | [], _, _ => by simp [insertDesc]
  | c :: l, hp, hn => by
    unfold insertDesc
    rw [List.pairwise_cons] at hp
    by_cases g : c ≤ a
    · have hca : c < a := lt_of_le_of_ne g (fun e => hn (by simp [e]))
      rw [if_pos g, List.pairwise_cons, List.pairwise_cons]
      refine ⟨?_, hp⟩
      intro b hb
      rcases List.mem_cons.1 hb with rfl | hb
      · exact hca
      · exact lt_trans (hp.1 b hb) hca
    · rw [if_neg g, List.pairwise_cons]
      refine ⟨?_, insertDesc_sorted hp.2 (fun h => hn (by simp [h]))⟩
      intro b hb
      rcases insertDesc_mem.1 hb with rfl | hb
      · omega
      · exact hp.1 b hb

theorem sortDesc_sorted : ∀ {l : List Nat}, l.Nodup → (sortDesc l).Pairwise (fun x y => y < x)
  | [], _ => by simp [sortDesc]
  | a :: l, h => by
    rw [List.nodup_cons] at h
    unfold sortDesc
    exact insertDesc_sorted (sortDesc_sorted h.2) (fun hm => h.1 (sortDesc_mem.1 hm))

section
variable {A : Type}

/-- the entries whose index is not in the list -/
def without (l : List A) (ds : List Nat) : List A := (l.zipIdx.filter fun p => decide (p.2 ∉ ds)).map Prod.fst

theorem without_eraseIdx {l : List A} {i : Nat} {ds : List Nat} (hi : i < l.length) (hd : ∀ d ∈ ds, d < i) :
    without (l.eraseIdx i) ds = without l (i :: ds) := by
  have hs : l = l.take i ++ l[i] :: l.drop (i + 1) := by
    rw [← List.drop_eq_getElem_cons hi, List.take_append_drop]
  have hlen : (l.take i).length = i := by simp; omega
  have key : ∀ (xs ys : List A) (a : A), xs.length = i →
      without (xs ++ ys) ds = without (xs ++ a :: ys) (i :: ds) := by
    intro xs ys a hx
    unfold without
    rw [List.zipIdx_append, List.zipIdx_append, List.filter_append, List.filter_append, List.map_append,
      List.map_append, List.zipIdx_cons, List.filter_cons]
    rw [if_neg (by simp [hx])]
    congr 1
    · congr 1
      apply List.filter_congr
      intro p hp
      have := List.mem_zipIdx_iff_le_and_getElem?_sub.1 hp
      have h2 : p.2 < i := by
        have := (List.getElem?_eq_some_iff.1 this.2).1
        omega
      have h3 : p.2 ≠ i := by omega
      simp [h3]
    · have allt : ∀ (zs : List A) (n : Nat), i ≤ n →
          (zs.zipIdx n).filter (fun p => decide (p.2 ∉ ds)) = zs.zipIdx n := by
        intro zs n hn
        rw [List.filter_eq_self]
        intro p hp
        have := List.mem_zipIdx_iff_le_and_getElem?_sub.1 hp
        have h2 : n ≤ p.2 := this.1
        simp only [decide_eq_true_eq]
        intro hm
        have := hd _ hm
        omega
      have allt2 : ∀ (zs : List A) (n : Nat), i < n →
          (zs.zipIdx n).filter (fun p => decide (p.2 ∉ i :: ds)) = zs.zipIdx n := by
        intro zs n hn
        rw [List.filter_eq_self]
        intro p hp
        have := List.mem_zipIdx_iff_le_and_getElem?_sub.1 hp
        have h2 : n ≤ p.2 := this.1
        simp only [decide_eq_true_eq]
        intro hm
        rcases List.mem_cons.1 hm with h | h
        · omega
        · have := hd _ h
          omega
      rw [allt _ _ (by omega), allt2 _ _ (by omega)]
      simp
  rw [List.eraseIdx_eq_take_drop_succ]
  conv_rhs => rw [hs]
  exact key _ _ _ hlen

theorem delAll_spec : ∀ {ds : List Nat} {l : List A}, ds.Pairwise (fun x y => y < x) → (∀ d ∈ ds, d < l.length) →
    delAll l ds = .ok (without l ds)
  | [], l, _, _ => by
    simp [delAll, without]
  | i :: ds, l, hp, hl => by
    rw [List.pairwise_cons] at hp
    have hi : i < l.length := hl i (by simp)
    have e : delAt l i = .ok (l.eraseIdx i) := if_pos hi
    unfold delAll
    rw [e]
    simp only
    rw [delAll_spec hp.2, without_eraseIdx hi hp.1]
    intro d hd
    have := hp.1 d hd
    rw [List.length_eraseIdx_of_lt hi]
    omega

theorem without_congr {l : List A} {ds es : List Nat} (h : ∀ d, d ∈ ds ↔ d ∈ es) : without l ds = without l es := by
  unfold without
  congr 1
  apply List.filter_congr
  intro p _
  simp [h]

theorem applyDeletions_spec : ∀ {m : Dict Nat (List Nat)} {ls : List (List A)}, MarksOk m →
    (∀ s ds, (s, ds) ∈ m → ∃ l, ls[s]? = some l ∧ ∀ d ∈ ds, d < l.length) →
    ∃ out, applyDeletions ls m = .ok out ∧
      ∀ i : Nat, out[i]? = (ls[i]?).map fun l => without l (Dict.getD i [] m)
  | [], ls, _, _ => ⟨ls, rfl, fun i => by
      have : (fun l : List A => without l (Dict.getD i [] [])) = id := by
        funext l
        simp [without, Dict.getD]
      rw [this]
      simp⟩
  | (s, ds) :: m, ls, hm, hv => by
    obtain ⟨hk, hn⟩ := hm
    rw [List.map_cons, List.nodup_cons] at hk
    obtain ⟨l, hl, hd⟩ := hv s ds (by simp)
    have hdel : delAll l (sortDesc ds) = .ok (without l ds) := by
      rw [delAll_spec (sortDesc_sorted (hn s ds (by simp)).1) (fun d h => hd d (sortDesc_mem.1 h))]
      rw [without_congr (fun d => sortDesc_mem)]
    have hs : s < ls.length := (List.getElem?_eq_some_iff.1 hl).1
    have hsm : ∀ s' ds', (s', ds') ∈ m → s' ≠ s := by
      rintro s' ds' h rfl
      exact hk.1 (List.mem_map.2 ⟨_, h, rfl⟩)
    obtain ⟨out, ho, hspec⟩ := applyDeletions_spec (m := m) (ls := ls.set s (without l ds))
      ⟨hk.2, fun s' l' h => hn s' l' (by simp [h])⟩ (by
        intro s' ds' h
        obtain ⟨l', h1, h2⟩ := hv s' ds' (by simp [h])
        refine ⟨l', ?_, h2⟩
        rw [List.getElem?_set_ne (Ne.symm (hsm s' ds' h))]
        exact h1)
    refine ⟨out, ?_, ?_⟩
    · unfold applyDeletions
      rw [hl]
      simp only
      rw [hdel]
      exact ho
    · intro i
      rw [hspec i]
      have e : Dict.getD i [] ((s, ds) :: m) = if s = i then ds else Dict.getD i [] m := rfl
      rw [e]
      by_cases g : s = i
      · subst g
        rw [if_pos rfl, List.getElem?_set_self hs, hl]
        have : Dict.getD s [] m = [] := by
          rcases Dict.getD_mem (k := s) (dflt := ([] : List Nat)) (d := m) with h | h
          · exact h
          · exact absurd rfl (hsm _ _ h)
        rw [this]
        simp [without]
      · rw [if_neg g, List.getElem?_set_ne g]

end

/-! ### The theorems -/

section Main
variable {A K D : Type} [LinearOrder K] [Add K] [OfNat K 0] [DecidableEq D]

/-- what resolving does, with the found collisions and the marks -/
theorem resolve_core {near : Id → List Id} {col : Id → Id → Bool} {table : Dict (D × D) (Weight K × Weight K)}
    {desc : Nat → D} {u : Nat → K} {ls out : List (List A)} (hg : Geometry ls near col)
    (h : resolveOverlaps near col table desc u ls = .ok out) :
    ∃ keep : Id → Bool, (∀ i : Nat, out[i]? = (ls[i]?).map (survivors keep i)) ∧
      (∀ x o, Valid ls x → Valid ls o → x.1 ≠ o.1 → col x o = true → keep x = false ∨ keep o = false) ∧
      (∀ x, Valid ls x → (∀ o, Valid ls o → x.1 ≠ o.1 → col x o = false) → keep x = true) ∧
      ∃ c m, findAll near col [] (idsFrom 0 ls) = .ok c ∧ resolveAll table desc u [] 0 c = .ok m ∧
        ∀ x, keep x = false ↔ Marked m x := by
  unfold resolveOverlaps at h
  cases hc : findAll near col [] (idsFrom 0 ls) with
  | error f => rw [hc] at h; cases h
  | ok c =>
    rw [hc] at h
    simp only at h
    have hinv : FindInv near col ([] ++ idsFrom 0 ls) c := by
      refine findAll_inv hg (by
        intro x hx
        exact ids_valid.1 (by simpa using hx)) ⟨?_, by simp⟩ hc
      rintro x o ⟨k, l, hm, -⟩
      simp at hm
    rw [List.nil_append] at hinv
    cases hr : resolveAll table desc u [] 0 c with
    | error f => rw [hr] at h; cases h
    | ok m =>
      rw [hr] at h
      simp only at h
      obtain ⟨m1, -, m3, m4⟩ := resolveAll_spec (m := []) ⟨by simp, by simp⟩ hr
      have hno : ∀ x, ¬ Marked [] x := by
        intro x hx
        simp [Marked, Dict.getD] at hx
      have hmark : ∀ x, Marked m x → Valid ls x ∧ ∃ o, Valid ls o ∧ x.1 ≠ o.1 ∧ col x o = true := by
        intro x hx
        rcases m4 x hx with h' | ⟨⟨p, q⟩, hp, h'⟩
        · exact absurd h' (hno x)
        · obtain ⟨s1, s2, s3, s4⟩ := hinv.sound p q hp
          have v1 := ids_valid.1 s1
          have v2 := hg.valid p q s2
          rcases h' with rfl | rfl
          · exact ⟨v1, q, v2, s4, s3⟩
          · exact ⟨v2, p, v1, Ne.symm s4, by rw [hg.symm]; exact s3⟩
      obtain ⟨out', ho, hspec⟩ := applyDeletions_spec (ls := ls) m1 (by
        intro s ds hm
        have hgd : Dict.getD s [] m = ds := Dict.getD_of_mem m1.1 hm
        cases hds : ds with
        | nil =>
          exact absurd hds (m1.2 s ds hm).2
        | cons d ds' =>
          have hd : Marked m (s, d) := by
            unfold Marked
            simp only
            rw [hgd, hds]
            simp
          obtain ⟨⟨l, hl, -⟩, -⟩ := hmark _ hd
          refine ⟨l, hl, ?_⟩
          intro d' hd'
          have : Marked m (s, d') := by
            unfold Marked
            simp only
            rw [hgd, hds]
            exact hd'
          obtain ⟨⟨l', hl', h2⟩, -⟩ := hmark _ this
          simp only at hl hl' h2
          rw [hl] at hl'
          cases hl'
          exact h2)
      rw [ho] at h
      cases h
      refine ⟨fun x => decide (¬ Marked m x), ?_, ?_, ?_, c, m, rfl, hr, fun x => by simp⟩
      · exact hspec
      · intro x o vx vo hne hcol
        rcases hinv.complete x (ids_valid.2 vx) o (hg.complete x o vx vo hcol) hne hcol with hrec | hrec
        · rcases m3 _ hrec with h' | h'
          · exact Or.inl (by simpa using h')
          · exact Or.inr (by simpa using h')
        · rcases m3 _ hrec with h' | h'
          · exact Or.inr (by simpa using h')
          · exact Or.inl (by simpa using h')
      · intro x vx hall
        simp only [decide_eq_true_eq]
        intro hm
        obtain ⟨-, o, vo, hne, hcol⟩ := hmark x hm
        rw [hall o vo hne] at hcol
        cases hcol

/-- When overlaps are resolved, agents are only removed, the others stay in order; no two of the remaining agents of
different sources collide, and an agent that collides with nobody of another source remains. -/
theorem C133_resolved {near : Id → List Id} {col : Id → Id → Bool} {table : Dict (D × D) (Weight K × Weight K)}
    {desc : Nat → D} {u : Nat → K} {ls out : List (List A)} (hg : Geometry ls near col)
    (h : resolveOverlaps near col table desc u ls = .ok out) :
    ∃ keep : Id → Bool, (∀ i : Nat, out[i]? = (ls[i]?).map (survivors keep i)) ∧
      (∀ x o, Valid ls x → Valid ls o → x.1 ≠ o.1 → col x o = true → keep x = false ∨ keep o = false) ∧
      (∀ x, Valid ls x → (∀ o, Valid ls o → x.1 ≠ o.1 → col x o = false) → keep x = true) :=
  let ⟨keep, a, b, c, _⟩ := resolve_core hg h
  ⟨keep, a, b, c⟩

/-! ### When it raises -/

theorem findStep_thrown {col : Id → Id → Bool} {x o : Id} {c : Collisions} {f} (h : findStep col x c o = .error f) :
    f = .thrown := by
  unfold findStep at h
  by_cases g : x.1 = o.1
  · rw [if_pos g] at h
    by_cases g2 : x.2 = o.2
    · rw [if_pos g2] at h; cases h
    · rw [if_neg g2] at h; cases h; rfl
  · rw [if_neg g] at h
    simp only at h
    split at h <;> cases h

theorem findAgent_thrown {col : Id → Id → Bool} {x : Id} : ∀ {os : List Id} {c : Collisions} {f},
    findAgent col x c os = .error f → f = .thrown
  | [], _, _, h => by cases h
  | o :: os, c, f, h => by
    unfold findAgent at h
    cases hs : findStep col x c o with
    | error g => rw [hs] at h; cases h; exact findStep_thrown hs
    | ok c1 => rw [hs] at h; exact findAgent_thrown h

theorem findAll_thrown {near : Id → List Id} {col : Id → Id → Bool} : ∀ {xs : List Id} {c : Collisions} {f},
    findAll near col c xs = .error f → f = .thrown
  | [], _, _, h => by cases h
  | x :: xs, c, f, h => by
    unfold findAll at h
    cases hs : findAgent col x c (near x) with
    | error g => rw [hs] at h; cases h; exact findAgent_thrown hs
    | ok c1 => rw [hs] at h; exact findAll_thrown h

theorem weights_thrown {table : Dict (D × D) (Weight K × Weight K)} {d1 d2 : D} {f}
    (h : weights table d1 d2 = .error f) : f = .thrown := by
  unfold weights at h
  simp only at h
  split at h
  · cases h
  · cases h; rfl

theorem resolveAll_thrown {table : Dict (D × D) (Weight K × Weight K)} {desc : Nat → D} {u : Nat → K} :
    ∀ {c : Collisions} {m : Dict Nat (List Nat)} {k : Nat} {f}, resolveAll table desc u m k c = .error f → f = .thrown
  | [], _, _, _, h => by cases h
  | (key, ps) :: cs, m, k, f, h => by
    unfold resolveAll at h
    cases hw : weights table (desc key.1) (desc key.2) with
    | error g => rw [hw] at h; cases h; exact weights_thrown hw
    | ok w => rw [hw] at h; exact resolveAll_thrown h

theorem delAll_thrown {B : Type} : ∀ {ds : List Nat} {l : List B} {f}, delAll l ds = .error f → f = .thrown
  | [], _, _, h => by cases h
  | i :: ds, l, f, h => by
    unfold delAll at h
    cases hs : delAt l i with
    | error g =>
      rw [hs] at h
      cases h
      unfold delAt at hs
      split at hs <;> cases hs
      rfl
    | ok l' => rw [hs] at h; exact delAll_thrown h

theorem applyDeletions_thrown {B : Type} : ∀ {m : Dict Nat (List Nat)} {ls : List (List B)} {f},
    applyDeletions ls m = .error f → f = .thrown
  | [], _, _, h => by cases h
  | (s, ds) :: m, ls, f, h => by
    unfold applyDeletions at h
    cases hl : ls[s]? with
    | none => rw [hl] at h; cases h; rfl
    | some l =>
      rw [hl] at h
      simp only at h
      cases hd : delAll l (sortDesc ds) with
      | error g => rw [hd] at h; cases h; exact delAll_thrown hd
      | ok l' => rw [hd] at h; exact applyDeletions_thrown h

/-- it succeeds, or it raises -/
theorem resolve_or_thrown (near : Id → List Id) (col : Id → Id → Bool) (table : Dict (D × D) (Weight K × Weight K))
    (desc : Nat → D) (u : Nat → K) (ls : List (List A)) :
    (∃ out, resolveOverlaps near col table desc u ls = .ok out) ∨
    resolveOverlaps near col table desc u ls = .error .thrown := by
  cases h : resolveOverlaps near col table desc u ls with
  | ok out => exact Or.inl ⟨out, rfl⟩
  | error f =>
    right
    congr 1
    unfold resolveOverlaps at h
    cases hc : findAll near col [] (idsFrom 0 ls) with
    | error g => rw [hc] at h; cases h; exact findAll_thrown hc
    | ok c =>
      rw [hc] at h
      simp only at h
      cases hr : resolveAll table desc u [] 0 c with
      | error g => rw [hr] at h; cases h; exact resolveAll_thrown hr
      | ok m => rw [hr] at h; exact applyDeletions_thrown h

theorem Dict.has_iff {κ α : Type} [DecidableEq κ] {k : κ} : ∀ {d : Dict κ α}, Dict.has k d = true ↔ ∃ v, (k, v) ∈ d
  | [] => by simp [Dict.has]
  | (k', v') :: d => by
    unfold Dict.has
    rw [Bool.or_eq_true, Dict.has_iff, decide_eq_true_eq]
    constructor
    · rintro (rfl | ⟨v, h⟩)
      · exact ⟨v', by simp⟩
      · exact ⟨v, by simp [h]⟩
    · rintro ⟨v, h⟩
      rcases List.mem_cons.1 h with h | h
      · left
        simp only [Prod.mk.injEq] at h
        exact h.1.symm
      · exact Or.inr ⟨v, h⟩

/-- the two sources have an entry -/
def Keyed (c : Collisions) (i j : Nat) : Prop := ∃ l, ((i, j), l) ∈ c ∨ ((j, i), l) ∈ c

theorem put_keyed {c : Collisions} {key : Id} {l : List (Id × Id)} {k : Id} {l' : List (Id × Id)} (h : (k, l') ∈ c) :
    ∃ l'', (k, l'') ∈ Dict.put key l c := by
  rcases Dict.put_keeps (k := key) (v := l) (dflt := []) h with h | h
  · exact ⟨_, h⟩
  · simp only [Prod.mk.injEq] at h
    rw [h.1]
    exact ⟨_, Dict.put_mem _ _ _⟩

theorem pairKey_cases (c : Collisions) (i j : Nat) : pairKey c i j = (i, j) ∨ pairKey c i j = (j, i) := by
  unfold pairKey
  split
  · exact Or.inl rfl
  · split
    · exact Or.inr rfl
    · exact Or.inl rfl

theorem findStep_keyed {col : Id → Id → Bool} {x o : Id} {c c' : Collisions} (h : findStep col x c o = .ok c') :
    (∀ i j, Keyed c i j → Keyed c' i j) ∧ (x.1 ≠ o.1 → Keyed c' x.1 o.1) ∧
    (∀ k l, (k, l) ∈ c' → (∃ l', (k, l') ∈ c) ∨ (x.1 ≠ o.1 ∧ (k = (x.1, o.1) ∨ k = (o.1, x.1)))) := by
  unfold findStep at h
  by_cases g : x.1 = o.1
  · rw [if_pos g] at h
    split at h <;> cases h
    exact ⟨fun _ _ h => h, fun hne => absurd g hne, fun k l h => Or.inl ⟨l, h⟩⟩
  · rw [if_neg g] at h
    simp only at h
    have hp := pairKey_cases c x.1 o.1
    generalize pairKey c x.1 o.1 = key at h hp
    have main : ∀ l, (∀ i j, Keyed c i j → Keyed (Dict.put key l c) i j) ∧ (x.1 ≠ o.1 → Keyed (Dict.put key l c) x.1 o.1) ∧
        (∀ k l1, (k, l1) ∈ Dict.put key l c → (∃ l', (k, l') ∈ c) ∨ (x.1 ≠ o.1 ∧ (k = (x.1, o.1) ∨ k = (o.1, x.1)))) := by
      intro l
      refine ⟨?_, ?_, ?_⟩
      · rintro i j ⟨l', h | h⟩
        · obtain ⟨l'', h''⟩ := put_keyed (key := key) (l := l) h
          exact ⟨l'', Or.inl h''⟩
        · obtain ⟨l'', h''⟩ := put_keyed (key := key) (l := l) h
          exact ⟨l'', Or.inr h''⟩
      · intro _
        refine ⟨l, ?_⟩
        rcases hp with rfl | rfl
        · exact Or.inl (Dict.put_mem _ _ _)
        · exact Or.inr (Dict.put_mem _ _ _)
      · intro k l1 hm
        rcases Dict.mem_put hm with h' | h'
        · simp only [Prod.mk.injEq] at h'
          right
          rw [h'.1]
          exact ⟨g, hp⟩
        · exact Or.inl ⟨l1, h'⟩
    split at h <;> cases h
    · exact main _
    · exact main _

theorem findAgent_keyed {col : Id → Id → Bool} {x : Id} : ∀ {os : List Id} {c c' : Collisions},
    findAgent col x c os = .ok c' →
    (∀ i j, Keyed c i j → Keyed c' i j) ∧ (∀ o ∈ os, x.1 ≠ o.1 → Keyed c' x.1 o.1) ∧
    (∀ k l, (k, l) ∈ c' → (∃ l', (k, l') ∈ c) ∨ ∃ o ∈ os, x.1 ≠ o.1 ∧ (k = (x.1, o.1) ∨ k = (o.1, x.1)))
  | [], c, c', h => by
    simp only [findAgent, Except.ok.injEq] at h
    subst h
    exact ⟨fun _ _ h => h, by simp, fun k l h => Or.inl ⟨l, h⟩⟩
  | o :: os, c, c', h => by
    unfold findAgent at h
    cases hs : findStep col x c o with
    | error f => rw [hs] at h; cases h
    | ok c1 =>
      rw [hs] at h
      obtain ⟨a1, a2, a3⟩ := findStep_keyed hs
      obtain ⟨b1, b2, b3⟩ := findAgent_keyed h
      refine ⟨fun i j hk => b1 i j (a1 i j hk), ?_, ?_⟩
      · intro o' ho' hne
        rcases List.mem_cons.1 ho' with rfl | ho'
        · exact b1 _ _ (a2 hne)
        · exact b2 o' ho' hne
      · intro k l hm
        rcases b3 k l hm with ⟨l', h'⟩ | ⟨o', ho', h'⟩
        · rcases a3 k l' h' with h' | h'
          · exact Or.inl h'
          · exact Or.inr ⟨o, by simp, h'⟩
        · exact Or.inr ⟨o', by simp [ho'], h'⟩

theorem findAll_keyed {near : Id → List Id} {col : Id → Id → Bool} : ∀ {xs : List Id} {c c' : Collisions},
    findAll near col c xs = .ok c' →
    (∀ i j, Keyed c i j → Keyed c' i j) ∧ (∀ x ∈ xs, ∀ o ∈ near x, x.1 ≠ o.1 → Keyed c' x.1 o.1) ∧
    (∀ x ∈ xs, ∀ o ∈ near x, x.1 = o.1 → x = o) ∧
    (∀ k l, (k, l) ∈ c' → (∃ l', (k, l') ∈ c) ∨
      ∃ x ∈ xs, ∃ o ∈ near x, x.1 ≠ o.1 ∧ (k = (x.1, o.1) ∨ k = (o.1, x.1)))
  | [], c, c', h => by
    simp only [findAll, Except.ok.injEq] at h
    subst h
    exact ⟨fun _ _ h => h, by simp, by simp, fun k l h => Or.inl ⟨l, h⟩⟩
  | x :: xs, c, c', h => by
    unfold findAll at h
    cases hs : findAgent col x c (near x) with
    | error f => rw [hs] at h; cases h
    | ok c1 =>
      rw [hs] at h
      obtain ⟨a1, a2, a3⟩ := findAgent_keyed hs
      obtain ⟨b1, b2, b3, b4⟩ := findAll_keyed h
      refine ⟨fun i j hk => b1 i j (a1 i j hk), ?_, ?_, ?_⟩
      · intro y hy o ho hne
        rcases List.mem_cons.1 hy with rfl | hy
        · exact b1 _ _ (a2 o ho hne)
        · exact b2 y hy o ho hne
      · intro y hy o ho he
        rcases List.mem_cons.1 hy with rfl | hy
        · exact (findAgent_rec hs).2.2.2 o ho he
        · exact b3 y hy o ho he
      · intro k l hm
        rcases b4 k l hm with ⟨l', h'⟩ | ⟨y, hy, h'⟩
        · rcases a3 k l' h' with h' | ⟨o, ho, h'⟩
          · exact Or.inl h'
          · exact Or.inr ⟨x, by simp, o, ho, h'⟩
        · exact Or.inr ⟨y, by simp [hy], h'⟩

theorem resolveAll_weights {table : Dict (D × D) (Weight K × Weight K)} {desc : Nat → D} {u : Nat → K} :
    ∀ {c : Collisions} {m : Dict Nat (List Nat)} {k : Nat}, (∃ m', resolveAll table desc u m k c = .ok m') ↔
      ∀ key l, (key, l) ∈ c → ∃ w, weights table (desc key.1) (desc key.2) = .ok w
  | [], m, k => by simp [resolveAll]
  | (key, ps) :: cs, m, k => by
    unfold resolveAll
    cases hw : weights table (desc key.1) (desc key.2) with
    | error f =>
      simp only [reduceCtorEq, exists_false, false_iff]
      intro h
      obtain ⟨w, h'⟩ := h key ps (by simp)
      rw [hw] at h'
      cases h'
    | ok w =>
      simp only
      rw [resolveAll_weights]
      constructor
      · intro h key' l hm
        rcases List.mem_cons.1 hm with e | hm
        · simp only [Prod.mk.injEq] at e
          rw [e.1]
          exact ⟨w, hw⟩
        · exact h key' l hm
      · intro h key' l hm
        exact h key' l (by simp [hm])

theorem weights_ok {table : Dict (D × D) (Weight K × Weight K)} {d1 d2 : D} {w} (h : weights table d1 d2 = .ok w) :
    Weighted table d1 d2 := by
  unfold weights at h
  simp only at h
  by_cases g1 : Dict.has (d1, d2) table = true
  · rw [if_pos g1] at h
    rcases Dict.getD_mem (k := (d1, d2)) (dflt := ((.int 0, .int 0) : Weight K × Weight K)) (d := table) with e | e
    · rw [e] at h; cases h
    · generalize Dict.getD (d1, d2) ((.int 0, .int 0) : Weight K × Weight K) table = v at h e
      obtain ⟨v1, v2⟩ := v
      cases v1 <;> cases v2 <;> first | cases h | skip
      exact ⟨_, _, Or.inl e⟩
  · rw [if_neg g1] at h
    by_cases g2 : Dict.has (d2, d1) table = true
    · rw [if_pos g2] at h
      rcases Dict.getD_mem (k := (d2, d1)) (dflt := ((.int 0, .int 0) : Weight K × Weight K)) (d := table) with e | e
      · rw [e] at h; cases h
      · generalize Dict.getD (d2, d1) ((.int 0, .int 0) : Weight K × Weight K) table = v at h e
        obtain ⟨v1, v2⟩ := v
        cases v1 <;> cases v2 <;> first | cases h | skip
        exact ⟨_, _, Or.inr e⟩
    · rw [if_neg g2] at h; cases h

theorem Dict.getD_mem_of_has {κ α : Type} [DecidableEq κ] {k : κ} {dflt : α} : ∀ {d : Dict κ α}, Dict.has k d = true →
    (k, Dict.getD k dflt d) ∈ d
  | [], h => by cases h
  | (k', v') :: d, h => by
    unfold Dict.has at h
    unfold Dict.getD
    by_cases g : k' = k
    · rw [if_pos g]; simp [g]
    · rw [if_neg g]
      simp only [g, decide_false, Bool.false_or] at h
      exact List.mem_cons_of_mem _ (Dict.getD_mem_of_has h)

theorem weights_of {table : Dict (D × D) (Weight K × Weight K)} {d1 d2 : D} (h : Weighted table d1 d2)
    (hf : OnlyFloats table d1 d2) : ∃ w, weights table d1 d2 = .ok w := by
  unfold weights
  simp only
  by_cases g1 : Dict.has (d1, d2) table = true
  · rw [if_pos g1]
    obtain ⟨a, b, e⟩ := hf _ (Or.inl (Dict.getD_mem_of_has (dflt := ((.int 0, .int 0) : Weight K × Weight K)) g1))
    rw [e]
    exact ⟨_, rfl⟩
  · rw [if_neg g1]
    have g2 : Dict.has (d2, d1) table = true := by
      obtain ⟨a, b, h | h⟩ := h
      · exact absurd (Dict.has_iff.2 ⟨_, h⟩) g1
      · exact Dict.has_iff.2 ⟨_, h⟩
    rw [if_pos g2]
    obtain ⟨a, b, e⟩ := hf _ (Or.inr (Dict.getD_mem_of_has (dflt := ((.int 0, .int 0) : Weight K × Weight K)) g2))
    rw [e]
    exact ⟨_, rfl⟩

/-- Two agents of the *same* source whose bounding boxes overlap raise an exception, whether they collide or not. -/
theorem C133_raises_inside (near : Id → List Id) (col : Id → Id → Bool) (table : Dict (D × D) (Weight K × Weight K))
    (desc : Nat → D) (u : Nat → K) {ls : List (List A)} {x o : Id} (hx : Valid ls x) (ho : o ∈ near x)
    (hs : x.1 = o.1) (hne : x ≠ o) : resolveOverlaps near col table desc u ls = .error .thrown := by
  rcases resolve_or_thrown near col table desc u ls with ⟨out, h⟩ | h
  · exfalso
    unfold resolveOverlaps at h
    cases hc : findAll near col [] (idsFrom 0 ls) with
    | error f => rw [hc] at h; cases h
    | ok c => exact hne ((findAll_keyed hc).2.2.1 x (ids_valid.2 hx) o ho hs)
  · exact h

/-- Two sources some of whose bounding boxes overlap need weights, whether any agents collide or not: otherwise an
exception is raised. -/
theorem C133_raises_weights (near : Id → List Id) (col : Id → Id → Bool) {table : Dict (D × D) (Weight K × Weight K)}
    {desc : Nat → D} (u : Nat → K) {ls : List (List A)} {x o : Id} (hx : Valid ls x) (ho : o ∈ near x)
    (hs : x.1 ≠ o.1) (hw : ¬ Weighted table (desc x.1) (desc o.1)) :
    resolveOverlaps near col table desc u ls = .error .thrown := by
  rcases resolve_or_thrown near col table desc u ls with ⟨out, h⟩ | h
  · exfalso
    unfold resolveOverlaps at h
    cases hc : findAll near col [] (idsFrom 0 ls) with
    | error f => rw [hc] at h; cases h
    | ok c =>
      rw [hc] at h
      simp only at h
      cases hr : resolveAll table desc u [] 0 c with
      | error f => rw [hr] at h; cases h
      | ok m =>
        have hall := resolveAll_weights.1 ⟨m, hr⟩
        obtain ⟨l, hk | hk⟩ := (findAll_keyed hc).2.1 x (ids_valid.2 hx) o ho hs
        · obtain ⟨w, e⟩ := hall _ _ hk
          exact hw (weights_ok e)
        · obtain ⟨w, e⟩ := hall _ _ hk
          obtain ⟨a, b, e | e⟩ := weights_ok e
          · exact hw ⟨a, b, Or.inr e⟩
          · exact hw ⟨a, b, Or.inl e⟩
  · exact h

theorem findAgent_ok (col : Id → Id → Bool) {x : Id} : ∀ {os : List Id} (c : Collisions),
    (∀ o ∈ os, x.1 = o.1 → x = o) → ∃ c', findAgent col x c os = .ok c'
  | [], c, _ => ⟨c, rfl⟩
  | o :: os, c, h => by
    unfold findAgent
    cases hs : findStep col x c o with
    | error f =>
      exfalso
      unfold findStep at hs
      by_cases g : x.1 = o.1
      · have := h o (by simp) g
        rw [if_pos g, if_pos (by rw [this])] at hs
        cases hs
      · rw [if_neg g] at hs
        simp only at hs
        split at hs <;> cases hs
    | ok c1 => exact findAgent_ok col c1 fun o' h' => h o' (by simp [h'])

theorem findAll_ok {near : Id → List Id} (col : Id → Id → Bool) : ∀ {xs : List Id} (c : Collisions),
    (∀ x ∈ xs, ∀ o ∈ near x, x.1 = o.1 → x = o) → ∃ c', findAll near col c xs = .ok c'
  | [], c, _ => ⟨c, rfl⟩
  | x :: xs, c, h => by
    obtain ⟨c1, h1⟩ := findAgent_ok col c (h x (by simp))
    unfold findAll
    rw [h1]
    exact findAll_ok col c1 fun y hy => h y (by simp [hy])

/-- Otherwise it succeeds. -/
theorem C133_succeeds {near : Id → List Id} {col : Id → Id → Bool} {table : Dict (D × D) (Weight K × Weight K)}
    {desc : Nat → D} (u : Nat → K) {ls : List (List A)} (hg : Geometry ls near col)
    (hs : ∀ x o, Valid ls x → o ∈ near x → x.1 = o.1 → x = o)
    (hw : ∀ x o, Valid ls x → o ∈ near x → x.1 ≠ o.1 →
      Weighted table (desc x.1) (desc o.1) ∧ OnlyFloats table (desc x.1) (desc o.1)) :
    ∃ out, resolveOverlaps near col table desc u ls = .ok out := by
  obtain ⟨c, hc⟩ := findAll_ok col (near := near) [] (xs := idsFrom 0 ls) fun x hx o ho => hs x o (ids_valid.1 hx) ho
  have hkeys : ∀ key l, (key, l) ∈ c → ∃ w, weights table (desc key.1) (desc key.2) = .ok w := by
    intro key l hm
    rcases (findAll_keyed hc).2.2.2 key l hm with ⟨l', h'⟩ | ⟨x, hx, o, ho, hne, h'⟩
    · simp at h'
    · obtain ⟨⟨a, b, e⟩, ef⟩ := hw x o (ids_valid.1 hx) ho hne
      rcases h' with rfl | rfl
      · exact weights_of ⟨a, b, e⟩ ef
      · exact weights_of ⟨a, b, e.symm⟩ fun v hv => ef v hv.symm
  obtain ⟨m, hm⟩ := (resolveAll_weights (table := table) (desc := desc) (u := u) (m := []) (k := 0)).2 hkeys
  have hinv : FindInv near col ([] ++ idsFrom 0 ls) c := by
    refine findAll_inv hg (by
      intro x hx
      exact ids_valid.1 (by simpa using hx)) ⟨?_, by simp⟩ hc
    rintro x o ⟨k, l, hm, -⟩
    simp at hm
  rw [List.nil_append] at hinv
  obtain ⟨m1, -, -, m4⟩ := resolveAll_spec (m := []) ⟨by simp, by simp⟩ hm
  obtain ⟨out, ho, -⟩ := applyDeletions_spec (ls := ls) m1 (by
    intro s ds hmem
    have hgd : Dict.getD s [] m = ds := Dict.getD_of_mem m1.1 hmem
    have hv : ∀ d ∈ ds, Valid ls (s, d) := by
      intro d hd
      have hmk : Marked m (s, d) := by
        unfold Marked
        simp only
        rw [hgd]
        exact hd
      rcases m4 _ hmk with h' | ⟨⟨p, q⟩, hp, h'⟩
      · simp [Marked, Dict.getD] at h'
      · obtain ⟨s1, s2, -, -⟩ := hinv.sound p q hp
        rcases h' with h' | h'
        · simp only at h'
          rw [h']
          exact ids_valid.1 s1
        · simp only at h'
          rw [h']
          exact hg.valid p q s2
    obtain ⟨d, hd⟩ := List.exists_mem_of_ne_nil ds (m1.2 s ds hmem).2
    obtain ⟨l, hl, -⟩ := hv d hd
    refine ⟨l, hl, fun d' hd' => ?_⟩
    obtain ⟨l', hl', h2⟩ := hv d' hd'
    simp only at hl hl' h2
    rw [hl] at hl'
    cases hl'
    exact h2)
  refine ⟨out, ?_⟩
  unfold resolveOverlaps
  rw [hc]
  simp only
  rw [hm]
  exact ho

/-! ### Which agent goes -/

/-- everything overlaps -/
def bothNear : Id → List Id := fun _ => [(0, 0), (1, 0)]

/-- Two colliding agents of two sources with weights `a` and `b`: a sample up to `a` removes the first one, up to `a + b`
the second one, and otherwise both; the weights may be given in the other order of the sources. -/
theorem C133_weights (a b : K) (table : Dict (D × D) (Weight K × Weight K)) (desc : Nat → D) (u : Nat → K) (p q : A)
    (hu : 0 ≤ u 0)
    (ht : table = [((desc 0, desc 1), (.float a, .float b))] ∨
      (desc 0 ≠ desc 1 ∧ table = [((desc 1, desc 0), (.float b, .float a))])) :
    (u 0 ≤ a → resolveOverlaps bothNear (fun _ _ => true) table desc u [[p], [q]] = .ok [[], [q]]) ∧
    (a < u 0 → u 0 ≤ a + b → resolveOverlaps bothNear (fun _ _ => true) table desc u [[p], [q]] = .ok [[p], []]) ∧
    (a < u 0 → a + b < u 0 → resolveOverlaps bothNear (fun _ _ => true) table desc u [[p], [q]] = .ok [[], []]) := by
  have hc : findAll bothNear (fun _ _ => true) [] (idsFrom 0 [[p], [q]]) = .ok [((0, 1), [((0, 0), (1, 0))])] := by
    rfl
  have hw : weights table (desc 0) (desc 1) = .ok (a, b) := by
    rcases ht with rfl | ⟨hne, rfl⟩
    · simp [weights, Dict.has, Dict.getD]
    · have h1 : ¬ (desc 1 = desc 0) := fun e => hne e.symm
      simp [weights, Dict.has, Dict.getD, h1]
  have hr : resolveAll table desc u [] 0 [((0, 1), [((0, 0), (1, 0))])] =
      .ok (resolveOne (a, b) (u 0) [] ((0, 0), (1, 0))) := by
    simp only [resolveAll, resolvePairs, hw]
  unfold resolveOverlaps
  rw [hc]
  simp only [hr]
  refine ⟨fun h => ?_, fun h1 h2 => ?_, fun h1 h2 => ?_⟩
  · rw [resolveOne, if_pos ⟨hu, h⟩]
    rfl
  · rw [resolveOne, if_neg (fun h => absurd h.2 (not_le.2 h1)), if_pos ⟨h1, h2⟩]
    rfl
  · rw [resolveOne, if_neg (fun h => absurd h.2 (not_le.2 h1)), if_neg (fun h => absurd h.2 (not_le.2 h2))]
    rfl

end Main

/-! ### It is never called -/

/-- `resolve_overlaps_in_sources_sinks_agents` is never called when a scenario is generated: two equal sources give a
scenario with pairs of different agents in the same place with the same shape. -/
theorem C133_not_applied_violated {S G B E D O C : Type} {x : Source S G B E D O C} (hx : Complete x)
    (hne : x.states ≠ []) : ∃ sc, scenario [x, x] = .ok sc ∧ ∃ a ∈ sc.agents, ∃ b ∈ sc.agents,
      a.id ≠ b.id ∧ a.state = b.state ∧ a.geometry = b.geometry := by
  obtain ⟨sc, h⟩ := C129_succeeds.2 (show ∀ y ∈ [x, x], y.states ≠ [] → Complete y by
    intro y hy _
    simp only [List.mem_cons, List.not_mem_nil, or_false, or_self] at hy
    rw [hy]
    exact hx)
  refine ⟨sc, h, ?_⟩
  obtain ⟨ls, h1, h2, h3, -⟩ := C129_agents h
  have hfil : [x, x].filter (fun x => !x.states.isEmpty) = [x, x] := by simp [hne]
  rw [hfil] at h1
  cases h1 with
  | cons r1 h1 =>
    rename_i l1 ls
    cases h1 with
    | cons r2 h1 =>
      rename_i l2 ls
      cases h1
      obtain ⟨n, hn⟩ : ∃ n, x.states.length = n + 1 := Nat.exists_eq_succ_of_ne_zero (by simpa using hne)
      have e1 : l1.length = n + 1 := by rw [← hn, ← r1.1, List.length_map]
      have e2 : l2.length = n + 1 := by rw [← hn, ← r2.1, List.length_map]
      have hfl : [l1, l2].flatten = l1 ++ l2 := by simp
      rw [hfl] at h2 h3
      rw [List.length_append, e1, e2] at h2
      obtain ⟨a, ha⟩ : ∃ a, sc.agents[0]? = some a := ⟨_, List.getElem?_eq_getElem (by omega)⟩
      obtain ⟨b, hb⟩ : ∃ b, sc.agents[n + 1]? = some b := ⟨_, List.getElem?_eq_getElem (by omega)⟩
      obtain ⟨p, hp, mp⟩ := h3 0 a ha
      obtain ⟨q, hq, mq⟩ := h3 (n + 1) b hb
      rw [List.getElem?_append_left (by omega)] at hp
      rw [List.getElem?_append_right (by omega), e1, Nat.sub_self] at hq
      have s1 : x.states[0]? = some p.state := by rw [← r1.1, List.getElem?_map, hp]; rfl
      have s2 : x.states[0]? = some q.state := by rw [← r2.1, List.getElem?_map, hq]; rfl
      have g1 : x.geometries[0]? = some p.geometry := by rw [← r1.2.1, List.getElem?_map, hp]; rfl
      have g2 : x.geometries[0]? = some q.geometry := by rw [← r2.2.1, List.getElem?_map, hq]; rfl
      refine ⟨a, List.mem_of_getElem? ha, b, List.mem_of_getElem? hb, ?_, ?_, ?_⟩
      · rw [mp.1, mq.1]
        omega
      · rw [mp.2.1, mq.2.1]
        rw [s1] at s2
        exact Option.some.inj s2
      · rw [mp.2.2.1, mq.2.2.1]
        rw [g1] at g2
        exact Option.some.inj g2

/-! ### Instances -/

/-- the geometry of the two agents above -/
example : Geometry [["car"], ["truck"]] (fun x => if x = (0, 0) ∨ x = (1, 0) then bothNear x else []) (fun x o => x ≠ o) where
  valid := by
    intro x o h
    by_cases g : x = (0, 0) ∨ x = (1, 0)
    · simp only [g, if_true, bothNear, List.mem_cons, List.not_mem_nil, or_false] at h
      rcases h with rfl | rfl
      · exact ⟨_, rfl, by simp⟩
      · exact ⟨_, rfl, by simp⟩
    · simp [g] at h
  complete := by
    have hv : ∀ x, Valid [["car"], ["truck"]] x → x = (0, 0) ∨ x = (1, 0) := by
      rintro ⟨i, j⟩ ⟨l, h1, h2⟩
      match i with
      | 0 => simp at h1; subst h1; simp at h2; left; rw [h2]
      | 1 => simp at h1; subst h1; simp at h2; right; rw [h2]
      | i + 2 => simp at h1
    intro x o hx ho _
    simp only [hv x hx, if_true, bothNear, List.mem_cons, List.not_mem_nil, or_false]
    exact hv o ho
  symm := by
    intro x o
    simp [eq_comm]

end Bark.Gen
