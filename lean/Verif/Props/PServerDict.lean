import Verif.Props.PServerSet

/-!
C124 – dictionaries, files, pickles and clones of a parameter server.
-/
namespace Bark.PS
set_option linter.unusedSectionVars false
open Bark.Par (Str findDelim)
open Bark.Par.Spec (NoDelim Path)
open Spec
variable {A : Type}

/-- concatenation of two stores. -/
def cat : Srv A → Srv A → Srv A
  | .nil, t => t
  | .cons k v r, t => .cons k v (cat r t)

theorem cat_nil (s : Srv A) : cat s .nil = s := by
  match s with
  | .nil => rfl
  | .cons k v r => rw [cat, cat_nil r]

theorem cat_cons (s : Srv A) (k : Str) (v : Val A) (r : Srv A) :
    cat (cat s (.cons k v .nil)) r = cat s (.cons k v r) := by
  match s with
  | .nil => rfl
  | .cons k' v' s => simp only [cat, cat_cons s k v r]

theorem keys_cat (s t : Srv A) : keys (cat s t) = keys s ++ keys t := by
  match s with
  | .nil => rfl
  | .cons k v r => simp only [cat, keys, keys_cat r t, List.cons_append]

theorem put_new {k : Str} {v : Val A} {s : Srv A} (h : k ∉ keys s) :
    put k v s = cat s (.cons k v .nil) := by
  match s with
  | .nil => rfl
  | .cons k' v' r =>
    simp only [keys, List.mem_cons, not_or] at h
    rw [put, if_neg h.1, put_new h.2, cat]

theorem find_new {k : Str} {s : Srv A} (h : k ∉ keys s) : find k s = none := by
  cases hf : find k s with
  | none => rfl
  | some v => exact absurd (mem_keys.2 ⟨v, hf⟩) h

theorem toDict_ne {m : A} {s : Srv A} (h : s ≠ .nil) : toDict m s ≠ .nil := by
  match s with
  | .nil => exact absurd rfl h
  | .cons k v r => simp [toDict]

mutual
theorem fromLoop_toDict (ws : Char → Bool) (m : A) (s acc : Srv A) (hd : Distinct s)
    (ht : Tidy (ReadsAsItself ws) s) (hk : ∀ k ∈ keys s, k ∉ keys acc) :
    fromLoop ws (toDict m s) acc = .ok (cat acc s) := by
  match s with
  | .nil => rw [toDict, fromLoop, cat_nil]
  | .cons k v r =>
    simp only [Distinct] at hd
    simp only [Tidy] at ht
    rw [toDict, fromLoop, fromEntry_toDict ws m k v acc hd.2.1 ht.1 (hk k (by simp [keys]))]
    simp only
    rw [fromLoop_toDict ws m r _ hd.2.2 ht.2, put_new (hk k (by simp [keys])), cat_cons]
    intro k' hk'
    rw [put_new (hk k (by simp [keys])), keys_cat]
    simp only [keys, List.mem_append, List.mem_singleton, not_or]
    refine ⟨hk k' (by simp [keys, hk']), ?_⟩
    rintro rfl
    exact hd.1 hk'
theorem fromEntry_toDict (ws : Char → Bool) (m : A) (k : Str) (v : Val A) (acc : Srv A) (hd : DistinctVal v)
    (ht : TidyVal (ReadsAsItself ws) k v) (hk : k ∉ keys acc) :
    fromEntry ws k (toDictVal m v) acc = .ok (put k v acc) := by
  match v with
  | .leaf a =>
    simp only [TidyVal, ReadsAsItself] at ht
    rw [toDictVal, fromEntry]
    have : get ws k a acc = .ok (put k (.leaf a) acc, .leaf a) := by
      unfold get
      rw [names_iff.1 ht, getPath_cons, find_new hk]
    simp only [this]
  | .child s =>
    simp only [TidyVal] at ht
    simp only [DistinctVal] at hd
    have h1 := fromLoop_toDict ws m s .nil hd ht.2 (by simp [keys])
    have h2 : toDictVal m (.child s) = .child (toDict m s) := by
      rw [toDictVal]
      cases h : toDict m s with
      | nil => exact absurd h (toDict_ne ht.1)
      | cons a b c => rfl
    rw [h2, fromEntry, h1]
    rfl
  | .many l =>
    simp only [TidyVal] at ht
    simp only [DistinctVal] at hd
    rw [toDictVal, fromEntry, fromAll_toDict ws m l hd ht]
theorem fromAll_toDict (ws : Char → Bool) (m : A) (l : Srvs A) (hd : DistinctAll l)
    (ht : TidyAll (ReadsAsItself ws) l) : fromAll ws (toDictAll m l) = .ok l := by
  match l with
  | .nil => rw [toDictAll, fromAll]
  | .cons s r =>
    simp only [DistinctAll] at hd
    simp only [TidyAll] at ht
    rw [toDictAll, fromAll, fromLoop_toDict ws m s .nil hd.1 ht.1 (by simp [keys])]
    simp only
    rw [fromAll_toDict ws m r hd.2 ht.2]
    rfl
end

/-- C124: a clone (or a server saved to a file and loaded again, or pickled and unpickled) is the same
server: same keys in the same order, same values, if every parameter's key reads as itself and no child
server is empty. -/
theorem C124_clone {ws : Char → Bool} (missing : A) {s : Srv A} (hd : Distinct s)
    (ht : Tidy (ReadsAsItself ws) s) : clone ws missing s = .ok s := by
  unfold clone fromDict
  rw [fromLoop_toDict ws missing s .nil hd ht (by simp [keys])]
  rfl

/-! ### keys stay distinct -/

theorem keys_put (k : Str) (v : Val A) (s : Srv A) :
    keys (put k v s) = if k ∈ keys s then keys s else keys s ++ [k] := by
  match s with
  | .nil => simp [put, keys]
  | .cons a b r =>
    unfold put
    by_cases h : k = a
    · subst h; simp [keys]
    · rw [if_neg h]
      simp only [keys, keys_put k v r, List.mem_cons, h, false_or]
      by_cases h2 : k ∈ keys r <;> simp [h2]

theorem distinct_put {k : Str} {v : Val A} {s : Srv A} (hs : Distinct s) (hv : DistinctVal v) :
    Distinct (put k v s) := by
  match s with
  | .nil => simp only [put, Distinct, keys]; exact ⟨by simp, hv, trivial⟩
  | .cons a b r =>
    simp only [Distinct] at hs
    unfold put
    by_cases h : k = a
    · rw [if_pos h]; simp only [Distinct]; exact ⟨hs.1, hv, hs.2.2⟩
    · rw [if_neg h]; simp only [Distinct]
      refine ⟨?_, hs.2.1, distinct_put hs.2.2 hv⟩
      rw [keys_put]
      split
      · exact hs.1
      · simp only [List.mem_append, List.mem_singleton, not_or]
        exact ⟨hs.1, Ne.symm h⟩

theorem distinct_find {k : Str} {v : Val A} {s : Srv A} (hs : Distinct s) (h : find k s = some v) :
    DistinctVal v := by
  match s with
  | .nil => simp [find] at h
  | .cons a b r =>
    simp only [Distinct] at hs
    unfold find at h
    split at h
    · cases h; exact hs.2.1
    · exact distinct_find hs.2.2 h

theorem distinct_del {k : Str} {s : Srv A} (hs : Distinct s) :
    Distinct (del k s) ∧ ∀ x ∈ keys (del k s), x ∈ keys s := by
  match s with
  | .nil => simp [del, Distinct]
  | .cons a b r =>
    simp only [Distinct] at hs
    unfold del
    by_cases h : k = a
    · rw [if_pos h]; exact ⟨hs.2.2, fun x hx => by simp [keys, hx]⟩
    · rw [if_neg h]
      obtain ⟨h1, h2⟩ := distinct_del (k := k) hs.2.2
      simp only [Distinct, keys, List.mem_cons]
      refine ⟨⟨fun hh => hs.1 (h2 _ hh), hs.2.1, h1⟩, ?_⟩
      rintro x (rfl | hx)
      · exact .inl rfl
      · exact .inr (h2 x hx)

/-- an invariant of `getPath`: entries are only added at the end of the walk. -/
theorem getPath_distinct {d : A} {p : List Str} {s s' : Srv A} {v : Val A} (hs : Distinct s)
    (h : getPath d p s = .ok (s', v)) : Distinct s' ∧ s' ≠ .nil := by
  have hput : ∀ (k : Str) (w : Val A) (t : Srv A), put k w t ≠ .nil := by
    intro k w t
    cases t with
    | nil => simp [put]
    | cons a b r => unfold put; split <;> simp
  have hne : ∀ {k : Str} {w : Val A} {t : Srv A}, find k t = some w → t ≠ .nil := by
    rintro k w t h rfl
    simp [find] at h
  induction p generalizing s s' v with
  | nil => cases h
  | cons k p ih =>
    rw [getPath_cons] at h
    cases hf : find k s with
    | some w =>
      rw [hf] at h
      cases w with
      | leaf a => simp only at h; cases h; exact ⟨hs, hne hf⟩
      | many l => simp only at h; cases h; exact ⟨hs, hne hf⟩
      | child c =>
        simp only at h
        cases hg : getPath d p c with
        | error e => rw [hg] at h; cases h
        | ok x =>
          obtain ⟨c', v'⟩ := x
          rw [hg] at h; cases h
          have := distinct_find hs hf
          simp only [DistinctVal] at this
          exact ⟨distinct_put hs (by simp only [DistinctVal]; exact (ih this hg).1), hput _ _ _⟩
    | none =>
      rw [hf] at h
      cases p with
      | nil => simp only at h; cases h; exact ⟨distinct_put hs (by simp [DistinctVal]), hput _ _ _⟩
      | cons k2 p =>
        simp only at h
        cases hg : getPath d (k2 :: p) .nil with
        | error e => rw [hg] at h; cases h
        | ok x =>
          obtain ⟨c', v'⟩ := x
          rw [hg] at h; cases h
          exact ⟨distinct_put hs (by simp only [DistinctVal]; exact (ih (by simp [Distinct]) hg).1), hput _ _ _⟩

theorem distinct_nil : Distinct (.nil : Srv A) := by simp [Distinct]

mutual
theorem fromLoop_distinct {ws : Char → Bool} (d acc : Srv A) {s : Srv A} (hs : Distinct acc)
    (h : fromLoop ws d acc = .ok s) : Distinct s := by
  match d with
  | .nil => rw [fromLoop] at h; cases h; exact hs
  | .cons k v r =>
    rw [fromLoop] at h
    cases he : fromEntry ws k v acc with
    | error e => rw [he] at h; cases h
    | ok acc' =>
      rw [he] at h
      exact fromLoop_distinct r acc' (fromEntry_distinct k v acc hs he) h
theorem fromEntry_distinct {ws : Char → Bool} (k : Str) (v : Val A) (acc : Srv A) {s : Srv A} (hs : Distinct acc)
    (h : fromEntry ws k v acc = .ok s) : Distinct s := by
  match v with
  | .leaf a =>
    rw [fromEntry] at h
    cases hg : get ws k a acc with
    | error e => rw [hg] at h; cases h
    | ok x =>
      obtain ⟨c', v'⟩ := x
      rw [hg] at h; cases h
      exact (getPath_distinct hs hg).1
  | .child d =>
    rw [fromEntry] at h
    cases hg : fromLoop ws d .nil with
    | error e => rw [hg] at h; cases h
    | ok x =>
      rw [hg] at h; cases h
      exact distinct_put hs (by simp only [DistinctVal]; exact fromLoop_distinct d .nil distinct_nil hg)
  | .many l =>
    rw [fromEntry] at h
    cases hg : fromAll ws l with
    | error e => rw [hg] at h; cases h
    | ok x =>
      rw [hg] at h; cases h
      exact distinct_put hs (by simp only [DistinctVal]; exact fromAll_distinct l hg)
theorem fromAll_distinct {ws : Char → Bool} (l : Srvs A) {m : Srvs A}
    (h : fromAll ws l = .ok m) : DistinctAll m := by
  match l with
  | .nil => rw [fromAll] at h; cases h; simp [DistinctAll]
  | .cons d r =>
    rw [fromAll] at h
    cases hg : fromLoop ws d .nil with
    | error e => rw [hg] at h; cases h
    | ok x =>
      rw [hg] at h
      simp only at h
      cases ha : fromAll ws r with
      | error e => rw [ha] at h; cases h
      | ok y =>
        rw [ha] at h; cases h
        simp only [DistinctAll]
        exact ⟨fromLoop_distinct d .nil distinct_nil hg, fromAll_distinct r ha⟩
end

/-- C124: whatever dictionary a server is made from, its keys are distinct at every level. -/
theorem fromDict_distinct {ws : Char → Bool} {d s : Srv A} (h : fromDict ws d = .ok s) : Distinct s :=
  fromLoop_distinct d .nil distinct_nil h

/-! ### what is loaded is tidy -/

theorem tidy_put {P : Str → Prop} {k : Str} {v : Val A} {s : Srv A} (hs : Tidy P s) (hv : TidyVal P k v) :
    Tidy P (put k v s) := by
  match s with
  | .nil => simp only [put, Tidy]; exact ⟨hv, trivial⟩
  | .cons a b r =>
    simp only [Tidy] at hs
    unfold put
    by_cases h : k = a
    · subst h; rw [if_pos rfl]; simp only [Tidy]; exact ⟨hv, hs.2⟩
    · rw [if_neg h]; simp only [Tidy]; exact ⟨hs.1, tidy_put hs.2 hv⟩

theorem tidy_find {P : Str → Prop} {k : Str} {v : Val A} {s : Srv A} (hs : Tidy P s)
    (h : find k s = some v) : TidyVal P k v := by
  match s with
  | .nil => simp [find] at h
  | .cons a b r =>
    simp only [Tidy] at hs
    unfold find at h
    split at h
    · rename_i e; cases h; subst e; exact hs.1
    · exact tidy_find hs.2 h

theorem put_ne (k : Str) (w : Val A) (t : Srv A) : put k w t ≠ .nil := by
  cases t with
  | nil => simp [put]
  | cons a b r => unfold put; split <;> simp

theorem getPath_tidy {P : Str → Prop} {d : A} {p : List Str} {s s' : Srv A} {v : Val A} (hp : ∀ k ∈ p, P k)
    (hs : Tidy P s) (h : getPath d p s = .ok (s', v)) : Tidy P s' ∧ s' ≠ .nil := by
  have hne : ∀ {k : Str} {w : Val A} {t : Srv A}, find k t = some w → t ≠ .nil := by
    rintro k w t h rfl
    simp [find] at h
  induction p generalizing s s' v with
  | nil => cases h
  | cons k p ih =>
    rw [getPath_cons] at h
    have hp' : ∀ k ∈ p, P k := fun x hx => hp x (List.mem_cons_of_mem _ hx)
    cases hf : find k s with
    | some w =>
      rw [hf] at h
      cases w with
      | leaf a => simp only at h; cases h; exact ⟨hs, hne hf⟩
      | many l => simp only at h; cases h; exact ⟨hs, hne hf⟩
      | child c =>
        simp only at h
        cases hg : getPath d p c with
        | error e => rw [hg] at h; cases h
        | ok x =>
          obtain ⟨c', v'⟩ := x
          rw [hg] at h; cases h
          have := tidy_find hs hf
          simp only [TidyVal] at this
          have h2 := ih hp' this.2 hg
          exact ⟨tidy_put hs (by simp only [TidyVal]; exact ⟨h2.2, h2.1⟩), put_ne _ _ _⟩
    | none =>
      rw [hf] at h
      cases p with
      | nil =>
        simp only at h; cases h
        exact ⟨tidy_put hs (by simp only [TidyVal]; exact hp k (by simp)), put_ne _ _ _⟩
      | cons k2 p =>
        simp only at h
        cases hg : getPath d (k2 :: p) .nil with
        | error e => rw [hg] at h; cases h
        | ok x =>
          obtain ⟨c', v'⟩ := x
          rw [hg] at h; cases h
          have h2 := ih hp' (by simp [Tidy]) hg
          exact ⟨tidy_put hs (by simp only [TidyVal]; exact ⟨h2.2, h2.1⟩), put_ne _ _ _⟩

theorem stripped_self {ws : Char → Bool} {a b : Str} (h : Stripped ws a b) : Stripped ws b b := by
  obtain ⟨_, _, _, _, _, h1, h2⟩ := h
  exact ⟨[], [], by simp, by simp, by simp, h1, h2⟩

theorem stripped_noDelim {ws : Char → Bool} {a b : Str} (h : Stripped ws a b) (ha : NoDelim a) : NoDelim b := by
  obtain ⟨pre, suf, rfl, _⟩ := h
  intro hi
  apply ha
  rw [List.append_assoc]
  exact (hi.trans (List.prefix_append b suf).isInfix).trans (List.suffix_append pre _).isInfix

/-- the parts of a name read as themselves. -/
theorem names_parts {ws : Char → Bool} {n : Str} {p : List Str} (h : Names ws n p) :
    ∀ k ∈ p, ReadsAsItself ws k := by
  obtain ⟨q, h1, h2⟩ := h
  have hq := Par.path_noDelim h1
  clear h1
  induction h2 with
  | nil => simp
  | cons h _ ih =>
    intro k hk
    rcases List.mem_cons.1 hk with rfl | hk
    · refine ⟨[k], .last k (stripped_noDelim h (hq _ (by simp))), .cons (stripped_self h) .nil⟩
    · exact ih (fun c hc => hq c (List.mem_cons_of_mem _ hc)) k hk

mutual
theorem fromLoop_tidy {ws : Char → Bool} (d acc : Srv A) {s : Srv A} (hd : Tidy (fun _ => True) d)
    (hs : Tidy (ReadsAsItself ws) acc) (h : fromLoop ws d acc = .ok s) :
    Tidy (ReadsAsItself ws) s ∧ ((d ≠ .nil ∨ acc ≠ .nil) → s ≠ .nil) := by
  match d with
  | .nil => rw [fromLoop] at h; cases h; exact ⟨hs, fun h => h.resolve_left (fun h => h rfl)⟩
  | .cons k v r =>
    simp only [Tidy] at hd
    rw [fromLoop] at h
    cases he : fromEntry ws k v acc with
    | error e => rw [he] at h; cases h
    | ok acc' =>
      rw [he] at h
      have h1 := fromEntry_tidy k v acc hd.1 hs he
      have h2 := fromLoop_tidy r acc' hd.2 h1.1 h
      exact ⟨h2.1, fun _ => h2.2 (.inr h1.2)⟩
theorem fromEntry_tidy {ws : Char → Bool} (k : Str) (v : Val A) (acc : Srv A) {s : Srv A}
    (hd : TidyVal (fun _ => True) k v) (hs : Tidy (ReadsAsItself ws) acc)
    (h : fromEntry ws k v acc = .ok s) : Tidy (ReadsAsItself ws) s ∧ s ≠ .nil := by
  match v with
  | .leaf a =>
    rw [fromEntry] at h
    cases hg : get ws k a acc with
    | error e => rw [hg] at h; cases h
    | ok x =>
      obtain ⟨c', v'⟩ := x
      rw [hg] at h; cases h
      exact getPath_tidy (names_parts (names_iff.2 rfl)) hs hg
  | .child d =>
    simp only [TidyVal] at hd
    rw [fromEntry] at h
    cases hg : fromLoop ws d .nil with
    | error e => rw [hg] at h; cases h
    | ok x =>
      rw [hg] at h; cases h
      have h1 := fromLoop_tidy d .nil hd.2 (by simp [Tidy]) hg
      exact ⟨tidy_put hs (by simp only [TidyVal]; exact ⟨h1.2 (.inl hd.1), h1.1⟩), put_ne _ _ _⟩
  | .many l =>
    simp only [TidyVal] at hd
    rw [fromEntry] at h
    cases hg : fromAll ws l with
    | error e => rw [hg] at h; cases h
    | ok x =>
      rw [hg] at h; cases h
      exact ⟨tidy_put hs (by simp only [TidyVal]; exact fromAll_tidy l hd hg), put_ne _ _ _⟩
theorem fromAll_tidy {ws : Char → Bool} (l : Srvs A) {m : Srvs A} (hd : TidyAll (fun _ => True) l)
    (h : fromAll ws l = .ok m) : TidyAll (ReadsAsItself ws) m := by
  match l with
  | .nil => rw [fromAll] at h; cases h; simp [TidyAll]
  | .cons d r =>
    simp only [TidyAll] at hd
    rw [fromAll] at h
    cases hg : fromLoop ws d .nil with
    | error e => rw [hg] at h; cases h
    | ok x =>
      rw [hg] at h
      simp only at h
      cases ha : fromAll ws r with
      | error e => rw [ha] at h; cases h
      | ok y =>
        rw [ha] at h; cases h
        simp only [TidyAll]
        exact ⟨(fromLoop_tidy d .nil hd.1 (by simp [Tidy]) hg).1, fromAll_tidy r hd.2 ha⟩
end

/-- C124: a server made from any dictionary without empty dictionaries in it, whatever its keys, is
reproduced exactly by cloning, saving and loading, or pickling. -/
theorem C124_loaded {ws : Char → Bool} (missing : A) {d s : Srv A} (hd : Tidy (fun _ => True) d)
    (h : fromDict ws d = .ok s) : clone ws missing s = .ok s :=
  C124_clone missing (fromDict_distinct h)
    (fromLoop_tidy d .nil hd (by simp [Tidy]) h).1

/-- C124: a dictionary whose parameter keys read as themselves becomes a server with exactly that
content. -/
theorem C124_load_plain {ws : Char → Bool} (missing : A) {d : Srv A} (hd : Distinct d)
    (ht : Tidy (ReadsAsItself ws) d) : fromDict ws d = .ok d ∧ toDict missing d = d := by
  have h : toDict missing d = d := toDict_self missing d ht
  refine ⟨?_, h⟩
  have := C124_clone (ws := ws) missing hd ht
  unfold clone at this
  rwa [h] at this
where
  toDict_self (m : A) (s : Srv A) (ht : Tidy (ReadsAsItself ws) s) : toDict m s = s := by
    match s with
    | .nil => rw [toDict]
    | .cons k v r =>
      simp only [Tidy] at ht
      rw [toDict, toDictVal_self m k v ht.1, toDict_self m r ht.2]
  toDictVal_self (m : A) (k : Str) (v : Val A) (ht : TidyVal (ReadsAsItself ws) k v) : toDictVal m v = v := by
    match v with
    | .leaf a => rw [toDictVal]
    | .child s =>
      simp only [TidyVal] at ht
      rw [toDictVal, toDict_self m s ht.2]
      cases s with
      | nil => exact absurd rfl ht.1
      | cons a b c => rfl
    | .many l =>
      simp only [TidyVal] at ht
      rw [toDictVal, toDictAll_self m l ht]
  toDictAll_self (m : A) (l : Srvs A) (ht : TidyAll (ReadsAsItself ws) l) : toDictAll m l = l := by
    match l with
    | .nil => rw [toDictAll]
    | .cons s r =>
      simp only [TidyAll] at ht
      rw [toDictAll, toDict_self m s ht.1, toDictAll_self m r ht.2]

end Bark.PS
