import Verif.Props.PServerDict

/-!
C125 – merging two parameter servers; C126 – comparing them.
-/
namespace Bark.PS
set_option linter.unusedSectionVars false
open Bark.Par (Str findDelim)
open Bark.Par.Spec (NoDelim Path)
open Spec
variable {A : Type}

theorem setH_noDelim {k : Str} (hk : NoDelim k) (v : Val A) (s : Srv A) : setH k v s = .ok (put k v s) := by
  unfold setH rsplit
  rw [Par.findDelim_none.2 (noDelim_reverse hk)]

theorem find_cons (k k' : Str) (v : Val A) (r : Srv A) :
    find k' (.cons k v r) = if k' = k then some v else find k' r := rfl

/-! ### merging, key by key -/

/-- what becomes of one key. -/
inductive MergedV (ov : Bool) : Option (Val A) → Option (Val A) → Option (Val A) → Prop
  | left (x : Option (Val A)) : MergedV ov none x x
  | right (v : Val A) : MergedV ov (some v) none (some v)
  | both {a b c : Srv A} : (∀ k, MergedV ov (find k b) (find k a) (find k c)) →
      MergedV ov (some (.child b)) (some (.child a)) (some (.child c))
  | clash {v w : Val A} : (IsValue v ∨ IsValue w) → MergedV ov (some v) (some w) (some (if ov then v else w))

theorem isValue_leaf (a : A) : IsValue (Val.leaf a) := by intro c; simp
theorem isValue_many (l : Srvs A) : IsValue (Val.many l) := by intro c; simp

mutual
theorem append_spec (ov : Bool) (o s : Srv A) (hd : Distinct o) (hk : AllKeys NoDelim o) :
    ∃ s', append ov o s = .ok s' ∧ ∀ k, MergedV ov (find k o) (find k s) (find k s') := by
  match o with
  | .nil => exact ⟨s, by rw [append], fun k => by simp only [find]; exact .left _⟩
  | .cons k v r =>
    simp only [Distinct] at hd
    simp only [AllKeys] at hk
    obtain ⟨s1, h1, h2, h3⟩ := appendEntry_spec ov k v s hd.2.1 hk.1 hk.2.1
    obtain ⟨s', h4, h5⟩ := append_spec ov r s1 hd.2.2 hk.2.2
    refine ⟨s', ?_, ?_⟩
    · rw [append, h1]; exact h4
    · intro k'
      have := h5 k'
      rw [find_cons]
      by_cases e : k' = k
      · subst e
        rw [if_pos rfl]
        rw [find_new hd.1] at this
        generalize hx : find k' s' = x at this
        generalize hy : find k' s1 = y at this
        cases this
        rw [← hy]; exact h2
      · rw [if_neg e, ← h3 k' e]
        exact this
theorem appendEntry_spec (ov : Bool) (k : Str) (v : Val A) (s : Srv A) (hd : DistinctVal v) (hk : NoDelim k)
    (hv : AllKeysVal NoDelim v) :
    ∃ s', appendEntry ov k v (find k s) s = .ok s' ∧ MergedV ov (some v) (find k s) (find k s') ∧
      ∀ k', k' ≠ k → find k' s' = find k' s := by
  have put_ok : ∀ x : Val A, ∀ k', k' ≠ k → find k' (put k x s) = find k' s := by
    intro x k' h; rw [find_put, if_neg h]
  have clash : ∀ w : Val A, find k s = some w → (IsValue v ∨ IsValue w) →
      ∃ s', (if ov then setH k v s else .ok s) = .ok s' ∧ MergedV ov (some v) (some w) (find k s') ∧
        ∀ k', k' ≠ k → find k' s' = find k' s := by
    intro w hf hc
    have hm := MergedV.clash (ov := ov) hc
    cases ov with
    | true =>
      refine ⟨put k v s, ?_, ?_, put_ok v⟩
      · rw [if_pos rfl, setH_noDelim hk]
      · rw [find_put, if_pos rfl]; exact hm
    | false =>
      refine ⟨s, rfl, ?_, fun _ _ => rfl⟩
      rw [hf]; exact hm
  cases hf : find k s with
  | none =>
    refine ⟨put k v s, ?_, ?_, put_ok v⟩
    · rw [← setH_noDelim hk]
      cases v <;> rfl
    · rw [find_put, if_pos rfl]; exact .right v
  | some w =>
    match v, w with
    | .leaf x, w =>
      obtain ⟨s', h1, h2⟩ := clash w hf (.inl (isValue_leaf x))
      exact ⟨s', by rw [← h1]; cases w <;> rfl, h2⟩
    | .many x, w =>
      obtain ⟨s', h1, h2⟩ := clash w hf (.inl (isValue_many x))
      exact ⟨s', by rw [← h1]; cases w <;> rfl, h2⟩
    | .child b, .leaf x =>
      obtain ⟨s', h1, h2⟩ := clash _ hf (.inr (isValue_leaf x))
      exact ⟨s', by rw [← h1]; rfl, h2⟩
    | .child b, .many x =>
      obtain ⟨s', h1, h2⟩ := clash _ hf (.inr (isValue_many x))
      exact ⟨s', by rw [← h1]; rfl, h2⟩
    | .child b, .child a =>
      simp only [DistinctVal] at hd
      simp only [AllKeysVal] at hv
      obtain ⟨a', h1, h2⟩ := append_spec ov b a hd hv
      refine ⟨put k (.child a') s, ?_, ?_, put_ok _⟩
      · rw [appendEntry, h1]
      · rw [find_put, if_pos rfl]; exact .both h2
end

theorem merged_swap {x y z : Option (Val A)} (h : MergedV true x y z) : MergedV false y x z := by
  induction h with
  | left x =>
    cases x with
    | none => exact .left _
    | some v => exact .right v
  | right v => exact .left _
  | both _ ih => exact .both ih
  | clash h => exact .clash h.symm

/-! ### from keys to paths -/

theorem vacant_cons {s a : Srv A} {k : Str} {p : List Str} (hp : p ≠ []) (hf : find k s = some (.child a)) :
    Vacant s (k :: p) ↔ Vacant a p := by
  constructor
  · intro h; exact vacant_child h hf
  · intro h q w hq hw
    cases q with
    | nil => cases hw
    | cons k' q =>
      rw [List.cons_prefix_cons] at hq
      obtain ⟨rfl, hq⟩ := hq
      rw [at_cons, hf] at hw
      rcases hw with ⟨rfl, hw⟩ | ⟨c, hc, hw⟩
      · cases hw; exact ⟨by simpa using hp.symm, a, rfl⟩
      · cases hc
        have := h q w hq hw
        exact ⟨by simpa using this.1, this.2⟩

theorem vacant_none {s : Srv A} {k : Str} {p : List Str} (hf : find k s = none) : Vacant s (k :: p) := by
  intro q w hq hw
  cases q with
  | nil => cases hw
  | cons k' q =>
    rw [List.cons_prefix_cons] at hq
    obtain ⟨rfl, hq⟩ := hq
    rw [at_cons, hf] at hw
    simp at hw

theorem at_keep {s o s' : Srv A} {q : List Str} {w : Val A} (hw : IsValue w)
    (h : ∀ k, MergedV false (find k o) (find k s) (find k s')) :
    At s' q w ↔ At s q w ∨ (At o q w ∧ Vacant s q) := by
  induction q generalizing s o s' with
  | nil => simp [not_at_nil]
  | cons k p ih =>
    have hk := h k
    generalize hx : find k o = x at hk
    generalize hy : find k s = y at hk
    generalize hz : find k s' = z at hk
    cases hk with
    | left _ =>
      rw [at_cons, at_cons, at_cons, hx, hy, hz]
      simp
    | right v =>
      rw [at_cons, at_cons, at_cons, hx, hy, hz]
      simp [vacant_none hy]
    | both hc =>
      rename_i a b c
      by_cases hp : p = []
      · subst hp
        have no : ∀ {t d : Srv A}, find k t = some (.child d) → ¬ At t [k] w := by
          intro t d ht hh
          rw [at_cons, ht] at hh
          rcases hh with ⟨_, hh⟩ | ⟨_, _, hh⟩
          · cases hh; exact hw d rfl
          · cases hh
        simp [no hx, no hy, no hz]
      · rw [at_child (.inl hx) hp, at_child (.inl hy) hp, at_child (.inl hz) hp, vacant_cons hp hy]
        exact ih hc
    | clash hc =>
      rename_i v w0
      simp only [Bool.false_eq_true, if_false] at hz
      have e : At s' (k :: p) w ↔ At s (k :: p) w := by rw [at_cons, at_cons, hy, hz]
      rw [e]
      constructor
      · exact .inl
      · rintro (h1 | ⟨h1, h2⟩)
        · exact h1
        · exfalso
          have h3 := h2 [k] w0 (by simp) (at_cons.2 (.inl ⟨rfl, hy⟩))
          rw [at_cons, hx] at h1
          rcases hc with hc | hc
          · rcases h1 with ⟨rfl, _⟩ | ⟨c, h4, _⟩
            · exact h3.1 rfl
            · cases h4; exact hc c rfl
          · obtain ⟨c, rfl⟩ := h3.2
            exact hc c rfl

theorem open_cons {s a : Srv A} {k : Str} {p : List Str} (hf : find k s = some (.child a)) :
    Open s (k :: p) ↔ Open a p := by
  constructor
  · intro h q w hq hw
    exact h (k :: q) w (by rw [List.cons_prefix_cons]; exact ⟨rfl, hq⟩) (at_cons.2 (.inr ⟨a, hf, hw⟩))
  · intro h q w hq hw
    cases q with
    | nil => cases hw
    | cons k' q =>
      rw [List.cons_prefix_cons] at hq
      obtain ⟨rfl, hq⟩ := hq
      rw [at_cons, hf] at hw
      rcases hw with ⟨rfl, hw⟩ | ⟨c, hc, hw⟩
      · cases hw; exact ⟨a, rfl⟩
      · cases hc; exact h q w hq hw

theorem open_none {s : Srv A} {k : Str} {p : List Str} (hf : find k s = none) : Open s (k :: p) :=
  fun q w hq hw => (vacant_none hf q w hq hw).2

theorem section_keep {s o s' : Srv A} {q : List Str}
    (h : ∀ k, MergedV false (find k o) (find k s) (find k s')) :
    (∃ c, At s' q (.child c)) ↔ (∃ c, At s q (.child c)) ∨ ((∃ c, At o q (.child c)) ∧ Open s q) := by
  induction q generalizing s o s' with
  | nil => simp [not_at_nil]
  | cons k p ih =>
    have hk := h k
    generalize hx : find k o = x at hk
    generalize hy : find k s = y at hk
    generalize hz : find k s' = z at hk
    cases hk with
    | left _ =>
      simp only [at_cons, hx, hy, hz]
      simp
    | right v =>
      simp only [at_cons, hx, hy, hz]
      simp [open_none hy]
    | both hc =>
      rename_i a b c
      by_cases hp : p = []
      · subst hp
        have yes : ∀ {t d : Srv A}, find k t = some (.child d) → ∃ c, At t [k] (.child c) := by
          intro t d ht
          exact ⟨d, at_cons.2 (.inl ⟨rfl, ht⟩)⟩
        simp [yes hy, yes hz]
      · rw [open_cons hy]
        simp only [at_child (.inl hx) hp, at_child (.inl hy) hp, at_child (.inl hz) hp]
        exact ih hc
    | clash hc =>
      rename_i v w0
      simp only [Bool.false_eq_true, if_false] at hz
      have e : (∃ c, At s' (k :: p) (.child c)) ↔ ∃ c, At s (k :: p) (.child c) := by
        simp only [at_cons, hy, hz]
      rw [e]
      constructor
      · exact .inl
      · rintro (h1 | ⟨⟨c, h1⟩, h2⟩)
        · exact h1
        · exfalso
          obtain ⟨c0, rfl⟩ := h2 [k] w0 (by simp) (at_cons.2 (.inl ⟨rfl, hy⟩))
          rw [at_cons, hx] at h1
          rcases hc with hc | hc
          · rcases h1 with ⟨rfl, h1⟩ | ⟨c', h4, _⟩
            · cases h1; exact hc _ rfl
            · cases h4; exact hc _ rfl
          · exact hc c0 rfl

/-- C125: without overwriting, the merged server has every parameter of the receiver unchanged, and those
parameters of the other for which the receiver has neither a parameter on the path nor a child server at
it; nothing else. -/
theorem C125_append {o : Srv A} (s : Srv A) (hd : Distinct o) (hk : AllKeys NoDelim o) :
    ∃ s', append false o s = .ok s' ∧
      (∀ q w, IsValue w → (At s' q w ↔ At s q w ∨ (At o q w ∧ Vacant s q))) ∧
      (∀ q, (∃ c, At s' q (.child c)) ↔ (∃ c, At s q (.child c)) ∨ ((∃ c, At o q (.child c)) ∧ Open s q)) := by
  obtain ⟨s', h1, h2⟩ := append_spec false o s hd hk
  exact ⟨s', h1, fun q w hw => at_keep hw h2, fun q => section_keep h2⟩

/-- C125: with overwriting it is the other way round: the merged server has every parameter of the other,
and of the receiver those that do not clash. -/
theorem C125_overwrite {o : Srv A} (s : Srv A) (hd : Distinct o) (hk : AllKeys NoDelim o) :
    ∃ s', append true o s = .ok s' ∧
      (∀ q w, IsValue w → (At s' q w ↔ At o q w ∨ (At s q w ∧ Vacant o q))) ∧
      (∀ q, (∃ c, At s' q (.child c)) ↔ (∃ c, At o q (.child c)) ∨ ((∃ c, At s q (.child c)) ∧ Open o q)) := by
  obtain ⟨s', h1, h2⟩ := append_spec true o s hd hk
  have h3 := fun k => merged_swap (h2 k)
  exact ⟨s', h1, fun q w hw => at_keep hw h3, fun q => section_keep h3⟩

/-! ### comparing -/

/-- what the difference holds for one key. -/
inductive DiffV (E : Val A → Val A → Prop) : Option (Val A) → Option (Val A) → Option (Val A) → Prop
  | none (x : Option (Val A)) : DiffV E none x none
  | new (v : Val A) : DiffV E (some v) none (some v)
  | both {a b c : Srv A} : (∀ k, DiffV E (find k b) (find k a) (find k c)) → (∃ k v, find k c = some v) →
      DiffV E (some (.child b)) (some (.child a)) (some (.child c))
  | bothEq {a b : Srv A} : (∀ k, DiffV E (find k b) (find k a) none) →
      DiffV E (some (.child b)) (some (.child a)) none
  | eq {v w : Val A} : E w v → DiffV E (some v) (some w) none
  | ne {v w : Val A} : (IsValue v ∨ IsValue w) → ¬ E w v → DiffV E (some v) (some w) (some v)

theorem valEq_iff (eqv : A → A → Bool) (same : Srvs A → Srvs A → Bool) (v w : Val A) :
    valEq eqv same v w = true ↔ Equal eqv same v w := by
  constructor
  · intro h
    match v, w, h with
    | .leaf a, .leaf b, h => exact .leaf h
    | .many a, .many b, h => exact .many h
    | .leaf _, .child _, h => cases h
    | .leaf _, .many _, h => cases h
    | .many _, .child _, h => cases h
    | .many _, .leaf _, h => cases h
    | .child _, .child _, h => cases h
    | .child _, .leaf _, h => cases h
    | .child _, .many _, h => cases h
  · intro h
    cases h with
    | leaf h => exact h
    | many h => exact h

theorem len_pos {s : Srv A} : 0 < len s ↔ ∃ k v, find k s = some v := by
  cases s with
  | nil => simp [len, find]
  | cons k v r =>
    refine ⟨fun _ => ⟨k, v, by simp [find]⟩, fun _ => by simp [len]⟩

theorem not_equal_child {eqv : A → A → Bool} {same : Srvs A → Srvs A → Bool} {w : Val A} {c : Srv A} :
    ¬ Equal eqv same w (.child c) := by intro h; cases h

mutual
theorem diff_spec (eqv : A → A → Bool) (same : Srvs A → Srvs A → Bool) (o s acc : Srv A) (hd : Distinct o)
    (hk : AllKeys NoDelim o) (hn : ∀ k ∈ keys o, k ∉ keys acc) :
    ∃ u, diff eqv same o s acc = .ok u ∧
      (∀ k ∈ keys o, DiffV (Equal eqv same) (find k o) (find k s) (find k u)) ∧
      (∀ k, k ∉ keys o → find k u = find k acc) := by
  match o with
  | .nil => exact ⟨acc, by rw [diff], by simp [keys], fun _ _ => rfl⟩
  | .cons k v r =>
    simp only [Distinct] at hd
    simp only [AllKeys] at hk
    obtain ⟨a1, h1, h2, h3⟩ := diffEntry_spec eqv same k v (find k s) acc hd.2.1 hk.1 hk.2.1
      (find_new (hn k (by simp [keys])))
    have hn' : ∀ k' ∈ keys r, k' ∉ keys a1 := by
      intro k' hk' hm
      obtain ⟨x, hx⟩ := mem_keys.1 hm
      have e : k' ≠ k := by rintro rfl; exact hd.1 hk'
      rw [h3 k' e] at hx
      exact hn k' (by simp [keys, hk']) (mem_keys.2 ⟨x, hx⟩)
    obtain ⟨u, h4, h5, h6⟩ := diff_spec eqv same r s a1 hd.2.2 hk.2.2 hn'
    refine ⟨u, ?_, ?_, ?_⟩
    · rw [diff, h1]; exact h4
    · intro k' hk'
      rw [find_cons]
      by_cases e : k' = k
      · subst e
        rw [if_pos rfl, h6 _ hd.1]; exact h2
      · rw [if_neg e]
        exact h5 k' (by simpa [keys, e] using hk')
    · intro k' hk'
      simp only [keys, List.mem_cons, not_or] at hk'
      rw [h6 k' hk'.2, h3 k' hk'.1]
theorem diffEntry_spec (eqv : A → A → Bool) (same : Srvs A → Srvs A → Bool) (k : Str) (v : Val A) (x : Option (Val A))
    (acc : Srv A) (hd : DistinctVal v) (hk : NoDelim k) (hv : AllKeysVal NoDelim v) (hn : find k acc = none) :
    ∃ u, diffEntry eqv same k v x acc = .ok u ∧ DiffV (Equal eqv same) (some v) x (find k u) ∧
      ∀ k', k' ≠ k → find k' u = find k' acc := by
  have put_ok : ∀ x : Val A, ∀ k', k' ≠ k → find k' (put k x acc) = find k' acc := by
    intro x k' h; rw [find_put, if_neg h]
  have self : ∀ x : Val A, find k (put k x acc) = some x := by intro x; rw [find_put, if_pos rfl]
  have val : ∀ w : Val A, IsValue v → ∃ u, (if valEq eqv same w v then .ok acc else setH k v acc) = .ok u ∧
      DiffV (Equal eqv same) (some v) (some w) (find k u) ∧ ∀ k', k' ≠ k → find k' u = find k' acc := by
    intro w hval
    by_cases e : valEq eqv same w v = true
    · rw [if_pos e]
      exact ⟨acc, rfl, by rw [hn]; exact .eq ((valEq_iff ..).1 e), fun _ _ => rfl⟩
    · rw [if_neg e, setH_noDelim hk]
      exact ⟨_, rfl, by rw [self]; exact .ne (.inl hval) (fun h => e ((valEq_iff ..).2 h)), put_ok v⟩
  match v, x with
  | v, none =>
    refine ⟨put k v acc, ?_, by rw [self]; exact .new v, put_ok v⟩
    rw [← setH_noDelim hk]; cases v <;> rfl
  | .leaf a, some w =>
    obtain ⟨u, h1, h2⟩ := val w (isValue_leaf a)
    exact ⟨u, by rw [← h1]; cases w <;> rfl, h2⟩
  | .many a, some w =>
    obtain ⟨u, h1, h2⟩ := val w (isValue_many a)
    exact ⟨u, by rw [← h1]; cases w <;> rfl, h2⟩
  | .child b, some (.leaf a) =>
    refine ⟨put k (.child b) acc, ?_, by rw [self]; exact .ne (.inr (isValue_leaf a)) not_equal_child, put_ok _⟩
    rw [← setH_noDelim hk]; rfl
  | .child b, some (.many a) =>
    refine ⟨put k (.child b) acc, ?_, by rw [self]; exact .ne (.inr (isValue_many a)) not_equal_child, put_ok _⟩
    rw [← setH_noDelim hk]; rfl
  | .child b, some (.child a) =>
    simp only [DistinctVal] at hd
    simp only [AllKeysVal] at hv
    obtain ⟨u, h1, h2, h3⟩ := diff_spec eqv same b a .nil hd hv (by simp [keys])
    have h4 : ∀ k, DiffV (Equal eqv same) (find k b) (find k a) (find k u) := by
      intro k'
      by_cases e : k' ∈ keys b
      · exact h2 k' e
      · rw [h3 k' e, find_new e]; exact .none _
    by_cases e : 0 < len u
    · refine ⟨put k (.child u) acc, ?_, by rw [self]; exact .both h4 (len_pos.1 e), put_ok _⟩
      rw [diffEntry, h1]
      simp only [e, if_true]
      exact setH_noDelim hk _ _
    · refine ⟨acc, ?_, ?_, fun _ _ => rfl⟩
      · rw [diffEntry, h1]
        simp only [e, if_false]
      · rw [hn]
        refine .bothEq (fun k' => ?_)
        have := h4 k'
        cases hf : find k' u with
        | none => rw [hf] at this; exact this
        | some y => exact absurd (len_pos.2 ⟨k', y, hf⟩) e
end

theorem matched_cons {eqv : A → A → Bool} {same : Srvs A → Srvs A → Bool} {s a : Srv A} {k : Str} {p : List Str}
    {w : Val A} (hp : p ≠ []) (hf : find k s = some (.child a)) :
    Matched eqv same s (k :: p) w ↔ Matched eqv same a p w := by
  unfold Matched
  constructor
  · rintro ⟨w', h1, h2⟩; exact ⟨w', (at_child (.inl hf) hp).1 h1, h2⟩
  · rintro ⟨w', h1, h2⟩; exact ⟨w', (at_child (.inl hf) hp).2 h1, h2⟩

theorem diff_values {eqv : A → A → Bool} {same : Srvs A → Srvs A → Bool} {o s u : Srv A} {q : List Str} {w : Val A}
    (hw : IsValue w) (h : ∀ k, DiffV (Equal eqv same) (find k o) (find k s) (find k u)) :
    At u q w ↔ At o q w ∧ ¬ Matched eqv same s q w := by
  induction q generalizing o s u with
  | nil => simp [not_at_nil]
  | cons k p ih =>
    have no : ∀ {t d : Srv A}, find k t = some (.child d) → ¬ At t [k] w := by
      intro t d ht hh
      rw [at_cons, ht] at hh
      rcases hh with ⟨_, hh⟩ | ⟨_, _, hh⟩
      · cases hh; exact hw d rfl
      · cases hh
    have gone : ∀ {t : Srv A}, find k t = none → ¬ ∃ x, At t (k :: p) x := by
      rintro t ht ⟨x, hh⟩
      rw [at_cons, ht] at hh
      simp at hh
    have hk := h k
    generalize hx : find k o = x at hk
    generalize hy : find k s = y at hk
    generalize hz : find k u = z at hk
    cases hk with
    | none _ =>
      constructor
      · intro h1; exact absurd ⟨_, h1⟩ (gone hz)
      · intro h1; exact absurd ⟨_, h1.1⟩ (gone hx)
    | new v =>
      have e : At u (k :: p) w ↔ At o (k :: p) w := by rw [at_cons, at_cons, hx, hz]
      rw [e]
      refine ⟨fun h1 => ⟨h1, ?_⟩, fun h1 => h1.1⟩
      rintro ⟨w', h2, _⟩
      exact gone hy ⟨_, h2⟩
    | both hc hne =>
      by_cases hp : p = []
      · subst hp
        simp [no hx, no hz]
      · rw [at_child (.inl hx) hp, at_child (.inl hz) hp, matched_cons hp hy]
        exact ih hc
    | bothEq hc =>
      rename_i a b
      by_cases hp : p = []
      · subst hp
        simp [no hx, not_at_nil, at_cons, hz]
      · rw [at_child (.inl hx) hp, matched_cons hp hy]
        have := ih (u := .nil) (o := b) (s := a) (by intro k'; simp only [find]; exact hc k')
        rw [← this]
        constructor
        · intro h1; exact absurd ⟨_, h1⟩ (gone hz)
        · intro h1; exact absurd h1 at_empty
    | eq he =>
      rename_i v w0
      constructor
      · intro h1; exact absurd ⟨_, h1⟩ (gone hz)
      · rintro ⟨h1, h2⟩
        exfalso
        rw [at_cons, hx] at h1
        rcases h1 with ⟨rfl, h1⟩ | ⟨c, h1, _⟩
        · cases h1
          exact h2 ⟨w0, at_cons.2 (.inl ⟨rfl, hy⟩), he⟩
        · cases h1; exact not_equal_child he
    | ne hc he =>
      rename_i v w0
      have e : At u (k :: p) w ↔ At o (k :: p) w := by rw [at_cons, at_cons, hx, hz]
      rw [e]
      refine ⟨fun h1 => ⟨h1, ?_⟩, fun h1 => h1.1⟩
      rintro ⟨w', h2, h3⟩
      rw [at_cons, hx] at h1
      rw [at_cons, hy] at h2
      rcases h1 with ⟨rfl, h1⟩ | ⟨c, h1, h1'⟩
      · cases h1
        rcases h2 with ⟨_, h2⟩ | ⟨c, _, h2⟩
        · cases h2; exact he h3
        · cases h2
      · cases h1
        rcases h2 with ⟨rfl, h2⟩ | ⟨c', h2, _⟩
        · cases h1'
        · cases h2
          rcases hc with hc | hc
          · exact hc _ rfl
          · exact hc _ rfl

/-- the difference is empty exactly when nothing differs. -/
theorem diff_some {eqv : A → A → Bool} {same : Srvs A → Srvs A → Bool} {x y z : Option (Val A)}
    (h : DiffV (Equal eqv same) x y z) :
    ∀ {o s : Srv A} {k : Str} {v : Val A}, z = some v → find k o = x → find k s = y →
      (∃ p w, IsValue w ∧ At o (k :: p) w ∧ ¬ Matched eqv same s (k :: p) w) ∨
      (∃ p c, At o (k :: p) (.child c) ∧ ¬ ∃ c', At s (k :: p) (.child c')) := by
  induction h with
  | none _ => intro o s k v hz; cases hz
  | new v =>
    intro o s k v' _ hx hy
    have gone : ¬ ∃ x, At s [k] x := by
      rintro ⟨x, hh⟩
      rw [at_cons, hy] at hh
      simp at hh
    cases v with
    | child c =>
      exact .inr ⟨[], c, at_cons.2 (.inl ⟨rfl, hx⟩), fun ⟨c', hc⟩ => gone ⟨_, hc⟩⟩
    | leaf a =>
      exact .inl ⟨[], _, isValue_leaf a, at_cons.2 (.inl ⟨rfl, hx⟩), fun ⟨w', hc, _⟩ => gone ⟨_, hc⟩⟩
    | many a =>
      exact .inl ⟨[], _, isValue_many a, at_cons.2 (.inl ⟨rfl, hx⟩), fun ⟨w', hc, _⟩ => gone ⟨_, hc⟩⟩
  | @both a b c hc hne ih =>
    intro o s k v _ hx hy
    obtain ⟨k', v', hk'⟩ := hne
    rcases ih k' hk' rfl rfl with ⟨p, w, h1, h2, h3⟩ | ⟨p, d, h2, h3⟩
    · exact .inl ⟨k' :: p, w, h1, (at_child (.inl hx) (by simp)).2 h2, by
        rw [matched_cons (by simp) hy]; exact h3⟩
    · refine .inr ⟨k' :: p, d, (at_child (.inl hx) (by simp)).2 h2, ?_⟩
      rintro ⟨c', h4⟩
      exact h3 ⟨c', (at_child (.inl hy) (by simp)).1 h4⟩
  | bothEq _ _ => intro o s k v hz; cases hz
  | eq _ => intro o s k v hz; cases hz
  | @ne v w hc he =>
    intro o s k v' _ hx hy
    have only : ∀ x, At s [k] x → x = w := by
      intro x hh
      rw [at_cons, hy] at hh
      rcases hh with ⟨_, hh⟩ | ⟨_, _, hh⟩
      · cases hh; rfl
      · cases hh
    have hm : ¬ Matched eqv same s [k] v := by
      rintro ⟨w', h1, h2⟩
      rw [only _ h1] at h2; exact he h2
    cases v with
    | child c =>
      refine .inr ⟨[], c, at_cons.2 (.inl ⟨rfl, hx⟩), ?_⟩
      rintro ⟨c', h1⟩
      have := only _ h1
      rcases hc with hc | hc
      · exact hc _ rfl
      · exact hc _ this.symm
    | leaf a => exact .inl ⟨[], _, isValue_leaf a, at_cons.2 (.inl ⟨rfl, hx⟩), hm⟩
    | many a => exact .inl ⟨[], _, isValue_many a, at_cons.2 (.inl ⟨rfl, hx⟩), hm⟩

theorem diff_none {eqv : A → A → Bool} {same : Srvs A → Srvs A → Bool} {o s : Srv A} {q : List Str} {c : Srv A}
    (h : ∀ k, DiffV (Equal eqv same) (find k o) (find k s) none) (hc : At o q (.child c)) :
    ∃ c', At s q (.child c') := by
  induction q generalizing o s with
  | nil => cases hc
  | cons k p ih =>
    have hk := h k
    generalize hx : find k o = x at hk
    generalize hy : find k s = y at hk
    cases hk with
    | none _ => rw [at_cons, hx] at hc; simp at hc
    | @bothEq a b hb =>
      by_cases hp : p = []
      · subst hp; exact ⟨a, at_cons.2 (.inl ⟨rfl, hy⟩)⟩
      · obtain ⟨c', h1⟩ := ih hb ((at_child (.inl hx) hp).1 hc)
        exact ⟨c', (at_child (.inl hy) hp).2 h1⟩
    | @eq v w he =>
      rw [at_cons, hx] at hc
      rcases hc with ⟨_, hc⟩ | ⟨c', hc, _⟩
      · cases hc; exact absurd he not_equal_child
      · cases hc; exact absurd he not_equal_child

/-- C126: comparing with another server: the second result holds exactly the other's parameters that have
no equal counterpart at the same path, the first tells whether the other has such a parameter or a child
server where this one has none. -/
theorem C126_compare (eqv : A → A → Bool) (same : Srvs A → Srvs A → Bool) {o : Srv A} (s : Srv A)
    (hd : Distinct o) (hk : AllKeys NoDelim o) :
    ∃ b u, hasEqualParamsAs eqv same s o = .ok (b, u) ∧
      (∀ q w, IsValue w → (At u q w ↔ At o q w ∧ ¬ Matched eqv same s q w)) ∧
      (b = true ↔ (∃ q w, IsValue w ∧ At o q w ∧ ¬ Matched eqv same s q w) ∨
        (∃ q c, At o q (.child c) ∧ ¬ ∃ c', At s q (.child c'))) := by
  obtain ⟨u, h1, h2, h3⟩ := diff_spec eqv same o s .nil hd hk (by simp [keys])
  have h4 : ∀ k, DiffV (Equal eqv same) (find k o) (find k s) (find k u) := by
    intro k'
    by_cases e : k' ∈ keys o
    · exact h2 k' e
    · rw [h3 k' e, find_new e]; exact .none _
  refine ⟨decide (0 < len u), u, by simp only [hasEqualParamsAs, h1], fun q w hw => diff_values hw h4, ?_⟩
  rw [decide_eq_true_iff, len_pos]
  constructor
  · rintro ⟨k, v, hv⟩
    rcases diff_some (h4 k) hv rfl rfl with ⟨p, w, h⟩ | ⟨p, c, h⟩
    · exact .inl ⟨_, w, h⟩
    · exact .inr ⟨_, c, h⟩
  · intro h
    by_contra hne
    have hz : ∀ k, find k u = none := by
      intro k
      cases hf : find k u with
      | none => rfl
      | some v => exact absurd ⟨k, v, hf⟩ hne
    rcases h with ⟨q, w, h5, h6, h7⟩ | ⟨q, c, h5, h6⟩
    · have := (diff_values h5 h4).2 ⟨h6, h7⟩
      cases q with
      | nil => cases this
      | cons k p => rw [at_cons, hz k] at this; simp at this
    · exact h6 (diff_none (fun k => by have := h4 k; rwa [hz k] at this) h5)

end Bark.PS
