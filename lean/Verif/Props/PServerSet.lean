import Verif.Props.PServer

/-!
C123 – writing a parameter and reading it back.
-/
namespace Bark.PS
set_option linter.unusedSectionVars false
open Bark.Par (Str findDelim)
open Bark.Par.Spec (NoDelim Path)
open Spec
variable {A : Type}

/-! ### names made of plain keys -/

theorem noDelim_reverse {k : Str} (h : NoDelim k) : NoDelim k.reverse := by
  intro hi
  apply h
  have := List.reverse_infix.2 hi
  simpa using this

theorem joined_ne {p : List Str} (h : ∀ k ∈ p, PlainKey k) (hp : p ≠ []) : joined p ≠ [] := by
  match p with
  | [] => exact absurd rfl hp
  | [k] => exact (h k (by simp)).ne
  | k :: k' :: p => simp [joined]

theorem joined_snoc (p : List Str) (hp : p ≠ []) (k : Str) :
    joined (p ++ [k]) = joined p ++ [':', ':'] ++ k := by
  match p with
  | [] => exact absurd rfl hp
  | [a] => simp [joined]
  | a :: b :: p =>
    have := joined_snoc (b :: p) (by simp) k
    simp only [List.cons_append] at this
    simp only [List.cons_append, joined]
    rw [this]
    simp

theorem path_joined {p : List Str} (h : ∀ k ∈ p, PlainKey k) (hp : p ≠ []) : Path (joined p) p := by
  match p with
  | [] => exact absurd rfl hp
  | [k] => exact .last k (h k (by simp)).noDelim
  | k :: k' :: p =>
    simp only [joined]
    have hk := h k (by simp)
    exact .cons k _ _ (Par.noDelim_snoc hk.noDelim hk.last)
      (path_joined (fun x hx => h x (List.mem_cons_of_mem _ hx)) (by simp))

theorem rsplit_joined {p : List Str} (hp : p ≠ []) {k : Str} (hk : PlainKey k) :
    rsplit (joined (p ++ [k])) = some (joined p, k) := by
  unfold rsplit
  have : findDelim (joined (p ++ [k])).reverse = some (k.reverse, (joined p).reverse) := by
    rw [Par.findDelim_some, joined_snoc p hp]
    refine ⟨by simp, ?_⟩
    apply Par.noDelim_snoc (noDelim_reverse hk.noDelim)
    rw [List.getLast?_reverse]
    exact hk.first
  rw [this]
  simp

theorem rsplit_single {k : Str} (hk : PlainKey k) : rsplit k = none := by
  unfold rsplit
  rw [Par.findDelim_none.2 (noDelim_reverse hk.noDelim)]

theorem childParts_joined {p : List Str} (h : ∀ k ∈ p, PlainKey k) (hp : p ≠ []) :
    childParts (joined p) = p := by
  match p with
  | [] => exact absurd rfl hp
  | [k] =>
    rw [childParts]
    have := Par.findDelim_none.2 (h k (by simp)).noDelim
    split
    · rename_i c r e; simp only [joined] at e; rw [this] at e; cases e
    · rfl
  | k :: k' :: p =>
    have hk := h k (by simp)
    have hr : ∀ x ∈ k' :: p, PlainKey x := fun x hx => h x (List.mem_cons_of_mem _ hx)
    have hf : findDelim (joined (k :: k' :: p)) = some (k, joined (k' :: p)) := by
      rw [Par.findDelim_some]
      exact ⟨rfl, Par.noDelim_snoc hk.noDelim hk.last⟩
    rw [childParts]
    split
    · rename_i c r e
      rw [hf] at e; cases e
      rw [if_neg (joined_ne hr (by simp)), childParts_joined hr (by simp)]
    · rename_i e; rw [hf] at e; cases e

/-! ### placing a value -/

theorem placed_put (s : Srv A) (k : Str) (v : Val A) : Placed s (put k v s) [k] v := by
  have hh : ∀ q : List Str, ¬ [k] <+: q ↔ q.head? ≠ some k := by
    intro q
    cases q with
    | nil => simp
    | cons a q => simp [List.cons_prefix_cons, eq_comm]
  have hw : ∀ q w, Within [k] v q w ↔
      ∃ r, q = k :: r ∧ ((r = [] ∧ w = v) ∨ ∃ c, v = .child c ∧ At c r w) := by
    intro q w; rfl
  refine ⟨?_, ?_⟩
  · intro q w _
    rw [at_put, hw, hh]
  · intro q
    constructor
    · rintro ⟨c, hc⟩
      rw [at_put, ← hw, ← hh] at hc
      rcases hc with hc | hc
      · exact .inr (.inl ⟨c, hc⟩)
      · exact .inr (.inr ⟨hc.1, c, hc.2⟩)
    · rintro (⟨h1, h2, h3⟩ | ⟨c, hc⟩ | ⟨h1, c, hc⟩)
      · obtain ⟨t, ht⟩ := h2
        cases q with
        | nil => exact absurd rfl h1
        | cons a q =>
          simp only [List.cons_append, List.cons.injEq, List.append_eq_nil_iff] at ht
          exact absurd (by rw [ht.1, ht.2.1]) h3
      · exact ⟨c, at_put.2 (.inl ((hw _ _).1 hc))⟩
      · exact ⟨c, at_put.2 (.inr ⟨(hh q).1 h1, hc⟩)⟩

theorem within_cons (k : Str) (p : List Str) (v : Val A) (q : List Str) (w : Val A) :
    Within (k :: p) v q w ↔ ∃ q', q = k :: q' ∧ Within p v q' w := by
  constructor
  · rintro ⟨r, rfl, h⟩; exact ⟨p ++ r, rfl, r, rfl, h⟩
  · rintro ⟨q', rfl, r, rfl, h⟩; exact ⟨r, rfl, h⟩

theorem within_ne {p : List Str} {v : Val A} {q : List Str} {w : Val A} (hp : p ≠ [])
    (h : Within p v q w) : q ≠ [] := by
  obtain ⟨r, rfl, _⟩ := h
  simp [hp]

theorem at_child {s c : Srv A} {k : Str}
    (hf : find k s = some (.child c) ∨ (find k s = none ∧ c = .nil)) {p : List Str} (hp : p ≠ []) {w : Val A} :
    At s (k :: p) w ↔ At c p w := by
  rw [at_cons]
  rcases hf with hf | ⟨hf, rfl⟩
  · rw [hf]
    constructor
    · rintro (⟨h, _⟩ | ⟨c', h, h'⟩)
      · exact absurd h hp
      · cases h; exact h'
    · intro h; exact .inr ⟨c, rfl, h⟩
  · rw [hf]
    simp [at_empty]

theorem at_self {s c : Srv A} {k : Str}
    (hf : find k s = some (.child c) ∨ (find k s = none ∧ c = .nil)) {w : Val A} (hw : IsValue w) :
    ¬ At s [k] w := by
  rw [at_cons]
  rcases hf with hf | ⟨hf, rfl⟩
  · rw [hf]
    rintro (⟨_, h⟩ | ⟨_, _, h⟩)
    · cases h; exact hw c rfl
    · cases h
  · rw [hf]; simp

theorem placed_child {s c c' : Srv A} {k : Str} {p : List Str} {v : Val A} (hp : p ≠ [])
    (hf : find k s = some (.child c) ∨ (find k s = none ∧ c = .nil)) (h : Placed c c' p v) :
    Placed s (put k (.child c') s) (k :: p) v := by
  refine ⟨?_, ?_⟩
  · intro q w hw
    rw [at_put, within_cons]
    cases q with
    | nil => simp [not_at_nil]
    | cons a q =>
      by_cases e : a = k
      · subst e
        simp only [List.cons.injEq, true_and, exists_eq_left', List.head?_cons, ne_eq, not_true_eq_false,
          false_and, or_false, List.cons_prefix_cons]
        cases q with
        | nil =>
          constructor
          · rintro (⟨_, h1⟩ | ⟨_, _, h1⟩)
            · exact absurd h1 (hw _)
            · cases h1
          · rintro (h1 | ⟨_, h1⟩)
            · exact absurd rfl (within_ne hp h1)
            · exact absurd h1 (at_self hf hw)
        | cons b q =>
          rw [at_child hf (by simp), ← h.values _ _ hw]
          constructor
          · rintro (⟨h1, _⟩ | ⟨c2, h1, h2⟩)
            · cases h1
            · cases h1; exact h2
          · intro h1; exact .inr ⟨c', rfl, h1⟩
      · simp [e, List.cons_prefix_cons, Ne.symm e]
  · intro q
    cases q with
    | nil =>
      constructor
      · rintro ⟨c, hc⟩; cases hc
      · rintro (⟨h1, _⟩ | ⟨c, h1⟩ | ⟨_, c, h1⟩)
        · exact absurd rfl h1
        · exact absurd rfl (within_ne (by simp) h1)
        · cases h1
    | cons a q =>
      by_cases e : a = k
      · subst e
        cases q with
        | nil =>
          constructor
          · rintro _
            exact .inl ⟨by simp, by simp, by simpa using hp.symm⟩
          · rintro _
            exact ⟨c', at_put.2 (.inl ⟨[], rfl, .inl ⟨rfl, rfl⟩⟩)⟩
        | cons b q =>
          have hs := h.sections (b :: q)
          constructor
          · rintro ⟨x, hx⟩
            rw [at_cons, find_put, if_pos rfl] at hx
            rcases hx with ⟨h1, _⟩ | ⟨c2, h1, h2⟩
            · cases h1
            · cases h1
              rcases hs.1 ⟨x, h2⟩ with ⟨_, h4, h5⟩ | ⟨c3, h3⟩ | ⟨h3, c3, h4⟩
              · exact .inl ⟨by simp, by rw [List.cons_prefix_cons]; exact ⟨rfl, h4⟩, by simpa using h5⟩
              · exact .inr (.inl ⟨c3, (within_cons _ _ _ _ _).2 ⟨_, rfl, h3⟩⟩)
              · exact .inr (.inr ⟨by rw [List.cons_prefix_cons]; exact fun h => h3 h.2, c3,
                  (at_child hf (by simp)).2 h4⟩)
          · intro hx
            have : ∃ x, At c' (b :: q) (.child x) := by
              rw [hs]
              rcases hx with ⟨_, h4, h5⟩ | ⟨c3, h3⟩ | ⟨h3, c3, h4⟩
              · rw [List.cons_prefix_cons] at h4
                exact .inl ⟨by simp, h4.2, by simpa using h5⟩
              · rw [within_cons] at h3
                obtain ⟨q', h4, h5⟩ := h3
                cases h4
                exact .inr (.inl ⟨c3, h5⟩)
              · rw [at_child hf (by simp)] at h4
                exact .inr (.inr ⟨fun h => h3 (by rw [List.cons_prefix_cons]; exact ⟨rfl, h⟩), c3, h4⟩)
            obtain ⟨x, hx⟩ := this
            exact ⟨x, at_put.2 (.inl ⟨_, rfl, .inr ⟨c', rfl, hx⟩⟩)⟩
      · constructor
        · rintro ⟨x, hx⟩
          rw [at_put] at hx
          rcases hx with ⟨q', h1, _⟩ | ⟨_, h1⟩
          · cases h1; exact absurd rfl e
          · exact .inr (.inr ⟨by rw [List.cons_prefix_cons]; exact fun h => e h.1.symm, x, h1⟩)
        · rintro (⟨_, h4, _⟩ | ⟨c3, h3⟩ | ⟨_, c3, h4⟩)
          · rw [List.cons_prefix_cons] at h4; exact absurd h4.1 e
          · rw [within_cons] at h3
            obtain ⟨q', h4, _⟩ := h3
            cases h4; exact absurd rfl e
          · exact ⟨c3, at_put.2 (.inr ⟨by simpa using e, h4⟩)⟩

theorem reachable_top {s : Srv A} {k : Str} {p : List Str} (hp : p ≠ []) (h : Reachable s (k :: p)) :
    ∃ c, (find k s).getD (.child .nil) = .child c ∧
      (find k s = some (.child c) ∨ (find k s = none ∧ c = .nil)) := by
  cases hf : find k s with
  | none => exact ⟨.nil, rfl, .inr ⟨rfl, rfl⟩⟩
  | some w =>
    obtain ⟨c, rfl⟩ := h [k] w (by simp) (by simpa using hp.symm) (at_cons.2 (.inl ⟨rfl, hf⟩))
    exact ⟨c, rfl, .inl rfl⟩

theorem reachable_child {s c : Srv A} {k : Str} {p : List Str} (h : Reachable s (k :: p))
    (hf : find k s = some (.child c) ∨ (find k s = none ∧ c = .nil)) : Reachable c p := by
  intro q w hq hne hw
  rcases hf with hf | ⟨_, rfl⟩
  · exact h (k :: q) w (by rw [List.cons_prefix_cons]; exact ⟨rfl, hq⟩) (by simpa using hne)
      (at_cons.2 (.inr ⟨c, hf, hw⟩))
  · exact absurd hw at_empty

theorem addPath_two (del strict : Bool) (f : Bool → Val A → Res (Val A)) (nested : Bool) (k : Str)
    {ks : List Str} (hks : ks ≠ []) (s : Srv A) :
    addPath del strict f nested (k :: ks) s = match (find k s).getD (.child .nil) with
      | .leaf _ => .error .thrown
      | .child c => match addPath del strict f nested ks c with
          | .error e => .error e
          | .ok c' => .ok (put k (.child c') s)
      | .many l => if strict ∧ nested then .error .thrown
          else match mapAll (addPath del strict f true ks) l with
            | .error e => .error e
            | .ok l' => .ok (put k (.many l') s) := by
  cases ks with
  | nil => exact absurd rfl hks
  | cons a ks => rw [addPath]; rfl

theorem addPath_one (del strict : Bool) (f : Bool → Val A → Res (Val A)) (nested : Bool) (k : Str)
    (s : Srv A) : addPath del strict f nested [k] s =
      match f nested (if del then .child .nil else (find k s).getD (.child .nil)) with
      | .error e => .error e
      | .ok v => .ok (put k v s) := by
  rw [addPath]; rfl

/-- storing along child servers. -/
theorem store_placed {pre : List Str} (hp : pre ≠ []) {k : Str} {v : Val A} {s : Srv A} (nested : Bool)
    (h : Reachable s (pre ++ [k])) :
    ∃ s', addPath false true (storeIn k v) nested pre s = .ok s' ∧ Placed s s' (pre ++ [k]) v := by
  induction pre generalizing s with
  | nil => exact absurd rfl hp
  | cons a pre ih =>
    rw [List.cons_append] at h ⊢
    obtain ⟨c, hc, hf⟩ := reachable_top (by simp) h
    by_cases hn : pre = []
    · subst hn
      refine ⟨put a (.child (put k v c)) s, ?_, ?_⟩
      · rw [addPath_one, if_neg (by simp), hc]
        rfl
      · exact placed_child (by simp) hf (placed_put c k v)
    · obtain ⟨c', h1, h2⟩ := ih hn (reachable_child h hf)
      refine ⟨put a (.child c') s, ?_, ?_⟩
      · rw [addPath_two _ _ _ _ _ hn, hc]
        simp only [h1]
      · exact placed_child (by simp) hf h2

theorem setH_joined_one {k : Str} (hk : PlainKey k) (v : Val A) (s : Srv A) :
    setH k v s = .ok (put k v s) := by
  unfold setH
  rw [rsplit_single hk]

theorem setH_joined {pre : List Str} (hp : pre ≠ []) {k : Str} (h : ∀ x ∈ pre ++ [k], PlainKey x) (v : Val A)
    (s : Srv A) : setH (joined (pre ++ [k])) v s = addPath false true (storeIn k v) false pre s := by
  unfold setH
  rw [rsplit_joined hp (h k (by simp)),]
  simp only
  rw [childParts_joined (fun x hx => h x (List.mem_append_left _ hx)) hp]

theorem snoc_cases {p : List Str} (hp : p ≠ []) : ∃ pre k, p = pre ++ [k] :=
  ⟨p.dropLast, p.getLast hp, (List.dropLast_append_getLast hp).symm⟩

theorem setH_placed {p : List Str} (hp : p ≠ []) (hk : ∀ k ∈ p, PlainKey k) {s : Srv A} (v : Val A)
    (h : Reachable s p) : ∃ s', setH (joined p) v s = .ok s' ∧ Placed s s' p v := by
  obtain ⟨pre, k, rfl⟩ := snoc_cases hp
  by_cases hn : pre = []
  · subst hn
    exact ⟨_, setH_joined_one (hk k (by simp)) v s, placed_put s k v⟩
  · rw [setH_joined hn hk]
    exact store_placed hn false h

/-- C123: assigning a plain value under a name made of plain keys, where no parameter is on the way,
places exactly that value at that path. -/
theorem C123_set {ws : Char → Bool} {p : List Str} (hp : p ≠ []) (hk : ∀ k ∈ p, PlainKey k)
    {s : Srv A} (a : A) (h : Reachable s p) :
    ∃ s', setItem ws (joined p) (.leaf a) s = .ok s' ∧ Placed s s' p (.leaf a) :=
  setH_placed hp hk (.leaf a) h

/-- C123: a dictionary is stored as the server made from it, a list of dictionaries as the list of
servers made from them. -/
theorem C123_set_dict {ws : Char → Bool} {p : List Str} (hp : p ≠ []) (hk : ∀ k ∈ p, PlainKey k)
    {s : Srv A} {d c : Srv A} (hd : fromDict ws d = .ok c) (h : Reachable s p) :
    ∃ s', setItem ws (joined p) (.child d) s = .ok s' ∧ Placed s s' p (.child c) := by
  have hc : conv ws (.child d) = .ok (.child c) := by simp only [conv, hd]
  unfold setItem
  rw [hc]
  exact setH_placed hp hk (.child c) h

theorem fromAll_ok {ws : Char → Bool} {ds : Srvs A} {l : List (Srv A)}
    (h : List.Forall₂ (fun d c => fromDict ws d = .ok c) (members ds) l) :
    ∃ m, fromAll ws ds = .ok m ∧ members m = l := by
  match ds, l, h with
  | .nil, [], _ => exact ⟨.nil, by rw [fromAll], rfl⟩
  | .nil, _ :: _, h => cases h
  | .cons d r, [], h => cases h
  | .cons d r, c :: l, h =>
    cases h with
    | cons h1 h2 =>
      obtain ⟨m, h3, h4⟩ := fromAll_ok h2
      refine ⟨.cons c m, ?_, by rw [members, h4]⟩
      rw [fromAll]
      unfold fromDict at h1
      rw [h1]
      simp only [h3]

theorem C123_set_list {ws : Char → Bool} {p : List Str} (hp : p ≠ []) (hk : ∀ k ∈ p, PlainKey k)
    {s : Srv A} {ds : Srvs A} {l : List (Srv A)}
    (hd : List.Forall₂ (fun d c => fromDict ws d = .ok c) (members ds) l) (h : Reachable s p) :
    ∃ s' m, setItem ws (joined p) (.many ds) s = .ok s' ∧ members m = l ∧ Placed s s' p (.many m) := by
  obtain ⟨m, h1, h2⟩ := fromAll_ok hd
  have hc : conv ws (.many ds) = .ok (.many m) := by simp only [conv, h1]
  unfold setItem
  rw [hc]
  obtain ⟨s', h3, h4⟩ := setH_placed hp hk (.many m) h
  exact ⟨s', m, h3, h2, h4⟩

theorem names_joined {ws : Char → Bool} {p : List Str} (hp : p ≠ []) (hk : ∀ k ∈ p, PlainKey k)
    (hs : ∀ k ∈ p, Stripped ws k k) : Names ws (joined p) p :=
  ⟨p, path_joined hk hp, List.forall₂_same.2 hs⟩

/-- C123: what was assigned is read back, whatever the default, if the keys carry no surrounding
whitespace. -/
theorem C123_read_back {ws : Char → Bool} {p : List Str} (hp : p ≠ []) (hk : ∀ k ∈ p, PlainKey k)
    (hs : ∀ k ∈ p, Stripped ws k k) {s : Srv A} (a d : A) (h : Reachable s p) :
    ∃ s', setItem ws (joined p) (.leaf a) s = .ok s' ∧ get ws (joined p) d s' = .ok (s', .leaf a) := by
  obtain ⟨s', h1, h2⟩ := C123_set (ws := ws) hp hk a h
  refine ⟨s', h1, ?_⟩
  have hv : IsValue (Val.leaf a) := by intro c; simp
  exact C122_present d (names_joined hp hk hs)
    ((h2.values p _ hv).2 (.inl ⟨[], by simp, .inl ⟨rfl, rfl⟩⟩)) hv

/-- C123: with a plain value at a proper prefix of the path the assignment raises. -/
theorem C123_blocked_violated {ws : Char → Bool} {p q : List Str} (hk : ∀ k ∈ p, PlainKey k) {s : Srv A}
    {a : A} (b : A) (hq : q <+: p) (hne : q ≠ p) (h : At s q (.leaf a)) :
    setItem ws (joined p) (.leaf b) s = .error .thrown := by
  have hq0 : q ≠ [] := by rintro rfl; cases h
  obtain ⟨t, rfl⟩ := hq
  have ht : t ≠ [] := by rintro rfl; exact hne (by simp)
  obtain ⟨t', k, rfl⟩ := snoc_cases ht
  show setH _ _ s = _
  rw [← List.append_assoc] at hk ⊢
  rw [setH_joined (by simp [hq0]) hk]
  clear hk hne ht
  induction q generalizing s with
  | nil => exact absurd rfl hq0
  | cons x q ih =>
    rw [at_cons] at h
    rcases h with ⟨rfl, h⟩ | ⟨c, h1, h2⟩
    · by_cases hn : t' = []
      · subst hn
        rw [List.append_nil, addPath_one, if_neg (by simp), h]; rfl
      · rw [List.cons_append, List.nil_append, addPath_two _ _ _ _ _ hn, h]; rfl
    · have hq' : q ≠ [] := by rintro rfl; cases h2
      rw [List.cons_append, addPath_two _ _ _ _ _ (by simp [hq']), h1]
      simp only [Option.getD_some]
      rw [ih h2 hq']

/-! ### lists of servers on the way -/

theorem mapAll_placed {f : Srv A → Res (Srv A)} {P : Srv A → Srv A → Prop} {l : Srvs A}
    (h : ∀ s ∈ members l, ∃ s', f s = .ok s' ∧ P s s') :
    ∃ l', mapAll f l = .ok l' ∧ List.Forall₂ P (members l) (members l') := by
  match l with
  | .nil => exact ⟨.nil, by rw [mapAll], .nil⟩
  | .cons s r =>
    obtain ⟨s', h1, h2⟩ := h s (by simp [members])
    obtain ⟨r', h3, h4⟩ := mapAll_placed (l := r) (fun x hx => h x (by simp [members, hx]))
    refine ⟨.cons s' r', ?_, .cons h2 h4⟩
    rw [mapAll, h1]
    simp only [h3]

/-- replacing the value at an existing path along child servers. -/
theorem addPath_many {q : List Str} {s : Srv A} {l : Srvs A} (h : At s q (.many l)) {f : Bool → Val A → Res (Val A)}
    {ks : List Str} {l' : Srvs A}
    (hl : (if ks = [] then f false (.many l) else
      match mapAll (addPath false true f true ks) l with
        | .error e => .error e
        | .ok m => .ok (.many m)) = .ok (.many l')) :
    ∃ s', addPath false true f false (q ++ ks) s = .ok s' ∧ Placed s s' q (.many l') := by
  induction q generalizing s with
  | nil => cases h
  | cons x q ih =>
    rw [at_cons] at h
    rcases h with ⟨rfl, h⟩ | ⟨c, h1, h2⟩
    · refine ⟨put x (.many l') s, ?_, placed_put s x _⟩
      by_cases hn : ks = []
      · subst hn
        rw [if_pos rfl] at hl
        rw [List.append_nil, addPath_one, if_neg (by simp), h]
        simp only [Option.getD_some, hl]
      · rw [if_neg hn] at hl
        rw [List.cons_append, List.nil_append, addPath_two _ _ _ _ _ hn, h]
        simp only [Option.getD_some]
        rw [if_neg (by simp)]
        cases hm : mapAll (addPath false true f true ks) l with
        | error e => rw [hm] at hl; cases hl
        | ok m => rw [hm] at hl; cases hl; rfl
    · have hq' : q ≠ [] := by rintro rfl; cases h2
      obtain ⟨c', h3, h4⟩ := ih h2
      refine ⟨put x (.child c') s, ?_, placed_child hq' (.inl h1) h4⟩
      rw [List.cons_append, addPath_two _ _ _ _ _ (by simp [hq']), h1]
      simp only [Option.getD_some, h3]

/-- C123: with a list of servers on the way the value is placed in every server of the list, under the
rest of the path; nothing else changes. -/
theorem C123_lists {ws : Char → Bool} {p q : List Str} (hp : p ≠ []) (hk : ∀ k ∈ q ++ p, PlainKey k)
    {s : Srv A} {l : Srvs A} (a : A) (h : At s q (.many l)) (hr : ∀ m ∈ members l, Reachable m p) :
    ∃ s' l', setItem ws (joined (q ++ p)) (.leaf a) s = .ok s' ∧ Placed s s' q (.many l') ∧
      List.Forall₂ (fun m m' => Placed m m' p (.leaf a)) (members l) (members l') := by
  have hq0 : q ≠ [] := by rintro rfl; cases h
  obtain ⟨pre, k, rfl⟩ := snoc_cases hp
  have hl : ∃ l', (if pre = [] then storeIn k (.leaf a) false (.many l) else
      match mapAll (addPath false true (storeIn k (.leaf a)) true pre) l with
        | .error e => .error e
        | .ok m => .ok (.many m)) = .ok (.many l') ∧
      List.Forall₂ (fun m m' => Placed m m' (pre ++ [k]) (.leaf a)) (members l) (members l') := by
    by_cases hn : pre = []
    · subst hn
      obtain ⟨l', h1, h2⟩ := mapAll_placed (f := fun s => .ok (put k (.leaf a) s))
        (P := fun m m' => Placed m m' [k] (.leaf a)) (l := l) (fun m _ => ⟨_, rfl, placed_put m k _⟩)
      refine ⟨l', ?_, h2⟩
      rw [if_pos rfl]
      simp only [storeIn, h1]
      rfl
    · obtain ⟨l', h1, h2⟩ := mapAll_placed (f := addPath false true (storeIn k (.leaf a)) true pre)
        (P := fun m m' => Placed m m' (pre ++ [k]) (.leaf a)) (l := l)
        (fun m hm => store_placed hn true (hr m hm))
      refine ⟨l', ?_, h2⟩
      rw [if_neg hn, h1]
  obtain ⟨l', hl, h2⟩ := hl
  obtain ⟨s', h3, h4⟩ := addPath_many h hl
  refine ⟨s', l', ?_, h4, h2⟩
  show setH _ _ s = _
  rw [← List.append_assoc] at hk ⊢
  rw [setH_joined (by simp [hq0]) hk]
  exact h3

end Bark.PS
