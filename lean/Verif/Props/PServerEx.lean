import Verif.Props.PServerList

/-!
C122–C128: cases in which the properties fail, and cases meeting the hypotheses of the theorems.
-/
namespace Bark.PS
set_option linter.unusedSectionVars false
open Bark.Par (Str findDelim)
open Bark.Par.Spec (NoDelim Path)
open Spec

/-- blanks only. -/
def blank (c : Char) : Bool := c = ' '

/-- a small server: `Car::speed = 5`, `Car::size::width = 2`, `n = 7`, a list of two servers. -/
def demo : Srv Nat :=
  .cons "Car".toList (.child (.cons "speed".toList (.leaf 5)
      (.cons "size".toList (.child (.cons "width".toList (.leaf 2) .nil)) .nil)))
    (.cons "n".toList (.leaf 7)
      (.cons "agents".toList (.many (.cons (.cons "id".toList (.leaf 1) .nil)
          (.cons (.cons "id".toList (.leaf 2) .nil) .nil))) .nil))

theorem has_one {A : Type} {s : Srv A} {k : Str} {v : Val A} (h : find k s = some v) : Has s k v := has_iff.2 h

theorem plain_of {k : Str} (h1 : k ≠ []) (h2 : findDelim k = none) (h3 : k.head? ≠ some ':')
    (h4 : k.getLast? ≠ some ':') : PlainKey k := ⟨h1, Par.findDelim_none.1 h2, h3, h4⟩

theorem stripped_of {k : Str} (h : strip blank k = k) : Stripped blank k k := by
  have := strip_spec blank k
  rwa [h] at this

theorem plain_ab : ∀ k ∈ ["a".toList, "b".toList], PlainKey k := by
  intro k hk
  simp only [List.mem_cons, List.not_mem_nil, or_false] at hk
  rcases hk with rfl | rfl <;> exact plain_of (by decide) (by decide) (by decide) (by decide)

/-! #### reading -/

example : Names blank "Car :: speed".toList ["Car".toList, "speed".toList] := names_iff.2 (by decide +kernel)

example : At demo ["Car".toList, "size".toList, "width".toList] (.leaf 2) :=
  .step (has_one rfl) (.step (has_one rfl) (.one (has_one rfl)))

/-- C122_present applies. -/
example : get blank "Car::size::width".toList 9 demo = .ok (demo, .leaf 2) :=
  C122_present 9 (p := ["Car".toList, "size".toList, "width".toList]) (names_iff.2 (by decide +kernel))
    (.step (has_one rfl) (.step (has_one rfl) (.one (has_one rfl)))) (isValue_leaf 2)

/-- C122_absent applies: a new parameter in a new child of an existing child. -/
example : Vacant demo ["Car".toList, "wheel".toList, "radius".toList] := by
  have h0 : find "Car".toList demo = some (.child (.cons "speed".toList (.leaf 5)
      (.cons "size".toList (.child (.cons "width".toList (.leaf 2) .nil)) .nil))) := rfl
  rw [vacant_cons (by simp) h0]
  exact vacant_none rfl

/-- C122 fails: `n` is a parameter, so reading `n::x` returns `n`, not the default given for `n::x`. -/
theorem C122_violated : get blank "n::x".toList 9 demo = .ok (demo, .leaf 7) ∧ ¬ ∃ v, At demo ["n".toList, "x".toList] v := by
  constructor
  · exact C122_prefix_violated 9 (p := ["n".toList, "x".toList]) (q := ["n".toList]) (names_iff.2 (by decide +kernel))
      (by simp) (.one (has_one rfl)) (isValue_leaf 7)
  · rintro ⟨v, h⟩
    rw [at_cons] at h
    have h0 : find "n".toList demo = some (.leaf 7) := rfl
    rw [h0] at h
    rcases h with ⟨h, _⟩ | ⟨c, h, _⟩
    · cases h
    · cases h

/-- C122_section applies: reading the name of a child server raises. -/
example : get blank "Car".toList 9 demo = .error .thrown :=
  C122_section 9 (p := ["Car".toList]) (names_iff.2 (by decide +kernel)) (.one (has_one rfl))

/-! #### writing -/

/-- C123_read_back applies. -/
example : ∃ s', setItem blank "a::b".toList (.leaf 3) demo = .ok s' ∧ get blank "a::b".toList 9 s' = .ok (s', .leaf 3) :=
  C123_read_back (p := ["a".toList, "b".toList]) (by simp) plain_ab
    (by
      intro k hk
      simp only [List.mem_cons, List.not_mem_nil, or_false] at hk
      rcases hk with rfl | rfl <;> exact stripped_of (by decide))
    3 9 (by
      intro q v hq _ hv
      exact (vacant_none (s := demo) (k := "a".toList) rfl q v hq hv).2)

/-- C123 fails for keys with blanks at the ends: what was set is not what is read. -/
theorem C123_blank_violated :
    ∃ s', setItem blank "a :: b".toList (.leaf 3) .nil = .ok s' ∧
      (get blank "a :: b".toList 9 s').map Prod.snd = .ok (.leaf 9) :=
  ⟨.cons "a ".toList (.child (.cons " b".toList (.leaf 3) .nil)) .nil, by decide +kernel, by decide +kernel⟩

/-- C123 fails for three colons in a row: writing cuts at the last separator, reading at the first. -/
theorem C123_colons_violated :
    ∃ s', setItem blank "a:::b".toList (.leaf 3) .nil = .ok s' ∧
      (get blank "a:::b".toList 9 s').map Prod.snd = .ok (.leaf 9) :=
  ⟨.cons "a:".toList (.child (.cons "b".toList (.leaf 3) .nil)) .nil, by decide +kernel, by decide +kernel⟩

/-- C123 fails for `p["a::b"]`: writing descends into `a`, item access does not; the read even creates an
empty child server called `a::b`. -/
theorem C123_item_violated :
    ∃ s', setItem blank "a::b".toList (.leaf 3) .nil = .ok s' ∧
      (getItem "a::b".toList s').2 = .child .nil ∧ Has (getItem "a::b".toList s').1 "a::b".toList (.child .nil) :=
  ⟨.cons "a".toList (.child (.cons "b".toList (.leaf 3) .nil)) .nil, by decide +kernel, rfl, has_one rfl⟩

/-- C123 fails for `p["a", "description"] = v`: the value is dropped without an error. -/
theorem C123_tuple_violated {A : Type} (ws : Char → Bool) (n : Str) (a : A) (s : Srv A) :
    setItemTuple ws n (.leaf a) s = .ok s := rfl

/-- C123 fails when the path leads through a parameter: the assignment raises. -/
example : setItem blank "n::b".toList (.leaf 3) demo = .error .thrown :=
  C123_blocked_violated (p := ["n".toList, "b".toList]) (q := ["n".toList])
    (by
      intro k hk
      simp only [List.mem_cons, List.not_mem_nil, or_false] at hk
      rcases hk with rfl | rfl <;> exact plain_of (by decide) (by decide) (by decide) (by decide))
    3 (by simp) (by simp) (.one (has_one (v := .leaf 7) rfl))

/-- C123 fails when the path leads through an empty list: nothing is stored and no error is raised. -/
theorem C123_empty_list_violated :
    setItem blank "a::b".toList (.leaf 3) (.cons "a".toList (.many .nil) .nil : Srv Nat) =
      .ok (.cons "a".toList (.many .nil) .nil) := by decide +kernel

/-- C123_lists applies: the value is set in every server of the list. -/
example : ∃ s' l', setItem blank "agents::b".toList (.leaf 3) demo = .ok s' ∧
    Placed demo s' ["agents".toList] (.many l') ∧
    List.Forall₂ (fun m m' => Placed m m' ["b".toList] (.leaf 3))
      [.cons "id".toList (.leaf 1) .nil, .cons "id".toList (.leaf 2) .nil] (members l') :=
  C123_lists (q := ["agents".toList]) (p := ["b".toList]) (s := demo) (l := .cons (.cons "id".toList (.leaf 1) .nil)
          (.cons (.cons "id".toList (.leaf 2) .nil) .nil)) (by simp)
    (by
      intro k hk
      simp only [List.mem_cons, List.not_mem_nil, or_false, List.cons_append, List.nil_append] at hk
      rcases hk with rfl | rfl <;> exact plain_of (by decide) (by decide) (by decide) (by decide))
    3 (.one (has_one rfl)) (by
      intro m _ q v hq hne hv
      cases q with
      | nil => cases hv
      | cons x q =>
        rw [List.cons_prefix_cons] at hq
        have : q = [] := by simpa using hq.2
        subst this
        exact absurd (by rw [hq.1]) hne)

/-! #### dictionaries -/

theorem demo_distinct : Distinct demo := by
  simp only [demo, Distinct, DistinctVal, DistinctAll, keys]
  decide

theorem demo_tidy : Tidy (ReadsAsItself blank) demo := by
  have : ∀ k, (splitAll k).map (strip blank) = [k] → ReadsAsItself blank k := fun k h => names_iff.2 h
  simp only [demo, Tidy, TidyVal, TidyAll]
  refine ⟨⟨by simp, this _ (by decide +kernel), ⟨by simp, this _ (by decide +kernel), trivial⟩, trivial⟩,
    this _ (by decide +kernel), ⟨⟨this _ (by decide +kernel), trivial⟩, ⟨this _ (by decide +kernel), trivial⟩, trivial⟩, trivial⟩

/-- C124_clone applies. -/
example : clone blank 0 demo = .ok demo := C124_clone 0 demo_distinct demo_tidy

/-- C124 fails for an empty child server (which merely reading `p["a"]` creates): the clone has a text
parameter in its place. -/
theorem C124_empty_child_violated {A : Type} (ws : Char → Bool) (missing : A) (k : Str) (hk : ReadsAsItself ws k) :
    clone ws missing (getItem k .nil).1 = .ok (.cons k (.leaf missing) .nil) := by
  have h1 : toDict missing (getItem k (.nil : Srv A)).1 = .cons k (.leaf missing) .nil := by
    show toDict missing (.cons k (.child .nil) .nil) = _
    rw [toDict, toDictVal, toDict]
  unfold clone fromDict
  rw [h1, fromLoop, fromEntry]
  have : get ws k missing (.nil : Srv A) = .ok (.cons k (.leaf missing) .nil, .leaf missing) := by
    unfold get
    rw [names_iff.1 hk, getPath_cons]
    rfl
  rw [this]
  simp only
  rw [fromLoop]

/-- C124 fails for keys with blanks at the ends or separators inside: the clone has another key. -/
theorem C124_keys_violated :
    clone blank 0 (.cons " a".toList (.leaf 3) .nil) = .ok (.cons "a".toList (.leaf 3) .nil) ∧
    clone blank 0 (.cons "a::b".toList (.leaf 3) .nil) =
      .ok (.cons "a".toList (.child (.cons "b".toList (.leaf 3) .nil)) .nil) := by
  constructor <;> decide +kernel

/-- C124 fails: cloning raises when a key with blanks at the ends reads like the name of a child server. -/
theorem C124_raises_violated :
    clone blank 0 (.cons "a".toList (.child (.cons "x".toList (.leaf 1) .nil)) (.cons " a".toList (.leaf 5) .nil)) =
      .error .thrown := by decide +kernel

/-! #### merging and comparing -/

/-- another server: `Car::speed = 6`, `Car::mass = 4`, `n::x = 1`. -/
def other : Srv Nat :=
  .cons "Car".toList (.child (.cons "speed".toList (.leaf 6) (.cons "mass".toList (.leaf 4) .nil)))
    (.cons "n".toList (.child (.cons "x".toList (.leaf 1) .nil)) .nil)

theorem other_distinct : Distinct other := by
  simp only [other, Distinct, DistinctVal, keys]
  decide

theorem other_keys : AllKeys NoDelim other := by
  have : ∀ k, findDelim k = none → NoDelim k := fun k h => Par.findDelim_none.1 h
  simp only [other, AllKeys, AllKeysVal]
  exact ⟨this _ (by decide), ⟨this _ (by decide), trivial, this _ (by decide), trivial, trivial⟩, this _ (by decide),
    ⟨this _ (by decide), trivial, trivial⟩, trivial⟩

/-- C125_append applies: the receiver keeps `speed` and `n`, gets `mass`. -/
example : ∃ s', append false other demo = .ok s' ∧ At s' ["Car".toList, "speed".toList] (.leaf 5) ∧
    At s' ["Car".toList, "mass".toList] (.leaf 4) ∧ At s' ["n".toList] (.leaf 7) := by
  obtain ⟨s', h1, h2, _⟩ := C125_append demo other_distinct other_keys
  refine ⟨s', h1, (h2 _ _ (isValue_leaf 5)).2 (.inl (.step (has_one rfl) (.one (has_one rfl)))),
    (h2 _ _ (isValue_leaf 4)).2 (.inr ⟨.step (has_one rfl) (.one (has_one rfl)), ?_⟩),
    (h2 _ _ (isValue_leaf 7)).2 (.inl (.one (has_one rfl)))⟩
  have h0 : find "Car".toList demo = some (.child (.cons "speed".toList (.leaf 5)
      (.cons "size".toList (.child (.cons "width".toList (.leaf 2) .nil)) .nil))) := rfl
  rw [vacant_cons (by simp) h0]
  exact vacant_none rfl

/-- C125_overwrite applies: the other's `speed` and `n::x` win. -/
example : ∃ s', append true other demo = .ok s' ∧ At s' ["Car".toList, "speed".toList] (.leaf 6) ∧
    At s' ["n".toList, "x".toList] (.leaf 1) := by
  obtain ⟨s', h1, h2, _⟩ := C125_overwrite demo other_distinct other_keys
  exact ⟨s', h1, (h2 _ _ (isValue_leaf 6)).2 (.inl (.step (has_one rfl) (.one (has_one rfl)))),
    (h2 _ _ (isValue_leaf 1)).2 (.inl (.step (has_one rfl) (.one (has_one rfl))))⟩

/-- C125 fails for a key with a separator inside (`p["a::b", "", 1]` makes one): the parameter does not
arrive under its key. -/
theorem C125_violated :
    append false (.cons "a::b".toList (.leaf 1) .nil : Srv Nat) .nil =
      .ok (.cons "a".toList (.child (.cons "b".toList (.leaf 1) .nil)) .nil) := by decide +kernel

/-- C126_compare applies. -/
example : ∃ u, hasEqualParamsAs (fun a b : Nat => decide (a = b)) (fun _ _ => false) demo other = .ok (true, u) ∧
    At u ["Car".toList, "speed".toList] (.leaf 6) := by
  obtain ⟨b, u, h1, h2, h3⟩ := C126_compare (fun a b : Nat => decide (a = b)) (fun _ _ => false) demo
    other_distinct other_keys
  have hm : ¬ Matched (fun a b : Nat => decide (a = b)) (fun _ _ => false) demo ["Car".toList, "speed".toList] (.leaf 6) := by
    rintro ⟨w, h4, h5⟩
    have h6 : At demo ["Car".toList, "speed".toList] (.leaf 5) := .step (has_one rfl) (.one (has_one rfl))
    rw [at_unique h4 h6] at h5
    cases h5 with
    | leaf h => exact absurd h (by decide)
  have ho : At other ["Car".toList, "speed".toList] (.leaf 6) := .step (has_one rfl) (.one (has_one rfl))
  have : b = true := h3.2 (.inl ⟨_, _, isValue_leaf 6, ho, hm⟩)
  subst this
  exact ⟨u, h1, (h2 _ _ (isValue_leaf 6)).2 ⟨ho, hm⟩⟩

/-- C126: the comparison is one-sided and its first result is true when the servers *differ*: against an
empty server nothing differs, the other way round something does. -/
theorem C126_one_sided {A : Type} (eqv : A → A → Bool) (same : Srvs A → Srvs A → Bool) (k : Str) (hk : NoDelim k) (a : A) :
    hasEqualParamsAs eqv same (.cons k (.leaf a) .nil) .nil = .ok (false, .nil) ∧
    hasEqualParamsAs eqv same .nil (.cons k (.leaf a) .nil) = .ok (true, .cons k (.leaf a) .nil) := by
  constructor
  · unfold hasEqualParamsAs
    rw [diff]
    simp [len]
  · unfold hasEqualParamsAs
    have : diff eqv same (.cons k (.leaf a) .nil) .nil .nil = .ok (.cons k (.leaf a) .nil) := by
      rw [diff]
      have h1 : diffEntry eqv same k (.leaf a) (find k (.nil : Srv A)) .nil = .ok (.cons k (.leaf a) .nil) := by
        show setH k (.leaf a) .nil = _
        rw [setH_noDelim hk]; rfl
      rw [h1]
      simp only
      rw [diff]
    rw [this]
    simp [len]

/-- C126 fails for a list of servers compared with a copy of itself: Python compares the servers by
identity, so a clone counts as different. -/
theorem C126_lists_violated : ∃ u,
    hasEqualParamsAs (fun a b : Nat => decide (a = b)) (fun _ _ => false)
      (.cons "l".toList (.many (.cons .nil .nil)) .nil) (.cons "l".toList (.many (.cons .nil .nil)) .nil) = .ok (true, u) :=
  ⟨_, rfl⟩

/-! #### listing -/

/-- C127 fails: a parameter inside a list of servers is not listed, and neither is a list of integers. -/
theorem C127_violated :
    condensed (PyVal.ok (F := Nat)) (.cons "agents".toList (.many (.cons (.cons "id".toList (.leaf (.int 1)) .nil) .nil))
      (.cons "ids".toList (.leaf (.list [.int 1, .int 2])) (.cons "x".toList (.leaf (.int 3)) .nil))) =
      [("x".toList, .leaf (.int 3))] := by rfl

/-- C127 fails: keys with separators make two parameters appear under one name. -/
theorem C127_name_violated :
    condensed (PyVal.ok (F := Nat)) (.cons "a::b".toList (.leaf (.int 1))
      (.cons "a".toList (.child (.cons "b".toList (.leaf (.int 2)) .nil)) .nil)) =
      [("a::b".toList, .leaf (.int 1)), ("a::b".toList, .leaf (.int 2))] := by rfl

/-- C127 fails for the empty key inside a child server: it is there, but not found. -/
theorem C127_empty_key_violated :
    findKey [] (.cons "a".toList (.child (.cons [] (.leaf 1) .nil)) .nil : Srv Nat) = none := by rfl

example : findKey "width".toList demo = some "Car::size::width".toList := by rfl
example : Distinct demo ∧ "width".toList ≠ [] := ⟨demo_distinct, by decide⟩

/-! #### children -/

/-- C128_add_child applies. -/
example : ∃ s', addChild "a::b".toList false demo = .ok s' ∧ Placed demo s' ["a".toList, "b".toList] (.child .nil) := by
  have ho : Open demo ["a".toList, "b".toList] := open_none rfl
  refine (C128_add_child (by simp) plain_ab ho).2.1 ?_
  rintro ⟨c, h⟩
  exact (vacant_none (s := demo) (k := "a".toList) rfl _ _ List.prefix_rfl h).1 rfl

/-- C128: `AddChild` replaces a parameter by an empty child server when `delete` is set, and returns the
parameter itself otherwise. -/
theorem C128_add_child_violated :
    addChild "n".toList true demo = .ok (put "n".toList (.child .nil) demo) ∧
    addChild "n".toList false demo = .ok demo := by constructor <;> decide +kernel

/-- C128_distinct applies to a history that uses every kind of call. -/
example : ∃ s, ([.get "a::b".toList 1, .set "a::c".toList (.leaf 2), .setTuple "q".toList (.leaf 2), .item "x".toList,
    .itemD "y".toList (.leaf 3), .addChild "z::w".toList true, .del "x".toList, .append other true, .clone] :
      List (Op Nat)).foldlM (step blank 0) .nil = .ok s ∧ At s ["a".toList, "c".toList] (.leaf 2) :=
  ⟨.cons "a".toList (.child (.cons "b".toList (.leaf 1) (.cons "c".toList (.leaf 2) .nil)))
    (.cons "y".toList (.leaf 3) (.cons "z".toList (.child (.cons "w".toList (.leaf 0) .nil))
    (.cons "Car".toList (.child (.cons "speed".toList (.leaf 6) (.cons "mass".toList (.leaf 4) .nil)))
    (.cons "n".toList (.child (.cons "x".toList (.leaf 1) .nil)) .nil)))), by decide +kernel,
    .step (has_one rfl) (.one (has_one rfl))⟩

end Bark.PS
