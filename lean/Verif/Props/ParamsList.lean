import Verif.Props.Params
import Mathlib.Data.List.Perm.Basic
import Mathlib.Data.List.Sort

/-!
C38, C70 – condensed parameter list: contents, round trip, equality.
-/
namespace Bark.Par
set_option linter.unusedSectionVars false
open Spec
variable {F : Type}

/-- join of a path with the separator. -/
def joinPath : List Str → Str
  | [] => []
  | [n] => n
  | c :: d :: q => c ++ "::".toList ++ joinPath (d :: q)

/-- good component: no separator is created when `::` is appended. -/
abbrev Good (c : Str) : Prop := NoDelim (c ++ [':'])

theorem joinPath_cons (c : Str) {q : List Str} (h : q ≠ []) :
    joinPath (c :: q) = c ++ "::".toList ++ joinPath q := by
  cases q with
  | nil => exact absurd rfl h
  | cons d q => rfl

theorem path_join {p : List Str} (hp : ∀ c ∈ p, Good c) {n : Str} (hn : NoDelim n) :
    Path (joinPath (p ++ [n])) (p ++ [n]) := by
  induction p with
  | nil => exact .last n hn
  | cons c p ih =>
    rw [List.cons_append, joinPath_cons c (by simp)]
    exact .cons c _ _ (hp c (by simp)) (ih (fun d hd => hp d (List.mem_cons_of_mem _ hd)))

theorem path_eq_join {n : Str} {p : List Str} (h : Path n p) : n = joinPath p := by
  induction h with
  | last n _ => rfl
  | cons c r p _ hr ih => rw [joinPath_cons c (path_ne_nil hr), ← ih]; rfl

theorem mem_ownList {x : Node F} (hn : ∀ t, ((x.params t).map Prod.fst).Nodup) {n : Str} {t : Ty}
    {v : Val F t} : (n, (⟨t, v⟩ : (t : Ty) × Val F t)) ∈ ownList x ↔ M.find n (x.params t) = some v := by
  unfold ownList
  simp only [List.mem_flatMap, List.mem_map]
  constructor
  · rintro ⟨t', _, ⟨m, w⟩, hm, he⟩
    simp only [Prod.mk.injEq, Sigma.mk.injEq] at he
    obtain ⟨rfl, rfl, he⟩ := he
    cases he
    exact M.mem_find (hn t') hm
  · intro h
    exact ⟨t, by cases t <;> simp [tyOrder], (n, v), M.find_mem h, rfl⟩

section
variable {G : Str → Prop} {h : Heap F} {ps : List (List Str)} {S : Store F}

theorem anc_mem (R : Rel G h ps S) (p : List Str) (c : Str) : ∀ q : List Str,
    p ++ [c] ++ q ∈ ps → p ++ [c] ∈ ps := by
  intro q
  induction q using List.reverseRecOn with
  | nil => intro h; simpa using h
  | append_singleton q x ih =>
    intro hm
    apply ih
    apply R.par _ x
    simpa using hm

theorem mem_condensedAux (R : Rel G h ps S) :
    ∀ (fuel a : Nat) (p : List Str), ps[a]? = some p → h.length ≤ fuel + a →
    ∀ (n : Str) (t : Ty) (v : Val F t),
      (n, (⟨t, v⟩ : (t : Ty) × Val F t)) ∈ condensedAux h fuel a ↔
        ∃ q, q ≠ [] ∧ n = joinPath q ∧ S (p ++ q) t = some v := by
  intro fuel
  induction fuel with
  | zero =>
    intro a p ha hl
    have := R.len ▸ getElem?_lt ha
    omega
  | succ fuel ih =>
    intro a p ha hl n t v
    unfold condensedAux
    rw [List.mem_append, mem_ownList (R.nodupP a p ha), R.vals a p ha]
    simp only [List.mem_flatMap, List.mem_map]
    constructor
    · rintro (hv | ⟨⟨c, b⟩, hcb, ⟨m, ⟨t', w⟩⟩, hm, he⟩)
      · exact ⟨[n], by simp, rfl, hv⟩
      · simp only [Prod.mk.injEq, Sigma.mk.injEq] at he
        obtain ⟨rfl, rfl, he⟩ := he
        cases he
        have hf := M.mem_find (R.nodupC a p ha) hcb
        have hb := (R.link a p ha c b).1 hf
        have hlt := R.lt a p ha c b hf
        obtain ⟨q, hq, rfl, hS⟩ := (ih b _ hb (by omega) m t' w).1 hm
        exact ⟨c :: q, by simp, (joinPath_cons c hq).symm, by simpa using hS⟩
    · rintro ⟨q, hq, rfl, hS⟩
      obtain ⟨c, q, rfl⟩ := List.exists_cons_of_ne_nil hq
      by_cases hq' : q = []
      · subst hq'
        exact .inl hS
      · right
        obtain ⟨⟨p', n', h1, h2⟩, _⟩ := R.dom _ _ _ hS
        obtain ⟨q2, x, rfl⟩ : ∃ q2 x, q = q2 ++ [x] :=
          ⟨q.dropLast, q.getLast hq', (List.dropLast_append_getLast hq').symm⟩
        have e : p' = p ++ [c] ++ q2 := by
          have h3 : p ++ [c] ++ q2 ++ [x] = p' ++ [n'] := by rw [← h1]; simp
          exact (List.append_inj_left' h3 rfl).symm
        subst e
        have hpc := anc_mem R p c q2 h2
        obtain ⟨b, hb⟩ := List.mem_iff_getElem?.1 hpc
        have hf := (R.link a p ha c b).2 hb
        have hlt := R.lt a p ha c b hf
        refine ⟨(c, b), M.find_mem hf, (joinPath (q2 ++ [x]), ⟨t, v⟩), ?_, ?_⟩
        · exact (ih b _ hb (by omega) _ t v).2 ⟨q2 ++ [x], by simp, rfl, by simpa using hS⟩
        · simp only [Prod.mk.injEq, and_true]
          exact (joinPath_cons c (by simp)).symm

theorem mem_condensed (R : Rel G h ps S) {a : Nat} {p : List Str} (ha : ps[a]? = some p)
    (n : Str) (t : Ty) (v : Val F t) :
    (n, (⟨t, v⟩ : (t : Ty) × Val F t)) ∈ condensed h a ↔
      ∃ q, q ≠ [] ∧ n = joinPath q ∧ S (p ++ q) t = some v :=
  mem_condensedAux R h.length a p ha (by omega) n t v

/-- with good child names, the entries of the list are the values under the paths of their names. -/
theorem mem_condensed_good (R : Rel Good h ps S) {a : Nat} {p : List Str} (ha : ps[a]? = some p)
    {n : Str} {q : List Str} (hn : Path n q) (t : Ty) (v : Val F t) :
    (n, (⟨t, v⟩ : (t : Ty) × Val F t)) ∈ condensed h a ↔ S (p ++ q) t = some v := by
  rw [mem_condensed R ha]
  constructor
  · rintro ⟨q', hq', rfl, hS⟩
    obtain ⟨⟨p1, n1, h1, h2⟩, h3⟩ := R.dom _ _ _ hS
    obtain ⟨q2, x, rfl⟩ : ∃ q2 x, q' = q2 ++ [x] :=
      ⟨q'.dropLast, q'.getLast hq', (List.dropLast_append_getLast hq').symm⟩
    have e : p ++ q2 = p1 := List.append_inj_left' ((List.append_assoc ..).trans h1) rfl
    have hp : Path (joinPath (q2 ++ [x])) (q2 ++ [x]) :=
      path_join (fun c hc => R.del p1 h2 c (by rw [← e]; exact List.mem_append_right _ hc))
        (h3 x (by simp))
    rw [path_unique hn hp]
    exact hS
  · intro hS
    exact ⟨q, path_ne_nil hn, path_eq_join hn, hS⟩
end

/-! rebuilding -/

theorem put_get (S : Store F) (q q' : List Str) (t t' : Ty) (v : Val F t) (w : Val F t') :
    put S q t v q' t' = some w ↔
      (q' = q ∧ (⟨t, v⟩ : (t : Ty) × Val F t) = ⟨t', w⟩) ∨ (¬ (q' = q ∧ t = t') ∧ S q' t' = some w) := by
  unfold put
  by_cases h1 : q' = q
  · rw [if_pos h1]
    by_cases h2 : t = t'
    · subst h2
      rw [dif_pos rfl]
      simp [h1]
    · rw [dif_neg h2]
      simp [h1, h2]
  · rw [if_neg h1]; simp [h1]

/-- folding `Set…` over a list. -/
theorem ofList_rel (l : List (Param F)) :
    ∀ (h : Heap F) (ps : List (List Str)) (S : Store F), Rel NoDelim h ps S →
    ∃ ps' S', Rel NoDelim (l.foldl (fun h p => set h 0 p.1 p.2.1 p.2.2) h) ps' S' ∧
      ((∀ n q t v w, (n, (⟨t, v⟩ : (t : Ty) × Val F t)) ∈ l → Path n q →
          ∀ n', Path n' q → (n', (⟨t, w⟩ : (t : Ty) × Val F t)) ∈ l → v = w) →
        ∀ q t v, S' q t = some v ↔
          (∃ n, Path n q ∧ (n, (⟨t, v⟩ : (t : Ty) × Val F t)) ∈ l) ∨
          ((∀ n w, Path n q → (n, (⟨t, w⟩ : (t : Ty) × Val F t)) ∉ l) ∧ S q t = some v)) := by
  have g1 : ∀ c, NoDelim c → NoDelim c := fun _ h => h
  have g2 : ∀ c : Str, NoDelim (c ++ [':']) → NoDelim c := fun _ h => noDelim_of_append h
  induction l with
  | nil =>
    intro h ps S R
    exact ⟨ps, S, R, fun _ q t v => by simp⟩
  | cons x l ih =>
    intro h ps S R
    obtain ⟨n0, t0, v0⟩ := x
    obtain ⟨q0, hq0⟩ := path_exists n0
    obtain ⟨ps1, R1, _⟩ := set_rel g1 g2 hq0 t0 v0 R R.root
    obtain ⟨ps', S', R', hS⟩ := ih _ ps1 _ R1
    refine ⟨ps', S', R', ?_⟩
    intro hcons q t v
    rw [hS (fun n q t v w h1 h2 n' h3 h4 => hcons n q t v w (List.mem_cons_of_mem _ h1) h2 n' h3
      (List.mem_cons_of_mem _ h4)), put_get]
    rw [List.nil_append]
    constructor
    · rintro (⟨n, h1, h2⟩ | ⟨h1, (⟨rfl, h2⟩ | ⟨h2, h3⟩)⟩)
      · exact .inl ⟨n, h1, List.mem_cons_of_mem _ h2⟩
      · exact .inl ⟨n0, hq0, by rw [← h2]; simp⟩
      · refine .inr ⟨?_, h3⟩
        intro n w hn hm
        rcases List.mem_cons.1 hm with hm | hm
        · simp only [Prod.mk.injEq, Sigma.mk.injEq] at hm
          obtain ⟨rfl, rfl, _⟩ := hm
          exact h2 ⟨path_unique hn hq0, rfl⟩
        · exact h1 n w hn hm
    · rintro (⟨n, h1, h2⟩ | ⟨h1, h2⟩)
      · by_cases hx : ∃ n' w, Path n' q ∧ (n', (⟨t, w⟩ : (t : Ty) × Val F t)) ∈ l
        · obtain ⟨n', w, hp', hm'⟩ := hx
          have := hcons n q t v w h2 h1 n' hp' (List.mem_cons_of_mem _ hm')
          subst this
          exact .inl ⟨n', hp', hm'⟩
        · right
          refine ⟨fun n' w hp' hm' => hx ⟨n', w, hp', hm'⟩, ?_⟩
          left
          rcases List.mem_cons.1 h2 with hm | hm
          · simp only [Prod.mk.injEq] at hm
            obtain ⟨rfl, hm⟩ := hm
            exact ⟨path_unique h1 hq0, hm.symm⟩
          · exact absurd ⟨n, v, h1, hm⟩ hx
      · right
        refine ⟨fun n w hn hm => h1 n w hn (List.mem_cons_of_mem _ hm), .inr ⟨?_, h2⟩⟩
        rintro ⟨rfl, rfl⟩
        exact h1 n0 v0 hq0 (by simp)

theorem hist_good {ops : List (Op F)} {hs : List (List Str)} {S : Store F} (H : Hist ops hs S)
    (hcolon : ∀ hd n, Op.addChild hd n ∈ ops → n.getLast? ≠ some ':') :
    ∃ ps, Rel Good (run ops).1 ps S ∧ (run ops).2.length = hs.length ∧
      ∀ (i : Nat) (q : List Str), hs[i]? = some q →
        ∃ a : Nat, (run ops).2[i]? = some a ∧ ps[a]? = some q :=
  hist_rel (fun _ h => noDelim_of_append h) (fun _ h => h) H
    (fun hd n _ hm hp c hc =>
      (path_append hp (hcolon hd n hm) (.last _ noDelim_nil)).2.2 c (mem_childPath hc))

/-- **C38, contents.** After any history in which no child name ends in a colon, the condensed list of a
handle lists exactly the names, types and values that were set below it (the last value each). -/
theorem C38_contents {ops : List (Op F)} {hs : List (List Str)} {S : Store F} (H : Hist ops hs S)
    (hcolon : ∀ hd n, Op.addChild hd n ∈ ops → n.getLast? ≠ some ':')
    {i : Nat} {q : List Str} (hi : hs[i]? = some q) {n : Str} {p : List Str} (hp : Path n p)
    (t : Ty) (v : Val F t) :
    ∃ a : Nat, (run ops).2[i]? = some a ∧
      ((n, (⟨t, v⟩ : (t : Ty) × Val F t)) ∈ condensed (run ops).1 a ↔ S (q ++ p) t = some v) := by
  obtain ⟨ps, R, _, hh⟩ := hist_good H hcolon
  obtain ⟨a, ha, hpa⟩ := hh i q hi
  exact ⟨a, ha, mem_condensed_good R hpa hp t v⟩

/-- **C38, round trip.** After any history in which no child name ends in a colon, an object rebuilt from
the condensed list of a handle – in whatever order the hash maps delivered it – answers every read like
the original. -/
theorem C38_roundtrip {ops : List (Op F)} {hs : List (List Str)} {S : Store F} (H : Hist ops hs S)
    (hcolon : ∀ hd n, Op.addChild hd n ∈ ops → n.getLast? ≠ some ':')
    {i a : Nat} (ha : (run ops).2[i]? = some a) (l : List (Param F))
    (hl : l.Perm (condensed (run ops).1 a)) (n : Str) (t : Ty) (d : Val F t) :
    (get (ofList l) 0 n t d).2 = (get (run ops).1 a n t d).2 := by
  obtain ⟨ps, R, hlen, hh⟩ := hist_good H hcolon
  have hj : i < hs.length := hlen ▸ getElem?_lt ha
  obtain ⟨b, hb, hpa⟩ := hh i hs[i] (List.getElem?_eq_getElem hj)
  rw [ha] at hb; cases hb
  obtain ⟨p, hp⟩ := path_exists n
  obtain ⟨ps', S', R', hS⟩ := ofList_rel l _ _ _ (rel_fresh (F := F) NoDelim)
  have hmem : ∀ n q t v, Path n q →
      ((n, (⟨t, v⟩ : (t : Ty) × Val F t)) ∈ l ↔ S (hs[i] ++ q) t = some v) := by
    intro n q t v hq
    rw [hl.mem_iff]; exact mem_condensed_good R hpa hq t v
  have hS' := hS (by
    intro n q t v w h1 h2 n' h3 h4
    rw [hmem n q t v h2] at h1
    rw [hmem n' q t w h3] at h4
    rw [h1] at h4; exact Option.some.inj h4)
  have e : S' p t = S (hs[i] ++ p) t := by
    apply Option.ext
    intro v
    rw [hS']
    constructor
    · rintro (⟨m, h1, h2⟩ | ⟨_, h⟩)
      · exact (hmem m p t v h1).1 h2
      · cases h
    · intro h
      exact .inl ⟨n, hp, (hmem n p t v hp).2 h⟩
  unfold get ofList
  rw [(getRec_rel (fun _ h => h) (fun _ h => noDelim_of_append h) hp t R' R'.root).2,
    (getRec_rel (fun _ h => noDelim_of_append h) (fun _ h => h) hp t R hpa).2]
  simp [e]

/-- **C38, violation.** With a child name ending in a colon the rebuilt object differs: after
`AddChild("A:")->SetInt("B", 3)` the root answers the default for `"A:::B"`, the rebuilt one answers 3. -/
theorem C38_trailing_colon :
    let ops : List (Op F) := [.addChild 0 "A:".toList, .set 1 "B".toList .int (3 : Int)]
    (get (run ops).1 0 "A:::B".toList .int (7 : Int)).2 = (7 : Int) ∧
    ∀ l : List (Param F), l.Perm (condensed (run ops).1 0) →
      (get (ofList l) 0 "A:::B".toList .int (7 : Int)).2 = (3 : Int) := by
  intro ops
  refine ⟨?_, ?_⟩
  · obtain ⟨_, _, _, h⟩ := C37_trailing_colon (F := F)
    exact h
  intro l hl
  have pA : Path "A:".toList ["A:".toList] := .last _ (findDelim_none.1 (by decide))
  have pB : Path "B".toList ["B".toList] := .last _ (findDelim_none.1 (by decide))
  have pAB : Path "A:::B".toList ["A".toList, ":B".toList] :=
    .cons "A".toList ":B".toList _ (findDelim_none.1 (by decide)) (.last _ (findDelim_none.1 (by decide)))
  have H0 : Hist (F := F) [] [[]] _ := .nil
  have H1 := Hist.addChild 0 "A:".toList H0 rfl pA
  have H2 := Hist.set 1 "B".toList .int (3 : Int) H1 rfl pB
  obtain ⟨ps, R, _, _⟩ := hist_rel' H2
  have hmem : ∀ n t (v : Val F t), (n, (⟨t, v⟩ : (t : Ty) × Val F t)) ∈ l ↔
      (n = "A:::B".toList ∧ (⟨.int, (3 : Int)⟩ : (t : Ty) × Val F t) = ⟨t, v⟩) := by
    intro n t v
    rw [hl.mem_iff]
    refine (mem_condensed R R.root n t v).trans ?_
    constructor
    · rintro ⟨q, _, rfl, h⟩
      rcases (put_get _ _ _ _ _ _ _).1 h with ⟨rfl, h2⟩ | ⟨_, h2⟩
      · exact ⟨rfl, h2⟩
      · cases h2
    · rintro ⟨rfl, h⟩
      exact ⟨["A:".toList, "B".toList], by simp, rfl, (put_get _ _ _ _ _ _ _).2 (.inl ⟨rfl, h⟩)⟩
  obtain ⟨ps', S', R', hS⟩ := ofList_rel l _ _ _ (rel_fresh (F := F) NoDelim)
  have hS' := (hS (by
    intro n q t v w h1 _ n' _ h4
    obtain ⟨_, h1⟩ := (hmem _ _ _).1 h1
    obtain ⟨_, h4⟩ := (hmem _ _ _).1 h4
    have := h1.symm.trans h4
    simpa using this) ["A".toList, ":B".toList] .int (3 : Int)).2
      (.inl ⟨_, pAB, (hmem _ _ _).2 ⟨rfl, rfl⟩⟩)
  unfold get ofList
  rw [(getRec_rel (fun _ h => h) (fun _ h => noDelim_of_append h) pAB .int R' R'.root).2]
  show (S' ([] ++ ["A".toList, ":B".toList]) .int).getD (7 : Int) = (3 : Int)
  rw [List.nil_append, hS']; rfl

/-! equality -/

theorem ownList_keys_nodup {x : Node F} (hn : ∀ t, ((x.params t).map Prod.fst).Nodup) :
    ((ownList x).map (fun p => (p.1, p.2.1))).Nodup := by
  unfold ownList
  rw [List.map_flatMap, List.nodup_flatMap]
  constructor
  · intro t _
    rw [List.map_map]
    have : ((fun p : Param F => (p.1, p.2.1)) ∘ fun p : Str × Val F t => (p.1, (⟨t, p.2⟩ : (t : Ty) × Val F t)))
        = (fun s => (s, t)) ∘ Prod.fst := by funext p; rfl
    rw [this, ← List.map_map]
    exact (hn t).map (fun a b h => (Prod.mk.inj h).1)
  · have : tyOrder.Nodup := by decide
    refine this.imp ?_
    intro t t' hne
    show List.Disjoint _ _
    intro p h1 h2
    simp only [List.map_map, List.mem_map, Function.comp] at h1 h2
    obtain ⟨_, _, rfl⟩ := h1
    obtain ⟨_, _, h⟩ := h2
    exact hne (Prod.mk.inj h).2.symm

theorem condensedAux_keys_nodup {h : Heap F} {ps : List (List Str)} {S : Store F} (R : Rel Good h ps S) :
    ∀ (fuel a : Nat) (p : List Str), ps[a]? = some p → h.length ≤ fuel + a →
      ((condensedAux h fuel a).map (fun p => (p.1, p.2.1))).Nodup := by
  intro fuel
  induction fuel with
  | zero => intro a p _ _; simp [condensedAux]
  | succ fuel ih =>
    intro a p ha hl
    unfold condensedAux
    rw [List.map_append, List.nodup_append]
    have hchild : ∀ cb ∈ (node h a).childs, ps[cb.2]? = some (p ++ [cb.1]) ∧ a < cb.2 := by
      rintro ⟨c, b⟩ hcb
      have hf := M.mem_find (R.nodupC a p ha) hcb
      exact ⟨(R.link a p ha c b).1 hf, R.lt a p ha c b hf⟩
    have hgood : ∀ cb ∈ (node h a).childs, Good cb.1 := by
      intro cb hcb
      exact R.del _ (List.mem_iff_getElem?.2 ⟨_, (hchild cb hcb).1⟩) _ (by simp)
    refine ⟨ownList_keys_nodup (R.nodupP a p ha), ?_, ?_⟩
    · rw [List.map_flatMap, List.nodup_flatMap]
      constructor
      · rintro ⟨c, b⟩ hcb
        rw [List.map_map]
        have : ((fun p : Param F => (p.1, p.2.1)) ∘ fun p : Param F => (c ++ "::".toList ++ p.1, p.2))
            = (fun k : Str × Ty => (c ++ "::".toList ++ k.1, k.2)) ∘ (fun p : Param F => (p.1, p.2.1)) := by
          funext p; rfl
        rw [this, ← List.map_map]
        have hb := hchild _ hcb
        have hlt : a < b := hb.2
        refine (ih b _ hb.1 (by omega)).map ?_
        rintro ⟨x, t⟩ ⟨y, t'⟩ hxy
        simp only [Prod.mk.injEq] at hxy
        rw [List.append_cancel_left hxy.1, hxy.2]
      · have hnd : ((node h a).childs).Pairwise (fun x y => x.1 ≠ y.1) :=
          List.pairwise_map.1 (R.nodupC a p ha)
        refine (List.Pairwise.and_mem.1 hnd).imp ?_
        rintro ⟨c, b⟩ ⟨c', b'⟩ ⟨hm, hm', hne⟩
        show List.Disjoint _ _
        intro k h1 h2
        simp only [List.map_map, List.mem_map, Function.comp] at h1 h2
        obtain ⟨x, _, rfl⟩ := h1
        obtain ⟨y, _, he⟩ := h2
        have e := (Prod.mk.inj he).1
        have f1 := (findDelim_some (b := x.1)).2 ⟨rfl, hgood _ hm⟩
        have f2 := (findDelim_some (b := y.1)).2 ⟨rfl, hgood _ hm'⟩
        have e' : c' ++ [':', ':'] ++ y.1 = c ++ [':', ':'] ++ x.1 := e
        simp only at f1 f2
        rw [e'] at f2
        rw [f1] at f2
        exact hne (Prod.mk.inj (Option.some.inj f2)).1
    · intro k h1 k' h2 he
      subst he
      simp only [List.mem_map, List.mem_flatMap] at h1 h2
      obtain ⟨⟨n, t, v⟩, hx, rfl⟩ := h1
      obtain ⟨y, ⟨⟨c, b⟩, hcb, z, hz, rfl⟩, hy⟩ := h2
      have := (Prod.mk.inj hy).1
      rw [mem_ownList (R.nodupP a p ha), R.vals a p ha] at hx
      have hnd := (R.dom _ _ _ hx).2 n (by simp)
      exact hnd ⟨c, z.1, this⟩

theorem condensed_nodup {h : Heap F} {ps : List (List Str)} {S : Store F} (R : Rel Good h ps S)
    {a : Nat} {p : List Str} (ha : ps[a]? = some p) :
    ((condensed h a).map (fun p => (p.1, p.2.1))).Nodup :=
  condensedAux_keys_nodup R h.length a p ha (by omega)

/-- **C38, no duplicates.** Every (name, type) occurs at most once in the condensed list. -/
theorem C38_nodup {ops : List (Op F)} {hs : List (List Str)} {S : Store F} (H : Hist ops hs S)
    (hcolon : ∀ hd n, Op.addChild hd n ∈ ops → n.getLast? ≠ some ':')
    {i a : Nat} (ha : (run ops).2[i]? = some a) :
    ((condensed (run ops).1 a).map (fun p => (p.1, p.2.1))).Nodup := by
  obtain ⟨ps, R, hlen, hh⟩ := hist_good H hcolon
  have hj : i < hs.length := hlen ▸ getElem?_lt ha
  obtain ⟨b, hb, hpa⟩ := hh i hs[i] (List.getElem?_eq_getElem hj)
  rw [ha] at hb; cases hb
  exact condensed_nodup R hpa

theorem eqLoop_true [DecidableEq ((t : Ty) × Val F t)] :
    ∀ l k : List (Param F), l.length = k.length → (eqLoop l k = true ↔ l = k) := by
  intro l
  induction l with
  | nil => intro k hk; cases k with
    | nil => simp [eqLoop]
    | cons q k => simp at hk
  | cons p l ih =>
    intro k hk
    cases k with
    | nil => simp at hk
    | cons q k =>
      unfold eqLoop
      have := ih k (by simpa using hk)
      by_cases h : p.1 ≠ q.1 ∨ p.2 ≠ q.2
      · rw [if_pos h]
        have : p ≠ q := by rintro rfl; simp at h
        simp [this]
      · rw [if_neg h, this]
        push Not at h
        have : p = q := Prod.ext h.1 h.2
        simp [this]

theorem paramsEq_true [DecidableEq ((t : Ty) × Val F t)] (l k : List (Param F)) :
    paramsEq l k = true ↔ l = k := by
  unfold paramsEq
  by_cases h : l.length ≠ k.length
  · rw [if_pos h]
    have : l ≠ k := by rintro rfl; exact h rfl
    simp [this]
  · rw [if_neg h]
    push Not at h
    exact eqLoop_true l k h

/-- **C70, soundness of `==`.** Whenever two parameter objects (each after any history, no child name
ending in a colon) compare equal, they answer every read alike. -/
theorem C70_eq_sound [DecidableEq ((t : Ty) × Val F t)]
    {ops ops' : List (Op F)} {hs hs' : List (List Str)} {S S' : Store F} (H : Hist ops hs S)
    (H' : Hist ops' hs' S')
    (hcolon : ∀ hd n, Op.addChild hd n ∈ ops → n.getLast? ≠ some ':')
    (hcolon' : ∀ hd n, Op.addChild hd n ∈ ops' → n.getLast? ≠ some ':')
    {i i' a a' : Nat} (ha : (run ops).2[i]? = some a) (ha' : (run ops').2[i']? = some a')
    (l l' : List (Param F)) (hl : l.Perm (condensed (run ops).1 a))
    (hl' : l'.Perm (condensed (run ops').1 a')) (heq : paramsEq l l' = true)
    (n : Str) (t : Ty) (d : Val F t) :
    (get (run ops).1 a n t d).2 = (get (run ops').1 a' n t d).2 := by
  rw [paramsEq_true] at heq
  subst heq
  rw [← C38_roundtrip H hcolon ha l hl, ← C38_roundtrip H' hcolon' ha' l hl']

theorem val_nontrivial [Nontrivial F] (t : Ty) : ∃ x y : Val F t, x ≠ y := by
  obtain ⟨x, y, h⟩ := exists_pair_ne F
  cases t with
  | bool => exact ⟨true, false, fun h => Bool.noConfusion (show true = false from h)⟩
  | real => exact ⟨x, y, h⟩
  | int => exact ⟨(0 : Int), (1 : Int), fun h => absurd (show (0 : Int) = 1 from h) (by decide)⟩
  | str => exact ⟨([] : Str), (['a'] : Str), fun h => absurd (show ([] : Str) = ['a'] from h) (by simp)⟩
  | listListFloat =>
    exact ⟨([] : List (List F)), ([[]] : List (List F)),
      fun h => absurd (show ([] : List (List F)) = [[]] from h) (by simp)⟩
  | listFloat =>
    exact ⟨([] : List F), ([x] : List F), fun h => absurd (show ([] : List F) = [x] from h) (by simp)⟩

/-- **C70, completeness of `==`.** If two parameter objects answer every read alike and none uses one
name with two types, they compare equal: the comparison succeeds for every result of sorting the two
condensed lists by name. (With a name used for two types the order within equal names, and therefore
the result, is left open by `std::sort`.) -/
theorem C70_eq_complete [Nontrivial F] [DecidableEq ((t : Ty) × Val F t)] (le : Str → Str → Prop)
    (anti : ∀ x y, le x y → le y x → x = y)
    {ops ops' : List (Op F)} {hs hs' : List (List Str)} {S S' : Store F} (H : Hist ops hs S)
    (H' : Hist ops' hs' S')
    (hcolon : ∀ hd n, Op.addChild hd n ∈ ops → n.getLast? ≠ some ':')
    (hcolon' : ∀ hd n, Op.addChild hd n ∈ ops' → n.getLast? ≠ some ':')
    {i i' a a' : Nat} (ha : (run ops).2[i]? = some a) (ha' : (run ops').2[i']? = some a')
    (l l' : List (Param F)) (hl : l.Perm (condensed (run ops).1 a))
    (hl' : l'.Perm (condensed (run ops').1 a'))
    (hsort : l.Pairwise (fun x y => le x.1 y.1)) (hsort' : l'.Pairwise (fun x y => le x.1 y.1))
    (huniq : ∀ x ∈ l, ∀ y ∈ l, x.1 = y.1 → x.2.1 = y.2.1)
    (hget : ∀ (n : Str) (t : Ty) (d : Val F t),
      (get (run ops).1 a n t d).2 = (get (run ops').1 a' n t d).2) :
    paramsEq l l' = true := by
  rw [paramsEq_true]
  obtain ⟨ps, R, hlen, hh⟩ := hist_good H hcolon
  obtain ⟨b, hb, hpa⟩ := hh i _ (List.getElem?_eq_getElem (hlen ▸ getElem?_lt ha))
  rw [ha] at hb; cases hb
  obtain ⟨ps', R', hlen', hh'⟩ := hist_good H' hcolon'
  obtain ⟨b, hb, hpa'⟩ := hh' i' _ (List.getElem?_eq_getElem (hlen' ▸ getElem?_lt ha'))
  rw [ha'] at hb; cases hb
  have key : ∀ n t (v : Val F t), (n, (⟨t, v⟩ : (t : Ty) × Val F t)) ∈ condensed (run ops).1 a ↔
      (n, (⟨t, v⟩ : (t : Ty) × Val F t)) ∈ condensed (run ops').1 a' := by
    intro n t v
    obtain ⟨p, hp⟩ := path_exists n
    rw [mem_condensed_good R hpa hp, mem_condensed_good R' hpa' hp]
    have hg : ∀ d : Val F t, (S (hs[i]'(hlen ▸ getElem?_lt ha) ++ p) t).getD d =
        (S' (hs'[i']'(hlen' ▸ getElem?_lt ha') ++ p) t).getD d := by
      intro d
      have := hget n t d
      unfold get at this
      rw [(getRec_rel (fun _ h => noDelim_of_append h) (fun _ h => h) hp t R hpa).2,
        (getRec_rel (fun _ h => noDelim_of_append h) (fun _ h => h) hp t R' hpa').2] at this
      exact this
    obtain ⟨x, y, hxy⟩ := val_nontrivial (F := F) t
    have h1 := hg x
    have h2 := hg y
    generalize S (hs[i]'(hlen ▸ getElem?_lt ha) ++ p) t = A at *
    generalize S' (hs'[i']'(hlen' ▸ getElem?_lt ha') ++ p) t = B at *
    cases A <;> cases B <;> simp_all
  have hperm : l.Perm l' := by
    refine hl.trans (List.Perm.trans ?_ hl'.symm)
    refine (List.perm_ext_iff_of_nodup ?_ ?_).2 ?_
    · exact (condensed_nodup R hpa).of_map _
    · exact (condensed_nodup R' hpa').of_map _
    · rintro ⟨n, t, v⟩; exact key n t v
  have hk : (l.map (fun p => (p.1, p.2.1))).Nodup :=
    (hl.map _).nodup_iff.2 (condensed_nodup R hpa)
  refine List.Perm.eq_of_pairwise ?_ hsort hsort' hperm
  intro x y hx hy h1 h2
  have e := anti _ _ h1 h2
  have hy' : y ∈ l := hperm.mem_iff.2 hy
  have e2 := huniq x hx y hy' e
  exact List.inj_on_of_nodup_map hk hx hy' (Prod.ext e e2)

/-- **C71.** After any history, setting a distribution type under a name not ending in a colon and then
asking for the distribution under that name – with any default – yields the type that was set, and the
parameter object handed to the distribution answers every read `m` like the parent answers `n::m`. -/
theorem C71_distribution {ops : List (Op F)} {hs : List (List Str)} {S : Store F} (H : Hist ops hs S)
    {i a : Nat} (ha : (run ops).2[i]? = some a) (n ty dflt : Str) (hl : n.getLast? ≠ some ':')
    (m : Str) (t : Ty) (d : Val F t) :
    let h := setDistribution (run ops).1 a n ty
    let r := getDistribution h a n dflt
    r.2.1 = ty ∧ (get r.1 r.2.2 m t d).2 = (get h a (n ++ [':', ':'] ++ m) t d).2 := by
  intro h r
  have g1 : ∀ c, NoDelim c → NoDelim c := fun _ h => h
  have g2 : ∀ c : Str, NoDelim (c ++ [':']) → NoDelim c := fun _ h => noDelim_of_append h
  obtain ⟨ps, R, hlen, hh⟩ := hist_rel' H
  obtain ⟨b, hb, hpa⟩ := hh i _ (List.getElem?_eq_getElem (hlen ▸ getElem?_lt ha))
  rw [ha] at hb; cases hb
  obtain ⟨p, hp⟩ := path_exists n
  obtain ⟨q, hq⟩ := path_exists m
  have hD : Path "DistributionType".toList ["DistributionType".toList] :=
    .last _ (findDelim_none.1 (by decide))
  obtain ⟨hnD, hcp, _⟩ := path_append hp hl hD
  obtain ⟨hnm, _, _⟩ := path_append hp hl hq
  have hname : n ++ "::DistributionType".toList = n ++ [':', ':'] ++ "DistributionType".toList := by
    rw [List.append_assoc]; rfl
  obtain ⟨ps1, R1, pre1⟩ := set_rel g1 g2 hnD .str ty R hpa
  rw [← hname] at R1 hnD
  have hpa1 := prefix_get pre1 hpa
  obtain ⟨⟨ps2, R2, pre2⟩, hv⟩ := getRec_rel g1 g2 hnD .str R1 hpa1
  obtain ⟨ps3, R3, pre3, hc⟩ := addChild_rel hp g2
    (fun c hc => path_noDelim hp c (mem_childPath hc)) R2 (prefix_get pre2 hpa1)
  rw [hcp] at hc
  constructor
  · show ((getRec h a (n ++ "::DistributionType".toList) .str).2).getD dflt = ty
    have : (getRec h a (n ++ "::DistributionType".toList) .str).2 = some ty := by
      refine hv.trans ?_
      exact (put_get _ _ _ _ _ _ _).2 (.inl ⟨rfl, rfl⟩)
    rw [this]; rfl
  · show ((getRec _ _ m t).2).getD d = ((getRec h a (n ++ [':', ':'] ++ m) t).2).getD d
    rw [show (getRec h a (n ++ [':', ':'] ++ m) t).2 = _ from (getRec_rel g1 g2 hnm t R1 hpa1).2]
    rw [show (getRec r.1 r.2.2 m t).2 = _ from (getRec_rel g1 g2 hq t R3 hc).2, List.append_assoc]

/-- Non-vacuity: a history through two handles, with nested names, two types under one path, an
overwritten value and a read that creates a child. -/
example : ∃ (hs : List (List Str)) (S : Store Int),
    Hist [.addChild 0 "A".toList, .set 1 "B::C".toList .int (3 : Int),
      .set 0 "A::B::C".toList .bool true, .set 0 "A::B::C".toList .int (4 : Int),
      .get 0 "X::Y".toList .real (0 : Int)] hs S ∧
    (∀ hd n, (Op.addChild hd n : Op Int) ∈ [.addChild 0 "A".toList, .set 1 "B::C".toList .int (3 : Int),
      .set 0 "A::B::C".toList .bool true, .set 0 "A::B::C".toList .int (4 : Int),
      .get 0 "X::Y".toList .real (0 : Int)] → n.getLast? ≠ some ':') ∧
    S ["A".toList, "B".toList, "C".toList] .int = some (4 : Int) ∧
    S ["A".toList, "B".toList, "C".toList] .bool = some true ∧
    S ["X".toList, "Y".toList] .real = none := by
  have pA : Path "A".toList ["A".toList] := .last _ (findDelim_none.1 (by decide))
  have pBC : Path "B::C".toList ["B".toList, "C".toList] :=
    .cons "B".toList "C".toList _ (findDelim_none.1 (by decide)) (.last _ (findDelim_none.1 (by decide)))
  have pABC : Path "A::B::C".toList ["A".toList, "B".toList, "C".toList] :=
    .cons "A".toList "B::C".toList _ (findDelim_none.1 (by decide)) pBC
  have H0 : Hist (F := Int) [] [[]] _ := .nil
  have H1 := Hist.addChild 0 "A".toList H0 rfl pA
  have H2 := Hist.set 1 "B::C".toList .int (3 : Int) H1 rfl pBC
  have H3 := Hist.set 0 "A::B::C".toList .bool true H2 rfl pABC
  have H4 := Hist.set 0 "A::B::C".toList .int (4 : Int) H3 rfl pABC
  have H5 := Hist.get 0 "X::Y".toList .real (0 : Int) H4 rfl
  refine ⟨_, _, H5, ?_, rfl, rfl, rfl⟩
  intro hd n hm
  simp at hm
  rw [hm.2]; decide

end Bark.Par
