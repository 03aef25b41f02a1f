import Verif.Spec.Pickle
import Verif.Props.Goals
import Verif.Props.PyConv

/-!
C100–C103: pickling.
-/
namespace Bark.Pickle
open Bark

/-! ### C101: goals -/

section goals
variable {A : Type}
open Goal

/-- the conditions of stored goals; helper relation for the proofs -/
inductive Leaves : List (GoalState A) → List (A → Bool) → Prop
  | nil : Leaves [] []
  | leaf {p ts ps} : Leaves ts ps → Leaves (.leaf p :: ts) (p :: ps)
  | seq {qs ts ps₁ ps₂} : qs ≠ [] → Leaves qs ps₁ → Leaves ts ps₂ →
      Leaves (.seq qs :: ts) (ps₁ ++ ps₂)

theorem get_leaves {h : Heap A} {gs : List Nat} {ps : List (A → Bool)} (H : Spec.Conditions h gs ps) :
    ∃ n, ∀ fuel, n ≤ fuel → ∃ ts, gs.mapM (goalGet h fuel) = .ok ts ∧ Leaves ts ps ∧
      ts.length = gs.length := by
  induction H with
  | nil => exact ⟨0, fun fuel _ => ⟨[], rfl, .nil, rfl⟩⟩
  | @leaf g gs p ps hg _ ih =>
    obtain ⟨n, ih⟩ := ih
    refine ⟨n + 1, fun fuel hf => ?_⟩
    obtain ⟨ts, h1, h2, h3⟩ := ih fuel (by omega)
    obtain ⟨m, rfl⟩ : ∃ m, fuel = m + 1 := ⟨fuel - 1, by omega⟩
    refine ⟨.leaf p :: ts, ?_, .leaf h2, by simp [h3]⟩
    rw [List.mapM_cons, h1]
    simp [goalGet, hg]
    rfl
  | @seq g last subs gs ps₁ ps₂ hg hne _ _ ih1 ih2 =>
    obtain ⟨n1, ih1⟩ := ih1
    obtain ⟨n2, ih2⟩ := ih2
    refine ⟨n1 + n2 + 1, fun fuel hf => ?_⟩
    obtain ⟨m, rfl⟩ : ∃ m, fuel = m + 1 := ⟨fuel - 1, by omega⟩
    obtain ⟨qs, a1, a2, a3⟩ := ih1 m (by omega)
    obtain ⟨ts, b1, b2, b3⟩ := ih2 (m + 1) (by omega)
    refine ⟨.seq qs :: ts, ?_, .seq ?_ a2 b2, by simp [b3]⟩
    · rw [List.mapM_cons, b1]
      have : goalGet h (m + 1) g = .ok (.seq qs) := by
        unfold goalGet
        rw [hg]
        simp only [a1, Res.ok_bind]
      rw [this]
      rfl
    · rintro rfl
      exact hne (List.length_eq_zero_iff.mp a3.symm)

theorem set_plan {ts : List (GoalState A)} {ps : List (A → Bool)} (H : Leaves ts ps) :
    ∀ h : Heap A, h <+: (goalSetAll ts h).1 ∧ (goalSetAll ts h).2.length = ts.length ∧
      ∃ f, (∀ h', (goalSetAll ts h).1 <+: h' → Spec.Plan h' (goalSetAll ts h).2 f ps) ∧
        ∀ a ∈ f, h.length ≤ a ∧ a < (goalSetAll ts h).1.length := by
  induction H with
  | nil =>
    intro h
    exact ⟨by simp [goalSetAll], by simp [goalSetAll], [], fun _ _ => .nil, by simp⟩
  | @leaf p ts ps _ ih =>
    intro h
    obtain ⟨a, b, f, c, d⟩ := ih (h ++ [.leaf p])
    simp only [goalSetAll, goalSet]
    refine ⟨(List.prefix_append h _).trans a, by simp [b], f, ?_, ?_⟩
    · intro h' hp
      refine .leaf ?_ (c h' hp)
      obtain ⟨s, hs⟩ := a.trans hp
      rw [← hs, List.append_assoc]
      simp
    · intro x hx
      have := d x hx
      simp at this
      omega
  | @seq qs ts ps₁ ps₂ hne _ _ ih1 ih2 =>
    intro h
    obtain ⟨a1, b1, f1, c1, d1⟩ := ih1 h
    obtain ⟨a2, b2, f2, c2, d2⟩ := ih2 ((goalSetAll qs h).1 ++ [.seq (goalSetAll qs h).2 (-1)])
    simp only [goalSetAll, goalSet]
    have hl : h.length ≤ (goalSetAll qs h).1.length := a1.length_le
    have hl2 := a2.length_le
    simp only [List.length_append, List.length_singleton] at hl2
    refine ⟨(a1.trans (List.prefix_append _ _)).trans a2, by simp [b2],
      (goalSetAll qs h).1.length :: f1 ++ f2, ?_, ?_⟩
    · intro h' hp
      have e : h'[(goalSetAll qs h).1.length]? = some (.seq (goalSetAll qs h).2 (-1)) := by
        obtain ⟨s, hs⟩ := a2.trans hp
        rw [← hs, List.append_assoc]
        simp
      refine .seq (done := 0) (by simpa using e) ?_ ?_ (c2 h' hp) ?_ ?_
      · rw [b1]; exact List.length_pos_iff.mpr hne
      · rw [List.drop_zero]
        exact c1 h' (((List.prefix_append _ _).trans a2).trans hp)
      · intro hx
        have := d1 _ hx
        omega
      · intro x hx hx2
        have h2 := d2 _ hx2
        simp only [List.length_append, List.length_singleton] at h2
        rcases List.mem_cons.mp hx with rfl | hx
        · omega
        · have := d1 _ hx
          omega
    · intro x hx
      simp only [List.cons_append, List.mem_cons, List.mem_append] at hx
      rcases hx with rfl | hx | hx
      · omega
      · have := d1 _ hx
        omega
      · have h2 := d2 _ hx
        simp only [List.length_append, List.length_singleton] at h2
        omega

theorem round_plan {h : Heap A} {g : Nat} {ps : List (A → Bool)} (H : Spec.Conditions h [g] ps) :
    ∃ n, ∀ fuel, n ≤ fuel → ∃ h' g', goalRound fuel h g = .ok (h', g') ∧ h <+: h' ∧ h.length ≤ g' ∧
      ∃ f, Spec.Plan h' [g'] f ps ∧
        ((∃ subs last, h[g]? = some (.seq subs last)) → ∃ subs', h'[g']? = some (.seq subs' (-1))) := by
  obtain ⟨n, hn⟩ := get_leaves H
  refine ⟨n, fun fuel hf => ?_⟩
  obtain ⟨ts, h1, h2, h3⟩ := hn fuel hf
  obtain ⟨t, rfl⟩ : ∃ t, ts = [t] := by
    match ts, h3 with
    | [t], _ => exact ⟨t, rfl⟩
  have hg : goalGet h fuel g = .ok t := by
    rw [List.mapM_cons] at h1
    obtain ⟨t1, e1, h1⟩ := Res.bind_ok h1
    simp only [List.mapM_nil] at h1
    have : [t1] = [t] := by
      simpa [Pure.pure, Except.pure, Bind.bind, Except.bind] using h1
    rw [e1]
    simp at this
    rw [this]
  obtain ⟨a, b, f, c, d⟩ := set_plan h2 h
  have e : goalSetAll [t] h = ((goalSet t h).1, [(goalSet t h).2]) := by simp [goalSetAll]
  rw [e] at a c d
  refine ⟨(goalSet t h).1, (goalSet t h).2, ?_, a, ?_, f, c _ (List.prefix_refl _), ?_⟩
  · unfold goalRound
    rw [hg, Res.ok_bind]
  · cases t with
    | leaf p => simp [goalSet]
    | seq qs =>
      have : h <+: (goalSetAll qs h).1 := by
        cases h2 with
        | seq _ hq _ => exact (set_plan hq h).1
      simp only [goalSet]
      exact this.length_le
  · rintro ⟨subs, last, hs⟩
    cases fuel with
    | zero => simp [goalGet] at hg
    | succ m =>
      unfold goalGet at hg
      rw [hs] at hg
      obtain ⟨qs, _, hg⟩ := Res.bind_ok hg
      cases hg
      refine ⟨(goalSetAll qs h).2, ?_⟩
      simp [goalSet]

/-- **C101** (restored sequences).  Pickling a sequential goal (built of simple goals and sequences of any
depth) and unpickling it yields a new goal that leaves all existing goals alone and asks for all simple
conditions again, whatever the original had met: every query is answered true exactly if the conditions
have been met in order since unpickling. -/
theorem C101_restored {h : Heap A} {g : Nat} {subs : List Nat} {last : Int} {ps : List (A → Bool)}
    (hg : h[g]? = some (.seq subs last)) (H : Spec.Conditions h [g] ps) :
    ∃ n, ∀ fuel, n ≤ fuel → ∃ h' g', goalRound fuel h g = .ok (h', g') ∧ h.length ≤ g' ∧
      (∀ a : Nat, a < h.length → h'[a]? = h[a]?) ∧
      ∀ xs : List A, ∃ m, ∀ fuel', m ≤ fuel' → ∃ h'' rs, queries fuel' g' xs h' = .ok (h'', rs) ∧
        rs.length = xs.length ∧
        ∀ i, i < xs.length → (rs[i]? = some true ↔ Spec.MetInOrder ps (xs.take (i + 1))) := by
  obtain ⟨n, hn⟩ := round_plan H
  refine ⟨n, fun fuel hf => ?_⟩
  obtain ⟨h', g', a, b, c, f, d, e⟩ := hn fuel hf
  obtain ⟨subs', e⟩ := e ⟨subs, last, hg⟩
  refine ⟨h', g', a, c, fun x hx => ?_, fun xs => C39_in_order e d xs⟩
  obtain ⟨s, rfl⟩ := b
  simp [List.getElem?_append, hx]

/-- A nested goal meeting the hypotheses: ((p, q) already met, r). -/
example (p q r : Nat → Bool) : Spec.Conditions
    [Obj.leaf p, .leaf q, .leaf r, .seq [0, 1] 1, .seq [3, 2] 0] [4] [p, q, r] :=
  .seq (ps₁ := [p, q, r]) (ps₂ := []) rfl (by simp)
    (.seq (ps₁ := [p, q]) (ps₂ := [r]) rfl (by simp) (.leaf rfl (.leaf rfl .nil)) (.leaf rfl .nil)) .nil

/-- **C101** (simple goals).  A simple goal answers after unpickling as before. -/
theorem C101_simple (h : Heap A) (g : Nat) (p : A → Bool) (hg : h[g]? = some (.leaf p)) (fuel : Nat) :
    ∃ h' g', goalRound (fuel + 1) h g = .ok (h', g') ∧ (∀ a : Nat, a < h.length → h'[a]? = h[a]?) ∧
      ∀ x, (atGoal x (fuel + 1) h g).map Prod.snd = .ok (p x) ∧
        (atGoal x (fuel + 1) h' g').map Prod.snd = .ok (p x) := by
  refine ⟨h ++ [.leaf p], h.length, ?_, fun a ha => by simp [List.getElem?_append, ha], fun x => ⟨?_, ?_⟩⟩
  · simp [goalRound, goalGet, hg, Bind.bind, Except.bind, goalSet]
  · simp [atGoal, hg, Except.map]
  · simp [atGoal, Except.map]

/-- **C101** holds for goals nothing of which has been met: original and restored goal answer every query
history alike. -/
theorem C101_unstarted {h : Heap A} {g : Nat} {subs f : List Nat} {last : Int}
    {ps : List (A → Bool)} (hg : h[g]? = some (.seq subs last)) (H : Spec.Conditions h [g] ps)
    (hu : Spec.Plan h [g] f ps) :
    ∃ n, ∀ fuel, n ≤ fuel → ∃ h' g', goalRound fuel h g = .ok (h', g') ∧
      ∀ xs : List A, ∃ m, ∀ fuel', m ≤ fuel' → ∃ h1 h2 rs,
        queries fuel' g xs h = .ok (h1, rs) ∧ queries fuel' g' xs h' = .ok (h2, rs) := by
  obtain ⟨n, hn⟩ := C101_restored hg H
  refine ⟨n, fun fuel hf => ?_⟩
  obtain ⟨h', g', a, b, c, d⟩ := hn fuel hf
  refine ⟨h', g', a, fun xs => ?_⟩
  obtain ⟨m, hm⟩ := d xs
  obtain ⟨m1, hm1⟩ := C39_in_order hg hu xs
  refine ⟨m + m1, fun fuel' hf' => ?_⟩
  obtain ⟨h2, rs, q, l, r⟩ := hm fuel' (by omega)
  obtain ⟨h1, rs1, q1, l1, r1⟩ := hm1 fuel' (by omega)
  refine ⟨h1, h2, rs1, q1, ?_⟩
  have : rs = rs1 := by
    refine List.ext_getElem (by omega) (fun i h1 h2 => ?_)
    have e := (r i (by omega)).trans (r1 i (by omega)).symm
    rw [List.getElem?_eq_getElem h1, List.getElem?_eq_getElem h2] at e
    simp only [Option.some.injEq] at e
    cases ha : rs[i] <;> cases hb : rs1[i] <;> simp_all
  rw [← this]
  exact q

/-- An unstarted nested goal. -/
example (p q r : Nat → Bool) : Spec.Conditions
    [Obj.leaf p, .leaf q, .leaf r, .seq [0, 1] (-1), .seq [3, 2] (-1)] [4] [p, q, r] ∧
    Spec.Plan [Obj.leaf p, .leaf q, .leaf r, .seq [0, 1] (-1), .seq [3, 2] (-1)] [4] [4, 3] [p, q, r] :=
  ⟨.seq (ps₁ := [p, q, r]) (ps₂ := []) rfl (by simp)
    (.seq (ps₁ := [p, q]) (ps₂ := [r]) rfl (by simp) (.leaf rfl (.leaf rfl .nil)) (.leaf rfl .nil)) .nil,
   .seq (done := 0) (f₁ := [3]) (f₂ := []) (ps₁ := [p, q, r]) (ps₂ := []) rfl (by simp)
    (.seq (done := 0) (f₁ := []) (f₂ := []) (ps₁ := [p, q]) (ps₂ := [r]) rfl (by simp)
      (.leaf rfl (.leaf rfl .nil)) (.leaf rfl .nil) (by simp) (by simp)) .nil (by simp) (by simp)⟩

/-- **C101** is violated: progress is not stored.  Whatever the (two or more) conditions of a sequence
that has been completed and thus answers yes for good, the restored sequence answers no when it is
asked next. -/
theorem C101_progress_lost_violated {h : Heap A} {g : Nat} {subs : List Nat} {ps : List (A → Bool)}
    (hg : h[g]? = some (.seq subs ((subs.length : Int) - 1))) (H : Spec.Conditions h [g] ps)
    (hps : 2 ≤ ps.length) :
    ∃ n, ∀ fuel, n ≤ fuel → ∃ h' g', goalRound fuel h g = .ok (h', g') ∧
      ∀ x : A, ∃ m, ∀ fuel', m ≤ fuel' → ∃ h2,
        queries fuel' g [x] h = .ok (h, [true]) ∧ queries fuel' g' [x] h' = .ok (h2, [false]) := by
  have hne : subs ≠ [] := by
    cases H with
    | leaf e _ => rw [hg] at e; cases e
    | seq e hne _ _ => rw [hg] at e; cases e; exact hne
  obtain ⟨n, hn⟩ := C101_restored hg H
  refine ⟨n, fun fuel hf => ?_⟩
  obtain ⟨h', g', a, b, c, d⟩ := hn fuel hf
  refine ⟨h', g', a, fun x => ?_⟩
  obtain ⟨m, hm⟩ := d [x]
  refine ⟨m + 1, fun fuel' hf' => ?_⟩
  obtain ⟨h2, rs, q, l, r⟩ := hm fuel' (by omega)
  obtain ⟨k, rfl⟩ : ∃ k, fuel' = k + 1 := ⟨fuel' - 1, by omega⟩
  refine ⟨h2, by simpa using queries_finished hne hg [x] k, ?_⟩
  obtain ⟨b, rfl⟩ : ∃ b, rs = [b] := by
    match rs, l with
    | [b], _ => exact ⟨b, rfl⟩
  cases b with
  | false => exact q
  | true =>
    exfalso
    obtain ⟨ys, hs, hf⟩ := (r 0 (by simp)).mp rfl
    have h1 := hs.length_le
    have h2 := hf.length_eq
    simp at h1
    omega

/-- A completed sequence of two conditions. -/
example (p q : Nat → Bool) : Spec.Conditions [Obj.leaf p, .leaf q, .seq [0, 1] 1] [2] [p, q] :=
  .seq (ps₁ := [p, q]) (ps₂ := []) rfl (by simp) (.leaf rfl (.leaf rfl .nil)) .nil

end goals

/-! ### C100: behaviours -/

section behaviours
variable {P K T Act R L : Type}

/-- **C100**, the part that holds.  Pickling and unpickling a behaviour yields a behaviour of the same
class and configuration, for every class with a pickling definition, as long as the composite ones are
composed the way they are by default: a safety behaviour around a lane tracking model, an RSS-conformant
one of a lane tracking model and a safety behaviour whose lane tracking model has the child parameters,
with responses 0 or 1.  `same` is any notion of equal parameters that holds of parameters and their
restored version (C38) and of their children. -/
theorem C100_config_partial (E : Env P T Act R) (same : P → P → Prop)
    (h1 : ∀ p, same p (E.rebuild p)) (h2 : ∀ p, same (E.child p) (E.child (E.rebuild p))) :
    (∀ c p d, c ≠ .mpContinuousActions → c ≠ .py → (∀ s, c ≠ .foreign s) →
      ∃ b', behRound E (.plain c p d : Beh P K T Act R L) = .ok b' ∧ Spec.SameConfig same (.plain c p d) b') ∧
    (∀ p t d, ∃ b', behRound E (.static p t d : Beh P K T Act R L) = .ok b' ∧
      Spec.SameConfig same (.static p t d) b') ∧
    (∀ r p ps d, (∀ q ∈ ps, ∀ c p', q = Prim.other c p' →
        c = .gapKeeping ∨ c = .constAccChangeToLeft ∨ c = .constAccChangeToRight) →
      ∃ b', behRound E (.macro r p ps d : Beh P K T Act R L) = .ok b' ∧
        Spec.SameConfig same (.macro r p ps d) b') ∧
    (∀ p q d d', ∃ b', behRound E (.safety p (.plain .idmLaneTracking q d) d' : Beh P K T Act R L) = .ok b' ∧
      Spec.SameConfig same (.safety p (.plain .idmLaneTracking q d) d') b') ∧
    (∀ p q s a b c l d1 d2 d3 d4, (a = 0 ∨ a = 1) → (b = 0 ∨ b = 1) → (c = 0 ∨ c = 1) →
      ∃ b', behRound E (.rss p (.plain .idmLaneTracking q d1)
          (.safety s (.plain .idmLaneTracking (E.child s) d2) d3) (a, b, c) l d4 : Beh P K T Act R L) = .ok b' ∧
        Spec.SameConfig same (.rss p (.plain .idmLaneTracking q d1)
          (.safety s (.plain .idmLaneTracking (E.child s) d2) d3) (a, b, c) l d4) b') := by
  refine ⟨?_, ?_, ?_, ?_, ?_⟩
  · intro c p d a b hc
    refine ⟨.plain c (E.rebuild p) (E.init c (E.rebuild p)), ?_, .plain (h1 p)⟩
    have hf : c.isForeign = false := by
      cases c with
      | foreign s => exact absurd rfl (hc s)
      | _ => rfl
    simp [behRound, a, b, hf]
  · intro p t d
    exact ⟨_, rfl, .static (h1 p)⟩
  · intro r p ps d hp
    have key : ∃ ps', ps.mapM (primRound E) = .ok ps' ∧ List.Forall₂ (Spec.SamePrim same) ps ps' := by
      clear d
      induction ps with
      | nil => exact ⟨[], rfl, .nil⟩
      | cons q ps ih =>
        obtain ⟨ps', e, f⟩ := ih (fun x hx => hp x (List.mem_cons_of_mem _ hx))
        have hq : ∃ q', primRound E q = .ok q' ∧ Spec.SamePrim same q q' := by
          cases hq : q with
          | stay p a => exact ⟨_, rfl, .stay (h1 p)⟩
          | other c p' =>
            have := hp q (by simp) c p' hq
            refine ⟨.other c (E.rebuild p'), ?_, .other (h1 p')⟩
            unfold primRound
            exact if_pos this
        obtain ⟨q', e', f'⟩ := hq
        refine ⟨q' :: ps', ?_, .cons f' f⟩
        rw [List.mapM_cons, e', e]
        rfl
    obtain ⟨ps', e, f⟩ := key
    refine ⟨.macro r (E.rebuild p) ps'
      (E.init (if r then .randomMacroActions else .mpMacroActions) (E.rebuild p)), ?_, .macro (h1 p) f⟩
    simp only [behRound, e, Res.ok_bind]
  · intro p q d d'
    exact ⟨_, rfl, .safety (h1 p) (.plain (h1 q))⟩
  · intro p q s a b c l d1 d2 d3 d4 ha hb hc
    refine ⟨.rss (E.rebuild p) (.plain .idmLaneTracking (E.rebuild q) (E.init .idmLaneTracking (E.rebuild q)))
      (newSafety E (E.rebuild s)) (a, b, c) l (E.init .rssConformant (E.rebuild p)), ?_,
      .rss (h1 p) (.plain (h1 q)) (.safety (h1 s) (.plain (h2 s)))⟩
    have e : ∀ i : Int, i = 0 ∨ i = 1 → clipResponse i = i := by
      rintro i (rfl | rfl) <;> rfl
    simp only [behRound, Beh.params, e a ha, e b hb, e c hc]

/-- **C100** is violated for composite behaviours put together by the user: a safety behaviour around any
other class comes back around a lane tracking model; so does the nominal behaviour of an RSS-conformant
one. -/
theorem C100_inner_class_violated (E : Env P T Act R) (same : P → P → Prop) (i : Beh P K T Act R L)
    (hi : i.cls ≠ .idmLaneTracking) (p : P) (s : Beh P K T Act R L) (q : Int × Int × Int) (l : L)
    (d d' : Dyn T Act R) :
    (∃ b', behRound E (.safety p i d) = .ok b' ∧ ¬ Spec.SameConfig same (.safety p i d) b') ∧
    (∃ b', behRound E (.rss p i s q l d') = .ok b' ∧ ¬ Spec.SameConfig same (.rss p i s q l d') b') := by
  refine ⟨⟨_, rfl, fun h => ?_⟩, ⟨_, rfl, fun h => ?_⟩⟩
  · cases h with
    | safety _ h => cases h; exact hi rfl
  · generalize hx : (clipResponse q.1, clipResponse q.2.1, clipResponse q.2.2) = x at h
    cases h with
    | rss _ h _ => cases h; exact hi rfl

/-- **C100** is violated for the lane tracking model inside the safety behaviour of an RSS-conformant
behaviour: if its parameters are not those derived from the safety behaviour's, they are lost. -/
theorem C100_safety_params_violated (E : Env P T Act R) (same : P → P → Prop) (p q s r : P)
    (hr : ¬ same r (E.child (E.rebuild s))) (l : L) (x : Int × Int × Int) (d1 d2 d3 d4 : Dyn T Act R) :
    ∃ b', behRound E (.rss p (.plain .idmLaneTracking q d1)
        (.safety s (.plain .idmLaneTracking r d2) d3) x l d4 : Beh P K T Act R L) = .ok b' ∧
      ¬ Spec.SameConfig same (.rss p (.plain .idmLaneTracking q d1)
        (.safety s (.plain .idmLaneTracking r d2) d3) x l d4) b' := by
  refine ⟨_, rfl, fun h => ?_⟩
  generalize hx : (clipResponse x.1, clipResponse x.2.1, clipResponse x.2.2) = y at h
  cases h with
  | rss _ _ h =>
    cases h with
    | safety _ h =>
      cases h with
      | plain h => exact hr h

/-- **C100** is violated for responses other than 0 and 1 (the RSS library has three longitudinal and
three lateral responses): none of them survives. -/
theorem C100_response_violated (E : Env P T Act R) (same : P → P → Prop) (p : P) (n s : Beh P K T Act R L)
    (a b c : Int) (l : L) (d : Dyn T Act R)
    (h : (a ≠ 0 ∧ a ≠ 1) ∨ (b ≠ 0 ∧ b ≠ 1) ∨ (c ≠ 0 ∧ c ≠ 1)) :
    ∃ b', behRound E (.rss p n s (a, b, c) l d) = .ok b' ∧
      ¬ Spec.SameConfig same (.rss p n s (a, b, c) l d) b' := by
  refine ⟨_, rfl, fun hs => ?_⟩
  have e : ∀ i : Int, clipResponse i = 0 ∨ clipResponse i = 1 := by
    intro i
    unfold clipResponse
    split <;> simp
  have g : (clipResponse a, clipResponse b, clipResponse c) = (a, b, c) := by
    generalize hx : (clipResponse a, clipResponse b, clipResponse c) = x at hs ⊢
    generalize hy : (a, b, c) = y at hs ⊢
    cases hs
    rfl
  simp only [Prod.mk.injEq] at g
  obtain ⟨g1, g2, g3⟩ := g
  have e1 := e a; have e2 := e b; have e3 := e c
  omega

/-- **C100**: what planning has changed (status, last trajectory, last action, active primitive, …) is not
stored: two behaviours that differ in nothing else are restored alike. -/
theorem C100_progress_lost (E : Env P T Act R) :
    (∀ c p d d', behRound E (.plain c p d : Beh P K T Act R L) = behRound E (.plain c p d')) ∧
    (∀ p t d d', behRound E (.static p t d : Beh P K T Act R L) = behRound E (.static p t d')) ∧
    (∀ r p ps d d', behRound E (.macro r p ps d : Beh P K T Act R L) = behRound E (.macro r p ps d')) ∧
    (∀ p i d d', behRound E (.safety p i d : Beh P K T Act R L) = behRound E (.safety p i d')) ∧
    (∀ p n s q l d d', behRound E (.rss p n s q l d : Beh P K T Act R L) = behRound E (.rss p n s q l d')) :=
  ⟨fun _ _ _ _ => rfl, fun _ _ _ _ => rfl, fun _ _ _ _ _ => rfl, fun _ _ _ _ => rfl,
   fun _ _ _ _ _ _ _ => rfl⟩

/-- **C100**: the classes without a pickling definition and primitives written outside of the library are
refused. -/
theorem C100_refused (E : Env P T Act R) (p : P) (d : Dyn T Act R) (s : Nat) (r : Bool) (q : P)
    (xs ys : List (Prim P K)) :
    behRound E (.plain .mpContinuousActions p d : Beh P K T Act R L) = .error .thrown ∧
    behRound E (.plain .py p d : Beh P K T Act R L) = .error .thrown ∧
    behRound E (.plain (.foreign s) p d : Beh P K T Act R L) = .error .thrown ∧
    ∀ b', behRound E (.macro r p (xs ++ .other (.foreign s) q :: ys) d : Beh P K T Act R L) ≠ .ok b' := by
  refine ⟨by simp [behRound], by simp [behRound], by simp [behRound, Py.BCls.isForeign], fun b' h => ?_⟩
  unfold behRound at h
  obtain ⟨zs, hz, -⟩ := Res.bind_ok h
  clear h
  induction xs generalizing zs with
  | nil =>
    rw [List.nil_append, List.mapM_cons] at hz
    obtain ⟨z, hz, -⟩ := Res.bind_ok hz
    simp [primRound] at hz
  | cons x xs ih =>
    rw [List.cons_append, List.mapM_cons] at hz
    obtain ⟨z, _, hz⟩ := Res.bind_ok hz
    obtain ⟨z2, hz2, _⟩ := Res.bind_ok hz
    exact ih _ hz2

end behaviours

/-! ### C102: agents -/

section agents
variable {S Act Sh B D E G Rd C W : Type}

/-- **C102**, the part that holds.  An agent with behaviour, dynamic model, goal and at least one state
can be pickled if its parts can; the restored agent has the same id, shape, state-action history, first
valid time, road ids and driving direction, and the restored behaviour, dynamic model and goal. -/
theorem C102_restored_partial (N : AgentEnv D E G) (a : Agent S Act Sh B D E G Rd C W) (b b' : D) (d d' : E)
    (g g' : G) (hb : a.behavior = some b) (hd : a.dyn = some d) (hg : a.goal = some g) (hh : a.hist ≠ [])
    (eb : N.behavior b = .ok b') (ed : N.dyn d = .ok d') (eg : N.goal g = .ok g') :
    ∃ a', agentRound N a = .ok a' ∧ a'.id = a.id ∧ a'.shape = a.shape ∧ a'.hist = a.hist ∧
      a'.firstValid = a.firstValid ∧ a'.roadIds = a.roadIds ∧ a'.direction = a.direction ∧
      a'.behavior = some b' ∧ a'.dyn = some d' ∧ a'.goal = some g' ∧
      (a'.execTraj = [] ∧ a'.corridor = none ∧ a'.sensed = none) := by
  have hl : a.hist.getLast? = some (a.hist.getLast hh) := List.getLast?_eq_some_getLast hh
  unfold agentRound
  rw [hb, hd, hg, hl]
  simp only [eb, ed, eg, Res.ok_bind]
  exact ⟨_, rfl, rfl, rfl, rfl, rfl, rfl, rfl, rfl, rfl, rfl, rfl, rfl, rfl⟩

/-- **C102** is violated for agents without goal, behaviour or dynamic model: pickling them dereferences
a null pointer. -/
theorem C102_null_violated (N : AgentEnv D E G) (a : Agent S Act Sh B D E G Rd C W)
    (h : a.behavior = none ∨ a.dyn = none ∨ a.goal = none) : agentRound N a = .error .ub := by
  unfold agentRound
  rcases h with h | h | h
  · rw [h]
  · rw [h]; cases a.behavior <;> rfl
  · rw [h]; cases a.behavior <;> cases a.dyn <;> rfl

theorem updates_hist (a : Agent S Act Sh B D E G Rd C W) (xs : List (S × Act)) :
    (a.updates xs).hist = (a.hist ++ xs).drop (a.hist.length + xs.length - max a.hist.length a.limit) ∧
      (a.updates xs).limit = a.limit := by
  induction xs generalizing a with
  | nil =>
    have : a.hist.length + 0 - max a.hist.length a.limit = 0 := by omega
    simp [Agent.updates]
  | cons x xs ih =>
    have := ih (a.update x)
    have e : (a.update x).limit = a.limit := rfl
    rw [e] at this
    refine ⟨?_, this.2⟩
    have e2 : a.updates (x :: xs) = (a.update x).updates xs := rfl
    rw [e2, this.1]
    by_cases hl : (a.hist ++ [x]).length > a.limit
    · have e3 : (a.update x).hist = (a.hist ++ [x]).tail := by
        unfold Agent.update
        exact if_pos hl
      rw [e3]
      simp only [List.length_append, List.length_singleton] at hl
      cases hh : a.hist with
      | nil =>
        rw [hh] at hl
        simp at hl
        simp [hl]
      | cons y ys =>
        rw [hh] at hl
        simp only [List.length_cons] at hl
        simp only [List.cons_append, List.tail_cons, List.length_append, List.length_cons, List.length_nil,
          List.append_assoc, List.nil_append]
        have e4 : ys.length + 1 + (xs.length + 1) - max (ys.length + 1) a.limit =
            (ys.length + (0 + 1) + xs.length - max (ys.length + (0 + 1)) a.limit) + 1 := by omega
        rw [e4, List.drop_succ_cons]
    · have e3 : (a.update x).hist = a.hist ++ [x] := by
        unfold Agent.update
        exact if_neg hl
      rw [e3]
      simp only [List.length_append, List.length_singleton] at hl
      simp only [List.length_append, List.length_singleton, List.append_assoc, List.singleton_append,
        List.length_cons, List.length_nil]
      congr 1
      omega

/-- **C102** (history).  After any number of steps the history of an agent is what is left of the complete
one after cutting the oldest entries, so many that the larger of the limit and the initial length
remain: a history longer than the limit never becomes shorter. -/
theorem C102_history (a : Agent S Act Sh B D E G Rd C W) (xs : List (S × Act)) :
    (a.updates xs).hist <:+ a.hist ++ xs ∧
      (a.updates xs).hist.length = min (a.hist.length + xs.length) (max a.hist.length a.limit) := by
  rw [(updates_hist a xs).1]
  refine ⟨List.drop_suffix _ _, ?_⟩
  rw [List.length_drop, List.length_append]
  omega

/-- **C102** is violated for agents with a history limit other than 30: the restored agent has limit 30,
and after enough steps the histories differ in length if they were within the smaller limit. -/
theorem C102_limit_violated (N : AgentEnv D E G) (a a' : Agent S Act Sh B D E G Rd C W)
    (h : agentRound N a = .ok a') (hl : a.limit ≠ 30) (hs : a.hist.length ≤ min a.limit 30)
    (xs : List (S × Act)) (hx : max a.limit 30 ≤ xs.length) :
    (a'.updates xs).hist.length = 30 ∧ (a.updates xs).hist.length = a.limit ∧
      (a'.updates xs).hist ≠ (a.updates xs).hist := by
  have e : a'.limit = 30 ∧ a'.hist = a.hist := by
    unfold agentRound at h
    split at h
    · obtain ⟨b', _, h⟩ := Res.bind_ok h
      obtain ⟨d', _, h⟩ := Res.bind_ok h
      obtain ⟨g', _, h⟩ := Res.bind_ok h
      cases h
      exact ⟨rfl, rfl⟩
    · cases h
  have h1 := (C102_history a' xs).2
  have h2 := (C102_history a xs).2
  rw [e.1, e.2] at h1
  refine ⟨by omega, by omega, fun hh => ?_⟩
  rw [hh] at h1
  omega

/-- An agent with limit 2 and its restored version. -/
example : let N : AgentEnv Unit Unit Unit := ⟨.ok, .ok, .ok⟩
    let a : Agent Nat Nat Unit Nat Unit Unit Unit Nat Unit Unit :=
      ⟨7, (), [(1, 2)], 2, 0, some (), some (), [5], some (), [3], 1, some (), none⟩
    (agentRound N a).map (fun a' => (a'.id, a'.limit, a'.hist, a'.roadIds)) = .ok (7, 30, [(1, 2)], [3]) ∧
    a.limit ≠ 30 ∧ a.hist.length ≤ min a.limit 30 := by
  refine ⟨rfl, by decide, by decide⟩

end agents

/-! ### C103: label functions -/

section labels
variable {K : Type} [Ring K] [LinearOrder K] [IsStrictOrderedRing K]

/-- **C103**, the part that holds.  Pickling and unpickling restores a label function for all classes
except constant labels that have been set to false, safe distance labels whose two thresholds differ and
succeeding-agent labels whose threshold is neither 0 nor 1.  A dense traffic label has a non-negative
radius by construction, and the agent limit of the safe distance label is an `unsigned int`. -/
theorem C103_restored (l : Label K)
    (hc : ∀ n v, l = .constant n v → v = true)
    (hs : ∀ n f t, l = .succeeding n f t → (f = false ∧ t = 0) ∨ (f = true ∧ t = 1))
    (hd : ∀ d, l = .safeDist d → d.angThr = d.latThr ∧ d.maxAgents < 2 ^ 32)
    (ht : ∀ n r k, l = .dense n r k → 0 ≤ r) : labelRound l = .ok l := by
  cases l with
  | constant n v => rw [hc n v rfl]; rfl
  | named c n => rfl
  | thr c n x => rfl
  | point c n x y => rfl
  | dense n r k =>
    have := abs_of_nonneg (ht n r k rfl)
    simp [labelRound, labelGet, labelSet, Label.cls, PyVal.castStr, PyVal.castFloat, PyVal.castInt, Res.ok_bind, this]
  | succeeding n f t =>
    rcases hs n f t rfl with ⟨rfl, rfl⟩ | ⟨rfl, rfl⟩ <;>
      simp [labelRound, labelGet, labelSet, Label.cls, PyVal.castStr, PyVal.castFloat, PyVal.castBool, Res.ok_bind]
  | safeDist d =>
    obtain ⟨h1, h2⟩ := hd d rfl
    have : (d.maxAgents : Int) < 4294967296 := by
      have h3 : d.maxAgents < 4294967296 := by simpa using h2
      exact_mod_cast h3
    have e : (⟨d.name, d.toRear, d.deltaEgo, d.deltaOthers, d.aE, d.aO, d.crossing, d.maxAgents, d.useFrac,
        d.latThr, d.latThr, d.checkLat⟩ : SafeDist K) = d := by
      cases d
      simp_all
    simp [labelRound, labelGet, labelSet, Label.cls, PyVal.castStr, PyVal.castFloat, PyVal.castBool, PyVal.castNat,
      Res.ok_bind, this, SafeDist.getAngleDifferenceThreshold, e]

/-- **C103** is violated in the three other cases: a false constant label becomes true; the angle
threshold of a safe distance label is replaced by the lateral one; and a succeeding-agent label with any
threshold but 0 and 1 (or one of these with the other setting) comes back with threshold 0 or 1 and
with the setting that the old threshold is not 0. -/
theorem C103_violated :
    (∀ n, labelRound (.constant n false : Label K) = .ok (.constant n true)) ∧
    (∀ d : SafeDist K, d.maxAgents < 2 ^ 32 → d.angThr ≠ d.latThr →
      ∃ d', labelRound (.safeDist d) = .ok (.safeDist d') ∧ d'.angThr = d.latThr ∧ d' ≠ d) ∧
    (∀ n f (t : K), ∃ f' t', labelRound (.succeeding n f t) = .ok (.succeeding n f' t') ∧
      (f' = true ↔ t ≠ 0) ∧ (t' = if f then 1 else 0) ∧
      (¬ ((f = false ∧ t = 0) ∨ (f = true ∧ t = 1)) → (f', t') ≠ (f, t))) := by
  refine ⟨fun n => rfl, fun d hm hne => ?_, fun n f t => ?_⟩
  · have : (d.maxAgents : Int) < 4294967296 := by
      have h3 : d.maxAgents < 4294967296 := by simpa using hm
      exact_mod_cast h3
    refine ⟨⟨d.name, d.toRear, d.deltaEgo, d.deltaOthers, d.aE, d.aO, d.crossing, d.maxAgents, d.useFrac,
        d.latThr, d.latThr, d.checkLat⟩, ?_, rfl, fun h => hne ?_⟩
    · simp [labelRound, labelGet, labelSet, Label.cls, PyVal.castStr, PyVal.castFloat, PyVal.castBool, PyVal.castNat,
        Res.ok_bind, this, SafeDist.getAngleDifferenceThreshold]
    · rw [← h]
  · refine ⟨decide (t ≠ 0), if f then 1 else 0, ?_, by simp, rfl, fun h hh => h ?_⟩
    · simp [labelRound, labelGet, labelSet, Label.cls, PyVal.castStr, PyVal.castFloat, PyVal.castBool, Res.ok_bind]
    · simp only [Prod.mk.injEq] at hh
      obtain ⟨h1, h2⟩ := hh
      cases f with
      | false => left; exact ⟨rfl, by simpa using h2.symm⟩
      | true => right; exact ⟨rfl, by simpa using h2.symm⟩

/-- A safe distance label with equal thresholds is restored. -/
example : labelRound (.safeDist ⟨"safe", true, 1, 2, -8, -8, false, 4, true, 3, 3, true⟩ : Label Int)
    = .ok (.safeDist ⟨"safe", true, 1, 2, -8, -8, false, 4, true, 3, 3, true⟩) :=
  C103_restored _ (by simp) (by simp) (by rintro d ⟨⟩; simp) (by simp)

/-- A threshold of 5 is not restored. -/
example : labelRound (.succeeding "succ" true 5 : Label Int) = .ok (.succeeding "succ" true 1) := by
  decide +kernel

end labels
end Bark.Pickle
