import Verif.Spec.Goals
import Verif.Lemmas.World
import Mathlib.Tactic.Push
import Mathlib.Data.List.Forall2
import Mathlib.Tactic.IntervalCases

/-! C39 (sequential goals), C74 (asking is repeatable), C75 (clones). -/
namespace Bark.Goal
open Bark
variable {A : Type}

/-! ### order of meeting -/

theorem met_nil (xs : List A) : Spec.MetInOrder ([] : List (A → Bool)) xs :=
  ⟨[], List.nil_sublist _, .nil⟩

theorem not_met_cons_nil (p : A → Bool) (ps : List (A → Bool)) : ¬ Spec.MetInOrder (p :: ps) [] := by
  rintro ⟨ys, hs, hf⟩
  cases hf with
  | cons _ _ => simp at hs

theorem met_cons (p : A → Bool) (ps : List (A → Bool)) (x : A) (xs : List A) :
    Spec.MetInOrder (p :: ps) (x :: xs) ↔
      if p x = true then Spec.MetInOrder ps xs else Spec.MetInOrder (p :: ps) xs := by
  constructor
  · rintro ⟨ys, hs, hf⟩
    cases hf with
    | @cons _ y _ ys hp hf =>
      split
      · refine ⟨ys, ?_, hf⟩
        cases hs with
        | cons _ hs => exact (List.sublist_cons_self _ _).trans hs
        | cons_cons _ hs => exact hs
      · rename_i hx
        cases hs with
        | cons _ hs => exact ⟨_, hs, .cons hp hf⟩
        | cons_cons _ hs => exact absurd hp hx
  · split
    · rename_i hx
      rintro ⟨ys, hs, hf⟩
      exact ⟨x :: ys, hs.cons_cons _, .cons hx hf⟩
    · rintro ⟨ys, hs, hf⟩
      exact ⟨ys, hs.cons _, hf⟩

theorem modify_self (h : Heap A) (g : Nat) (f : Obj A → Obj A) : (h.modify g f)[g]? = (h[g]?).map f := by
  rw [List.getElem?_modify]; simp

theorem modify_other (h : Heap A) (f : Obj A → Obj A) {g a : Nat} (hne : g ≠ a) :
    (h.modify g f)[a]? = h[a]? := by
  rw [List.getElem?_modify]; simp [hne]

/-! ### plans -/

theorem plan_ne_nil {h : Heap A} {gs f : List Nat} {ps : List (A → Bool)} (H : Spec.Plan h gs f ps) :
    gs ≠ [] → ps ≠ [] := by
  induction H with
  | nil => intro h; exact absurd rfl h
  | leaf _ _ _ => intro _; simp
  | seq _ hd _ _ _ _ ih _ =>
    intro _ he
    have := List.append_eq_nil_iff.1 he
    refine ih ?_ this.1
    intro h0
    have := List.drop_eq_nil_iff.1 h0
    omega

theorem plan_parts {h : Heap A} {gs f : List Nat} {ps : List (A → Bool)} (H : Spec.Plan h gs f ps)
    {g : Nat} {subs : List Nat} {last : Int} (e : gs = [g]) (hg : h[g]? = some (.seq subs last)) : subs ≠ [] := by
  induction H with
  | nil => cases e
  | leaf hl _ _ => cases e; rw [hg] at hl; cases hl
  | seq hl hlt _ _ _ _ _ _ =>
    cases e
    rw [hg] at hl
    cases hl
    intro e; subst e; simp at hlt

/-- sequential goals of a plan are sequential in the heap -/
theorem plan_foot {h : Heap A} {gs f : List Nat} {ps : List (A → Bool)} (H : Spec.Plan h gs f ps) :
    ∀ a ∈ f, ∃ subs last, h[a]? = some (.seq subs last) := by
  induction H with
  | nil => simp
  | leaf _ _ ih => exact ih
  | seq hg _ _ _ _ _ ih1 ih2 =>
    intro a ha
    rcases List.mem_append.1 ha with ha | ha
    · rcases List.mem_cons.1 ha with rfl | ha
      · exact ⟨_, _, hg⟩
      · exact ih1 a ha
    · exact ih2 a ha

theorem plan_frame {h h' : Heap A} {gs f : List Nat} {ps : List (A → Bool)} (H : Spec.Plan h gs f ps)
    {k : List Nat} (hk : ∀ a ∈ k, ∃ subs last, h[a]? = some (.seq subs last))
    (hs : ∀ a, a ∉ k → h'[a]? = h[a]?) (hd : ∀ a ∈ f, a ∉ k) : Spec.Plan h' gs f ps := by
  induction H with
  | nil => exact .nil
  | @leaf g gs f p ps hg _ ih =>
    refine .leaf ?_ (ih hd)
    rw [hs, hg]
    intro hm
    obtain ⟨_, _, hx⟩ := hk _ hm
    rw [hg] at hx; cases hx
  | @seq g done subs gs f₁ f₂ ps₁ ps₂ hg hlt _ _ hn hdis ih1 ih2 =>
    refine .seq ?_ hlt (ih1 ?_) (ih2 ?_) hn hdis
    · rw [hs, hg]
      exact hd g (by simp)
    · intro a ha; exact hd a (by simp [ha])
    · intro a ha; exact hd a (by simp [ha])

/-- the effect of one query on the first goal of a plan -/
theorem step {h : Heap A} {gs f : List Nat} {ps : List (A → Bool)} (H : Spec.Plan h gs f ps) (x : A) :
    ∀ g gs', gs = g :: gs' → ∃ p r, ps = p :: r ∧ ∃ n h' b,
      (∀ fuel, n ≤ fuel → atGoal x fuel h g = .ok (h', b)) ∧
      (∀ a, a ∉ f → h'[a]? = h[a]?) ∧
      (p x = false → b = false ∧ Spec.Plan h' gs f ps) ∧
      (p x = true → ∃ f', (∀ a ∈ f', a ∈ f) ∧
        ((b = true ∧ Spec.Plan h' gs' f' r ∧
            (∀ subs last, h[g]? = some (.seq subs last) → h'[g]? = some (.seq subs ((subs.length : Int) - 1)))) ∨
          (b = false ∧ Spec.Plan h' gs f' r))) := by
  induction H with
  | nil => intro g gs' e; cases e
  | @leaf g0 gs0 f p ps hg hP ih =>
    intro g gs' e
    cases e
    refine ⟨p, ps, rfl, 1, h, p x, ?_, fun _ _ => rfl, ?_, ?_⟩
    · intro fuel hf
      obtain ⟨m, rfl⟩ : ∃ m, fuel = m + 1 := ⟨fuel - 1, by omega⟩
      simp [atGoal, hg]
    · intro hp
      exact ⟨hp, .leaf hg hP⟩
    · intro hp
      refine ⟨f, fun _ h => h, Or.inl ⟨hp, hP, ?_⟩⟩
      intro subs last hx
      rw [hg] at hx; cases hx
  | @seq g0 done subs gs0 f₁ f₂ ps₁ ps₂ hg hlt hP1 hP2 hn hdis ih1 ih2 =>
    intro g gs' e
    cases e
    have hdrop : subs.drop done = subs[done] :: subs.drop (done + 1) := List.drop_eq_getElem_cons hlt
    obtain ⟨p, r, hps, n, h1, b1, hrun, hfr, hfalse, htrue⟩ := ih1 _ _ hdrop
    subst hps
    have hg1 : h1[g0]? = some (.seq subs ((done : Int) - 1)) := by rw [hfr g0 hn, hg]
    have hglt : g0 < h1.length := by
      rcases Nat.lt_or_ge g0 h1.length with h | h
      · exact h
      · rw [List.getElem?_eq_none h] at hg1; cases hg1
    -- the heap after the query
    have hrun' : ∀ fuel, n + 1 ≤ fuel → atGoal x fuel h g0 =
        .ok (if b1 then h1.modify g0 (Obj.setLast (done : Int)) else h1,
          finished (if b1 then h1.modify g0 (Obj.setLast (done : Int)) else h1) g0) := by
      intro fuel hf
      obtain ⟨m, rfl⟩ : ∃ m, fuel = m + 1 := ⟨fuel - 1, by omega⟩
      have hr := hrun m (by omega)
      unfold atGoal
      rw [hg]
      simp only
      by_cases hd0 : done = 0
      · subst hd0
        rw [if_pos (by simp)]
        have : subs[0]? = some subs[0] := List.getElem?_eq_getElem hlt
        rw [this]
        simp only [hr, Res.ok_bind]
        cases b1 <;> simp
      · rw [if_neg (by omega), if_neg (by omega), if_pos (by omega)]
        have hi : (((done : Int) - 1) + 1).toNat = done := by omega
        have : subs[(((done : Int) - 1) + 1).toNat]? = some subs[done] := by
          rw [hi]; exact List.getElem?_eq_getElem hlt
        rw [this]
        simp only [hr, Res.ok_bind]
        have hm : h1.modify g0 Obj.incLast = h1.modify g0 (Obj.setLast (done : Int)) := by
          apply List.ext_getElem?
          intro i
          rw [List.getElem?_modify, List.getElem?_modify]
          by_cases hi : g0 = i
          · subst hi
            simp [hg1, Obj.incLast, Obj.setLast]
          · simp [hi]
        rw [hm]
    have hfoot1 := plan_foot hP1
    have hP2' : Spec.Plan h1 gs0 f₂ ps₂ :=
      plan_frame hP2 hfoot1 hfr (fun a ha hb => hdis a (by simp [hb]) ha)
    refine ⟨p, r ++ ps₂, rfl, n + 1, _, _, hrun', ?_, ?_, ?_⟩
    · intro a ha
      have hag : a ≠ g0 := fun e => ha (by simp [e])
      have haf : a ∉ f₁ := fun e => ha (by simp [e])
      cases b1
      · simpa using hfr a haf
      · simp only [if_true]
        rw [modify_other _ _ (Ne.symm hag), hfr a haf]
    · intro hp
      obtain ⟨rfl, hpl⟩ := hfalse hp
      simp only [Bool.false_eq_true, if_false]
      refine ⟨?_, .seq hg1 hlt hpl hP2' hn hdis⟩
      simp only [finished, hg1, Obj.finished, decide_eq_false_iff_not]
      omega
    · intro hp
      obtain ⟨f', hsub, hcase⟩ := htrue hp
      rcases hcase with ⟨rfl, hpl, -⟩ | ⟨rfl, hpl⟩
      · simp only [if_true]
        have hg2 : (h1.modify g0 (Obj.setLast (done : Int)))[g0]? = some (.seq subs (done : Int)) := by
          rw [modify_self, hg1]; rfl
        have hfr2 : ∀ a, a ∉ [g0] → (h1.modify g0 (Obj.setLast (done : Int)))[a]? = h1[a]? := by
          intro a ha
          exact modify_other _ _ (fun e => ha (by simp [e]))
        have hk : ∀ a ∈ [g0], ∃ subs last, h1[a]? = some (.seq subs last) := by
          intro a ha
          rw [List.mem_singleton.1 ha]
          exact ⟨_, _, hg1⟩
        have hpl' := plan_frame hpl hk hfr2 (fun a ha hb => hn (by
          rw [← List.mem_singleton.1 hb]; exact hsub a ha))
        have hP2'' := plan_frame hP2' hk hfr2 (fun a ha hb => hdis g0 (by simp) (by
          rw [← List.mem_singleton.1 hb]; exact ha))
        by_cases hend : done + 1 < subs.length
        · refine ⟨g0 :: f' ++ f₂, ?_, Or.inr ⟨?_, ?_⟩⟩
          · intro a ha
            simp only [List.cons_append, List.mem_cons, List.mem_append] at ha ⊢
            rcases ha with ha | ha | ha
            · exact Or.inl ha
            · exact Or.inr (Or.inl (hsub a ha))
            · exact Or.inr (Or.inr ha)
          · simp only [finished, hg2, Obj.finished, decide_eq_false_iff_not]
            omega
          · refine .seq (done := done + 1) ?_ hend hpl' hP2'' (fun hm => hn (hsub _ hm)) ?_
            · rw [hg2]
              congr 2
              push_cast
              omega
            · intro a ha
              rcases List.mem_cons.1 ha with rfl | ha
              · exact hdis a (by simp)
              · exact hdis a (by simp [hsub a ha])
        · have hlen : subs.length = done + 1 := by omega
          refine ⟨f₂, fun a ha => by simp [ha], Or.inl ⟨?_, ?_, ?_⟩⟩
          · simp only [finished, hg2, Obj.finished, decide_eq_true_eq]
            omega
          · have hr : r = [] := by
              have : subs.drop (done + 1) = [] := List.drop_eq_nil_iff.2 (by omega)
              rw [this] at hpl'
              cases hpl'; rfl
            subst hr
            exact hP2''
          · intro subs' last' hx
            rw [hg] at hx
            cases hx
            rw [hg2, hlen]
            congr 2
            push_cast
            omega
      · simp only [Bool.false_eq_true, if_false]
        refine ⟨g0 :: f' ++ f₂, ?_, Or.inr ⟨?_, .seq hg1 hlt hpl hP2' (fun hm => hn (hsub _ hm)) ?_⟩⟩
        · intro a ha
          simp only [List.cons_append, List.mem_cons, List.mem_append] at ha ⊢
          rcases ha with ha | ha | ha
          · exact Or.inl ha
          · exact Or.inr (Or.inl (hsub a ha))
          · exact Or.inr (Or.inr ha)
        · simp only [finished, hg1, Obj.finished, decide_eq_false_iff_not]
          omega
        · intro a ha
          rcases List.mem_cons.1 ha with rfl | ha
          · exact hdis a (by simp)
          · exact hdis a (by simp [hsub a ha])

/-- `Kept h h'`: the same objects with the same parts, only the progress markers may differ -/
def Kept (h h' : Heap A) : Prop :=
  h'.length = h.length ∧
  (∀ (a : Nat) (p : A → Bool), h[a]? = some (.leaf p) → h'[a]? = some (.leaf p)) ∧
  (∀ (a : Nat) (subs : List Nat) (l : Int), h[a]? = some (.seq subs l) → ∃ l', h'[a]? = some (.seq subs l'))

theorem Kept.refl (h : Heap A) : Kept h h := ⟨rfl, fun _ _ h => h, fun _ _ l h => ⟨l, h⟩⟩

theorem Kept.trans {h h1 h2 : Heap A} (k1 : Kept h h1) (k2 : Kept h1 h2) : Kept h h2 := by
  refine ⟨k2.1.trans k1.1, fun a p hp => k2.2.1 a p (k1.2.1 a p hp), ?_⟩
  intro a subs l hl
  obtain ⟨l', hl'⟩ := k1.2.2 a subs l hl
  exact k2.2.2 a subs l' hl'

theorem Kept.modify (h : Heap A) (g : Nat) (f : Obj A → Obj A) (hf : ∀ p, f (.leaf p) = .leaf p)
    (hf' : ∀ subs l, ∃ l', f (.seq subs l) = .seq subs l') : Kept h (h.modify g f) := by
  refine ⟨by simp, ?_, ?_⟩
  · intro a p hp
    by_cases e : g = a
    · subst e; rw [modify_self, hp]; simp [hf]
    · rw [modify_other _ _ e, hp]
  · intro a subs l hl
    by_cases e : g = a
    · subst e; rw [modify_self, hl]
      obtain ⟨l', hl'⟩ := hf' subs l
      exact ⟨l', by simp [hl']⟩
    · exact ⟨l, by rw [modify_other _ _ e, hl]⟩

theorem kept_setLast (h : Heap A) (g : Nat) (v : Int) : Kept h (h.modify g (Obj.setLast v)) :=
  Kept.modify h g _ (fun _ => rfl) (fun _ _ => ⟨v, rfl⟩)

theorem kept_incLast (h : Heap A) (g : Nat) : Kept h (h.modify g Obj.incLast) :=
  Kept.modify h g _ (fun _ => rfl) (fun _ l => ⟨l + 1, rfl⟩)

theorem atGoal_kept (x : A) : ∀ {fuel : Nat} {h : Heap A} {g : Nat} {r : Heap A × Bool},
    atGoal x fuel h g = .ok r → Kept h r.1 := by
  intro fuel
  induction fuel with
  | zero => intro h g r hr; cases hr
  | succ n ih =>
    intro h g r hr
    unfold atGoal at hr
    split at hr
    · cases hr
    · cases hr; exact Kept.refl h
    · split at hr
      · split at hr
        · cases hr
        · obtain ⟨q, hq, hr⟩ := Res.bind_ok hr
          cases hr
          have k := ih hq
          cases q.2
          · simpa using k
          · simpa using k.trans (kept_setLast _ _ _)
      · split at hr
        · cases hr
        · split at hr
          · split at hr
            · cases hr
            · obtain ⟨q, hq, hr⟩ := Res.bind_ok hr
              cases hr
              have k := ih hq
              cases q.2
              · simpa using k
              · simpa using k.trans (kept_incLast _ _)
          · cases hr; exact Kept.refl h

/-- a finished sequence stays finished -/
theorem queries_finished {h : Heap A} {g : Nat} {subs : List Nat} (hne : subs ≠ [])
    (hg : h[g]? = some (.seq subs ((subs.length : Int) - 1))) (xs : List A) (fuel : Nat) :
    queries (fuel + 1) g xs h = .ok (h, xs.map (fun _ => true)) := by
  have hl : 0 < subs.length := List.length_pos_iff.2 hne
  induction xs with
  | nil => rfl
  | cons x xs ih =>
    have h1 : atGoal x (fuel + 1) h g = .ok (h, true) := by
      unfold atGoal
      rw [hg]
      simp only
      rw [if_neg (by omega), if_neg (by omega), if_neg (by omega)]
      simp [finished, hg, Obj.finished]
    simp only [queries, h1, Res.ok_bind, ih, List.map_cons]

/-- C39: a sequential goal made of simple goals and of further sequential goals (nested to any depth,
no sequential goal used twice) answers the `i`-th query of any query history, and the answer is yes
exactly when its simple goals have been met in their order, each at its own query. -/
theorem C39_in_order {h : Heap A} {g : Nat} {subs f : List Nat} {last : Int} {ps : List (A → Bool)}
    (hg : h[g]? = some (.seq subs last)) (H : Spec.Plan h [g] f ps) (xs : List A) :
    ∃ n, ∀ fuel, n ≤ fuel → ∃ h' rs, queries fuel g xs h = .ok (h', rs) ∧ rs.length = xs.length ∧
      ∀ i, i < xs.length → (rs[i]? = some true ↔ Spec.MetInOrder ps (xs.take (i + 1))) := by
  induction xs generalizing h f last ps with
  | nil => exact ⟨0, fun fuel _ => ⟨h, [], rfl, rfl, fun i hi => absurd hi (by simp)⟩⟩
  | cons x xs ih =>
    obtain ⟨p, r, rfl, n, h1, b, hrun, hfr, hfalse, htrue⟩ := step H x g [] rfl
    obtain ⟨l1, hg1⟩ := (atGoal_kept x (hrun n (Nat.le_refl _))).2.2 g subs last hg
    -- the shape of the remaining histories
    have key : ∃ n', ∀ fuel, n' ≤ fuel → ∃ h' rs, queries fuel g xs h1 = .ok (h', rs) ∧
        rs.length = xs.length ∧ (b = true ↔ Spec.MetInOrder (p :: r) [x]) ∧
        ∀ i, i < xs.length → (rs[i]? = some true ↔ Spec.MetInOrder (p :: r) (x :: xs.take (i + 1))) := by
      cases hp : p x with
      | false =>
        obtain ⟨rfl, hpl⟩ := hfalse hp
        obtain ⟨m, hm⟩ := ih hg1 hpl
        refine ⟨m, fun fuel hf => ?_⟩
        obtain ⟨h', rs, hq, hlen, hall⟩ := hm fuel hf
        refine ⟨h', rs, hq, hlen, ?_, ?_⟩
        · simp [met_cons, hp, not_met_cons_nil]
        · intro i hi
          rw [met_cons, if_neg (by simp [hp])]
          exact hall i hi
      | true =>
        obtain ⟨f', -, hcase⟩ := htrue hp
        rcases hcase with ⟨rfl, hpl, hend⟩ | ⟨rfl, hpl⟩
        · have hr : r = [] := by cases hpl; rfl
          subst hr
          have hne : subs ≠ [] := plan_parts H rfl hg
          have hfin := queries_finished hne (hend subs last hg) xs
          refine ⟨1, fun fuel hf => ?_⟩
          obtain ⟨m, rfl⟩ : ∃ m, fuel = m + 1 := ⟨fuel - 1, by omega⟩
          refine ⟨h1, _, hfin m, by simp, ?_, ?_⟩
          · simp [met_cons, hp, met_nil]
          · intro i hi
            rw [met_cons, if_pos (by simp [hp])]
            simp [hi, met_nil]
        · obtain ⟨m, hm⟩ := ih hg1 hpl
          refine ⟨m, fun fuel hf => ?_⟩
          obtain ⟨h', rs, hq, hlen, hall⟩ := hm fuel hf
          refine ⟨h', rs, hq, hlen, ?_, ?_⟩
          · rw [met_cons, if_pos hp]
            obtain ⟨q, r', rfl⟩ : ∃ q r', r = q :: r' := by
              have := plan_ne_nil hpl (by simp)
              cases r with
              | nil => exact absurd rfl this
              | cons q r' => exact ⟨q, r', rfl⟩
            simp [not_met_cons_nil]
          · intro i hi
            rw [met_cons, if_pos (by simp [hp])]
            exact hall i hi
    obtain ⟨n', hn'⟩ := key
    refine ⟨max n n', fun fuel hf => ?_⟩
    obtain ⟨h', rs, hq, hlen, hb, hall⟩ := hn' fuel (by omega)
    refine ⟨h', b :: rs, ?_, by simp [hlen], ?_⟩
    · simp only [queries, hrun fuel (by omega), Res.ok_bind, hq]
    · intro i hi
      cases i with
      | zero => simpa using hb
      | succ i => simpa using hall i (by simpa using hi)

/-- every sequential goal: progress of each never decreases and never skips a part -/
theorem atGoal_progress (x : A) (rank : Nat → Nat) : ∀ {fuel : Nat} {h : Heap A} {g : Nat} {r : Heap A × Bool},
    (∀ (g : Nat) (subs : List Nat) (last : Int), h[g]? = some (.seq subs last) →
      subs ≠ [] ∧ -1 ≤ last ∧ last < subs.length ∧ ∀ s ∈ subs, rank s < rank g ∧ s < h.length) →
    atGoal x fuel h g = .ok r →
    (∀ a, rank g < rank a → r.1[a]? = h[a]?) ∧
    (∀ (a : Nat) (subs : List Nat) (l : Int), h[a]? = some (.seq subs l) →
      ∃ l', r.1[a]? = some (.seq subs l') ∧ l ≤ l' ∧ l' ≤ l + 1 ∧ l' < subs.length) ∧
    (∀ (subs : List Nat) (l : Int), h[g]? = some (.seq subs l) →
      (r.2 = true ↔ r.1[g]? = some (.seq subs ((subs.length : Int) - 1)))) := by
  intro fuel
  induction fuel with
  | zero => intro h g r _ hr; cases hr
  | succ n ih =>
    intro h g r W hr
    unfold atGoal at hr
    have hself : ∀ (a : Nat) (subs : List Nat) (l : Int), h[a]? = some (.seq subs l) →
        ∃ l', h[a]? = some (.seq subs l') ∧ l ≤ l' ∧ l' ≤ l + 1 ∧ l' < subs.length := by
      intro a subs l hl
      exact ⟨l, hl, Int.le_refl _, by omega, (W a subs l hl).2.2.1⟩
    -- effect of evaluating a part `s` of `g` and then advancing
    have part : ∀ (subs : List Nat) (last : Int) (s : Nat) (q : Heap A × Bool) (f : Obj A → Obj A),
        h[g]? = some (.seq subs last) → s ∈ subs → atGoal x n h s = .ok q →
        f (.seq subs last) = .seq subs (last + 1) → last + 1 < subs.length →
        r = (if q.2 then q.1.modify g f else q.1, finished (if q.2 then q.1.modify g f else q.1) g) →
        (∀ a, rank g < rank a → r.1[a]? = h[a]?) ∧
        (∀ (a : Nat) (subs : List Nat) (l : Int), h[a]? = some (.seq subs l) →
          ∃ l', r.1[a]? = some (.seq subs l') ∧ l ≤ l' ∧ l' ≤ l + 1 ∧ l' < subs.length) ∧
        (∀ (subs : List Nat) (l : Int), h[g]? = some (.seq subs l) →
          (r.2 = true ↔ r.1[g]? = some (.seq subs ((subs.length : Int) - 1)))) := by
      intro subs last s q f hg hs hq hfv hlt hre
      obtain ⟨i1, i2, -⟩ := ih W hq
      have hrk := ((W g subs last hg).2.2.2 s hs).1
      have hqg : q.1[g]? = some (.seq subs last) := by rw [i1 g hrk, hg]
      have hr1 : r.1 = if q.2 then q.1.modify g f else q.1 := by rw [hre]
      have hr2 : r.2 = finished r.1 g := by rw [hr1, hre]
      have hrg : ∃ l', r.1[g]? = some (.seq subs l') ∧ last ≤ l' ∧ l' ≤ last + 1 ∧ l' < subs.length := by
        rw [hr1]
        cases q.2
        · simp only [Bool.false_eq_true, if_false]
          exact ⟨last, hqg, by omega, by omega, by omega⟩
        · simp only [if_true]
          refine ⟨last + 1, ?_, by omega, by omega, hlt⟩
          rw [modify_self, hqg]
          simp [hfv]
      have hro : ∀ a, a ≠ g → r.1[a]? = q.1[a]? := by
        intro a ha
        rw [hr1]
        cases q.2
        · simp
        · simp only [if_true]
          exact modify_other _ _ (Ne.symm ha)
      refine ⟨?_, ?_, ?_⟩
      · intro a ha
        rw [hro a (fun e => by subst e; omega)]
        exact i1 a (by omega)
      · intro a subs' l hl
        by_cases e : a = g
        · subst e
          rw [hg] at hl
          cases hl
          exact hrg
        · rw [hro a e]
          exact i2 a subs' l hl
      · intro subs' l hl
        rw [hg] at hl
        cases hl
        obtain ⟨l', hl', -⟩ := hrg
        rw [hr2]
        simp [finished, hl', Obj.finished]
    split at hr
    · cases hr
    · rename_i p hg
      cases hr
      refine ⟨fun _ _ => rfl, hself, ?_⟩
      intro subs l hl
      rw [hg] at hl; cases hl
    · rename_i subs last hg
      obtain ⟨w1, w2, w3, w4⟩ := W g subs last hg
      have hpos : 0 < subs.length := List.length_pos_iff.2 w1
      split at hr
      · rename_i hl
        split at hr
        · cases hr
        · rename_i s hs
          obtain ⟨q, hq, hr⟩ := Res.bind_ok hr
          cases hr
          exact part subs last s q _ hg (List.mem_of_getElem? hs) hq (by simp [Obj.setLast, hl]) (by omega) rfl
      · split at hr
        · cases hr
        · split at hr
          · split at hr
            · cases hr
            · rename_i s hs
              obtain ⟨q, hq, hr⟩ := Res.bind_ok hr
              cases hr
              exact part subs last s q _ hg (List.mem_of_getElem? hs) hq rfl (by omega) rfl
          · cases hr
            refine ⟨fun _ _ => rfl, hself, ?_⟩
            intro subs' l hl
            rw [hg] at hl
            cases hl
            simp only [finished, hg, Obj.finished, decide_eq_true_eq]
            simp

/-- `AtGoal` always returns -/
theorem atGoal_total (x : A) (rank : Nat → Nat) (h : Heap A)
    (W : ∀ (g : Nat) (subs : List Nat) (last : Int), h[g]? = some (.seq subs last) →
      subs ≠ [] ∧ -1 ≤ last ∧ last < subs.length ∧ ∀ s ∈ subs, rank s < rank g ∧ s < h.length) :
    ∀ (k fuel g : Nat), rank g ≤ k → k < fuel → g < h.length → ∃ r, atGoal x fuel h g = .ok r := by
  intro k
  induction k with
  | zero =>
    intro fuel g hk hf hg
    obtain ⟨m, rfl⟩ : ∃ m, fuel = m + 1 := ⟨fuel - 1, by omega⟩
    unfold atGoal
    rw [List.getElem?_eq_getElem hg]
    cases ho : h[g] with
    | leaf p => exact ⟨_, rfl⟩
    | seq subs last =>
      obtain ⟨w1, -, -, w4⟩ := W g subs last (by rw [List.getElem?_eq_getElem hg, ho])
      obtain ⟨s, hs⟩ := List.exists_mem_of_ne_nil _ w1
      have := (w4 s hs).1
      omega
  | succ k ih =>
    intro fuel g hk hf hg
    obtain ⟨m, rfl⟩ : ∃ m, fuel = m + 1 := ⟨fuel - 1, by omega⟩
    unfold atGoal
    rw [List.getElem?_eq_getElem hg]
    cases ho : h[g] with
    | leaf p => exact ⟨_, rfl⟩
    | seq subs last =>
      obtain ⟨w1, w2, w3, w4⟩ := W g subs last (by rw [List.getElem?_eq_getElem hg, ho])
      have hpos : 0 < subs.length := List.length_pos_iff.2 w1
      simp only
      split
      · obtain ⟨r, hr⟩ := ih m subs[0] (by
          have := (w4 _ (List.getElem_mem hpos)).1; omega) (by omega) (w4 _ (List.getElem_mem hpos)).2
        rw [List.getElem?_eq_getElem hpos]
        simp only [hr, Res.ok_bind]
        exact ⟨_, rfl⟩
      · rw [if_neg (by omega)]
        split
        · have hi : (last + 1).toNat < subs.length := by omega
          obtain ⟨r, hr⟩ := ih m subs[(last + 1).toNat] (by
            have := (w4 _ (List.getElem_mem hi)).1; omega) (by omega) (w4 _ (List.getElem_mem hi)).2
          rw [List.getElem?_eq_getElem hi]
          simp only [hr, Res.ok_bind]
          exact ⟨_, rfl⟩
        · exact ⟨_, rfl⟩

/-- the heap stays well-formed -/
theorem atGoal_wf (x : A) (rank : Nat → Nat) {fuel : Nat} {h : Heap A} {g : Nat} {r : Heap A × Bool}
    (W : ∀ (g : Nat) (subs : List Nat) (last : Int), h[g]? = some (.seq subs last) →
      subs ≠ [] ∧ -1 ≤ last ∧ last < subs.length ∧ ∀ s ∈ subs, rank s < rank g ∧ s < h.length)
    (hr : atGoal x fuel h g = .ok r) :
    ∀ (g : Nat) (subs : List Nat) (last : Int), r.1[g]? = some (.seq subs last) →
      subs ≠ [] ∧ -1 ≤ last ∧ last < subs.length ∧ ∀ s ∈ subs, rank s < rank g ∧ s < r.1.length := by
  obtain ⟨-, h2, -⟩ := atGoal_progress x rank W hr
  have hk := atGoal_kept x hr
  intro a subs last ha
  have hlt : a < h.length := by
    rcases Nat.lt_or_ge a r.1.length with h | h
    · rw [hk.1] at h; exact h
    · rw [List.getElem?_eq_none h] at ha; cases ha
  have h0 : h[a]? = some h[a] := List.getElem?_eq_getElem hlt
  cases ho : h[a] with
  | leaf p =>
    rw [ho] at h0
    rw [hk.2.1 a p h0] at ha
    cases ha
  | seq subs' l =>
    rw [ho] at h0
    obtain ⟨l', e1, e2, e3, e4⟩ := h2 a subs' l h0
    rw [e1] at ha
    cases ha
    obtain ⟨w1, w2, w3, w4⟩ := W a subs l h0
    refine ⟨w1, by omega, e4, ?_⟩
    rw [hk.1]
    exact w4

/-- C39: for any goals, shared or nested as one likes (but no goal containing itself and no empty
sequence), every query history on any goals is answered; the index of the last reached part of every
sequential goal never decreases, advances by at most one per query and stays within the sequence; and
after a query a sequential goal answers yes exactly if its index is that of its last part. -/
theorem C39_progress {h : Heap A} (W : Spec.WellFormed h) {g : Nat} (hg : g < h.length) (x : A) :
    ∃ n, ∀ fuel, n ≤ fuel → ∃ h' b, atGoal x fuel h g = .ok (h', b) ∧ Spec.WellFormed h' ∧
      h'.length = h.length ∧
      (∀ (a : Nat) (p : A → Bool), h[a]? = some (.leaf p) → h'[a]? = some (.leaf p)) ∧
      (∀ (a : Nat) (subs : List Nat) (l : Int), h[a]? = some (.seq subs l) →
        ∃ l', h'[a]? = some (.seq subs l') ∧ l ≤ l' ∧ l' ≤ l + 1 ∧ l' < subs.length) ∧
      (∀ (subs : List Nat) (l : Int), h[g]? = some (.seq subs l) →
        (b = true ↔ h'[g]? = some (.seq subs ((subs.length : Int) - 1)))) := by
  obtain ⟨rank, W⟩ := W
  refine ⟨rank g + 1, fun fuel hf => ?_⟩
  obtain ⟨r, hr⟩ := atGoal_total x rank h W (rank g) fuel g (Nat.le_refl _) (by omega) hg
  obtain ⟨-, p2, p3⟩ := atGoal_progress x rank W hr
  have hk := atGoal_kept x hr
  exact ⟨r.1, r.2, hr, ⟨rank, atGoal_wf x rank W hr⟩, hk.1, hk.2.1, p2, p3⟩

/-- C39: an empty sequence is undefined behaviour. -/
theorem C39_empty (h : Heap A) (g : Nat) (l : Int) (hg : h[g]? = some (.seq [] l)) (x : A) (fuel : Nat) :
    atGoal x (fuel + 1) h g = .error .ub := by
  unfold atGoal
  rw [hg]
  simp

/-- C39: in every reachable state `GetNextGoal` is null exactly if the sequence has been completed, and
otherwise it is the part that the next query evaluates; `GetCurrentGoal` always exists and is the last
part met (the first part as long as none has been met). -/
theorem C39_next {h : Heap A} (W : Spec.WellFormed h) {g : Nat} {subs : List Nat} {l : Int}
    (hg : h[g]? = some (.seq subs l)) :
    ∃ n, nextGoal h g = .ok n ∧ (n = none ↔ l = (subs.length : Int) - 1) ∧
      (∀ (s : Nat), n = some s → subs[(l + 1).toNat]? = some s) ∧
      ∃ c, currentGoal h g = .ok c ∧ subs[l.toNat]? = some c := by
  obtain ⟨rank, W⟩ := W
  obtain ⟨w1, w2, w3, -⟩ := W g subs l hg
  have hpos : 0 < subs.length := List.length_pos_iff.2 w1
  have hc : ∃ c, currentGoal h g = .ok c ∧ subs[l.toNat]? = some c := by
    have hi : l.toNat < subs.length := by omega
    have e : (if l = -1 then 0 else l).toNat = l.toNat := by split <;> omega
    refine ⟨subs[l.toNat], ?_, List.getElem?_eq_getElem hi⟩
    unfold currentGoal
    rw [hg]
    simp only [e, List.getElem?_eq_getElem hi]
  unfold nextGoal
  rw [hg]
  simp only
  by_cases h1 : l = -1
  · rw [if_pos h1, List.getElem?_eq_getElem hpos]
    refine ⟨_, rfl, ?_, ?_, hc⟩
    · simp; omega
    · intro s hs
      cases hs
      subst h1
      exact List.getElem?_eq_getElem hpos
  · rw [if_neg h1]
    by_cases h2 : l + 1 < (subs.length : Int)
    · have hi : (l + 1).toNat < subs.length := by omega
      rw [if_pos h2, List.getElem?_eq_getElem hi]
      refine ⟨_, rfl, ?_, ?_, hc⟩
      · simp; omega
      · intro s hs
        exact hs
    · rw [if_neg h2]
      refine ⟨_, rfl, ?_, ?_, hc⟩
      · simp; omega
      · intro s hs; cases hs

/-- everything outside the sequential goals of the plan is untouched by a query history -/
theorem queries_frame {h : Heap A} {g : Nat} {subs f : List Nat} {last : Int} {ps : List (A → Bool)}
    (hg : h[g]? = some (.seq subs last)) (H : Spec.Plan h [g] f ps) (xs : List A) :
    ∃ n, ∀ fuel, n ≤ fuel → ∃ h' rs, queries fuel g xs h = .ok (h', rs) ∧
      ∀ a, a ∉ f → h'[a]? = h[a]? := by
  induction xs generalizing h f last ps with
  | nil => exact ⟨0, fun fuel _ => ⟨h, [], rfl, fun _ _ => rfl⟩⟩
  | cons x xs ih =>
    obtain ⟨p, r, rfl, n, h1, b, hrun, hfr, hfalse, htrue⟩ := step H x g [] rfl
    obtain ⟨l1, hg1⟩ := (atGoal_kept x (hrun n (Nat.le_refl _))).2.2 g subs last hg
    have key : ∃ n', ∀ fuel, n' ≤ fuel → ∃ h' rs, queries fuel g xs h1 = .ok (h', rs) ∧
        ∀ a, a ∉ f → h'[a]? = h1[a]? := by
      have cont : ∀ {f' : List Nat} {r' : List (A → Bool)}, Spec.Plan h1 [g] f' r' → (∀ a ∈ f', a ∈ f) →
          ∃ n', ∀ fuel, n' ≤ fuel → ∃ h' rs, queries fuel g xs h1 = .ok (h', rs) ∧
            ∀ a, a ∉ f → h'[a]? = h1[a]? := by
        intro f' r' hpl hsub
        obtain ⟨m, hm⟩ := ih hg1 hpl
        refine ⟨m, fun fuel hf => ?_⟩
        obtain ⟨h', rs, hq, ha⟩ := hm fuel hf
        exact ⟨h', rs, hq, fun a hna => ha a (fun hm => hna (hsub a hm))⟩
      cases hp : p x with
      | false => exact cont (hfalse hp).2 (fun _ h => h)
      | true =>
        obtain ⟨f', hsub, hcase⟩ := htrue hp
        rcases hcase with ⟨rfl, hpl, hend⟩ | ⟨rfl, hpl⟩
        · have hfin := queries_finished (plan_parts H rfl hg) (hend subs last hg) xs
          refine ⟨1, fun fuel hf => ?_⟩
          obtain ⟨m, rfl⟩ : ∃ m, fuel = m + 1 := ⟨fuel - 1, by omega⟩
          exact ⟨h1, _, hfin m, fun _ _ => rfl⟩
        · exact cont hpl hsub
    obtain ⟨n', hn'⟩ := key
    refine ⟨max n n', fun fuel hf => ?_⟩
    obtain ⟨h', rs, hq, ha⟩ := hn' fuel (by omega)
    refine ⟨h', b :: rs, ?_, fun a hna => (ha a hna).trans (hfr a hna)⟩
    simp only [queries, hrun fuel (by omega), Res.ok_bind, hq]

theorem plan_leaves {h : Heap A} {subs : List Nat} {ps : List (A → Bool)}
    (hl : List.Forall₂ (fun s p => h[s]? = some (.leaf p)) subs ps) : Spec.Plan h subs [] ps := by
  induction hl with
  | nil => exact .nil
  | cons h1 _ ih => exact .leaf h1 ih

/-- a sequence of simple goals is a plan whose only sequential goal is itself -/
theorem plan_flat {h : Heap A} {g done : Nat} {subs : List Nat} {ps : List (A → Bool)}
    (hg : h[g]? = some (.seq subs ((done : Int) - 1))) (hd : done < subs.length)
    (hl : List.Forall₂ (fun s p => h[s]? = some (.leaf p)) (subs.drop done) ps) :
    Spec.Plan h [g] [g] ps := by
  have := Spec.Plan.seq hg hd (plan_leaves hl) .nil (by simp) (by simp)
  simpa using this

/-- C39 for the common case: a newly constructed sequence of simple goals. -/
theorem C39_simple_parts {h : Heap A} {g : Nat} {subs : List Nat} {ps : List (A → Bool)}
    (hg : h[g]? = some (new subs)) (hne : subs ≠ [])
    (hl : List.Forall₂ (fun s p => h[s]? = some (.leaf p)) subs ps) (xs : List A) :
    ∃ n, ∀ fuel, n ≤ fuel → ∃ h' rs, queries fuel g xs h = .ok (h', rs) ∧ rs.length = xs.length ∧
      ∀ i, i < xs.length → (rs[i]? = some true ↔ Spec.MetInOrder ps (xs.take (i + 1))) :=
  C39_in_order hg (plan_flat (done := 0) hg (List.length_pos_iff.2 hne) hl) xs

/-! ### asking twice -/

/-- C74, the part that holds: asking a simple goal changes nothing, so asking again gives the same
answer; and a sequential goal that has said yes keeps saying yes whatever the state. -/
theorem C74_repeatable_partial (h : Heap A) (g : Nat) (fuel : Nat) :
    (∀ p x, h[g]? = some (.leaf p) → atGoal x (fuel + 1) h g = .ok (h, p x)) ∧
    (∀ subs xs, subs ≠ [] → h[g]? = some (.seq subs ((subs.length : Int) - 1)) →
      queries (fuel + 1) g xs h = .ok (h, xs.map (fun _ => true))) := by
  refine ⟨?_, fun subs xs hne hg => queries_finished hne hg xs fuel⟩
  intro p x hg
  simp [atGoal, hg]

/-- C74 fails for sequential goals: whatever the two conditions and the state that meets both, the first
question is answered no and the same question asked again at the same state is answered yes. -/
theorem C74_repeatable_violated (p q : A → Bool) (x : A) (hp : p x = true) (hq : q x = true) (fuel : Nat) :
    (queries (fuel + 2) 2 [x, x] [.leaf p, .leaf q, new [0, 1]]).map Prod.snd = .ok [false, true] := by
  simp [queries, atGoal, new, hp, hq, Res.ok_bind, finished, Obj.finished, Obj.setLast, Obj.incLast, List.modify, Except.map]

/-- C74: adding a part to a completed sequence makes it unfinished: the next query is answered by the new
part alone. -/
theorem C74_add_after_success {h : Heap A} {g s : Nat} {subs : List Nat} {p : A → Bool} (hne : subs ≠ [])
    (hg : h[g]? = some (.seq subs ((subs.length : Int) - 1))) (hs : h[s]? = some (.leaf p)) (x : A)
    (fuel : Nat) :
    ∃ h', atGoal x (fuel + 2) (addSequentialGoal h g s) g = .ok (h', p x) := by
  have hpos : 0 < subs.length := List.length_pos_iff.2 hne
  have e1 : (addSequentialGoal h g s)[g]? = some (.seq (subs ++ [s]) ((subs.length : Int) - 1)) := by
    unfold addSequentialGoal
    rw [modify_self, hg]; rfl
  have hgs : g ≠ s := by
    intro e; subst e; rw [hg] at hs; cases hs
  have e2 : (addSequentialGoal h g s)[s]? = some (.leaf p) := by
    unfold addSequentialGoal
    rw [modify_other _ _ hgs, hs]
  generalize addSequentialGoal h g s = h1 at e1 e2
  unfold atGoal
  rw [e1]
  simp only
  rw [if_neg (by omega), if_neg (by simp), if_pos (by simp)]
  have hi : ((subs.length : Int) - 1 + 1).toNat = subs.length := by omega
  have e3 : (subs ++ [s])[((subs.length : Int) - 1 + 1).toNat]? = some s := by rw [hi]; simp
  rw [e3]
  simp only
  have e4 : atGoal x (fuel + 1) h1 s = .ok (h1, p x) := by simp [atGoal, e2]
  rw [e4]
  simp only [Res.ok_bind]
  refine ⟨if p x = true then h1.modify g Obj.incLast else h1, ?_⟩
  congr 1
  refine Prod.ext rfl ?_
  cases hp : p x
  · simp [finished, e1, Obj.finished]
  · simp only [if_true, finished, modify_self, e1]
    simp [Obj.incLast, Obj.finished]

/-! ### clones -/

/-- C75, the part that holds: a clone of a sequence of simple goals is independent: any number of
queries on the clone leave every object that existed before, in particular the original, unchanged, and
the clone continues from the progress the original had. -/
theorem C75_clone_partial {h : Heap A} {g done : Nat} {subs : List Nat} {ps : List (A → Bool)}
    (hg : h[g]? = some (.seq subs ((done : Int) - 1))) (hd : done < subs.length)
    (hl : List.Forall₂ (fun s p => h[s]? = some (.leaf p)) (subs.drop done) ps) (xs : List A) :
    ∃ n, ∀ fuel, n ≤ fuel → ∃ h' rs, queries fuel (clone h g).2 xs (clone h g).1 = .ok (h', rs) ∧
      (∀ a, a < h.length → h'[a]? = h[a]?) ∧ rs.length = xs.length ∧
      ∀ i, i < xs.length → (rs[i]? = some true ↔ Spec.MetInOrder ps (xs.take (i + 1))) := by
  have hc : clone h g = (h ++ [.seq subs ((done : Int) - 1)], h.length) := by
    unfold clone; rw [hg]
  rw [hc]
  simp only
  have hold : ∀ a, a < h.length → (h ++ [Obj.seq subs ((done : Int) - 1)])[a]? = h[a]? := by
    intro a ha
    rw [List.getElem?_append_left ha]
  have hg' : (h ++ [Obj.seq subs ((done : Int) - 1)])[h.length]? = some (.seq subs ((done : Int) - 1)) := by
    simp
  have hl' : List.Forall₂ (fun s p => (h ++ [Obj.seq subs ((done : Int) - 1)])[s]? = some (.leaf p))
      (subs.drop done) ps := by
    refine List.Forall₂.imp ?_ hl
    intro s p hs
    rw [hold, hs]
    rcases Nat.lt_or_ge s h.length with h' | h'
    · exact h'
    · rw [List.getElem?_eq_none h'] at hs; cases hs
  have H := plan_flat hg' hd hl'
  obtain ⟨n1, h1⟩ := C39_in_order hg' H xs
  obtain ⟨n2, h2⟩ := queries_frame hg' H xs
  refine ⟨max n1 n2, fun fuel hf => ?_⟩
  obtain ⟨h', rs, hq, hlen, hall⟩ := h1 fuel (by omega)
  obtain ⟨h'', rs', hq', hfr⟩ := h2 fuel (by omega)
  rw [hq] at hq'
  cases hq'
  refine ⟨h', rs, hq, ?_, hlen, hall⟩
  intro a ha
  rw [hfr a (by simp; omega), hold a ha]

/-- C75 fails for nested sequences: the clone of the outer sequence shares the inner one, so a query on
the clone advances the original.  The original, never asked before, then says yes at a state that meets
only the second condition. -/
theorem C75_clone_violated (p q : A → Bool) (x y : A) (hp : p x = true) (hq : q y = true) (hpy : p y = false)
    (fuel : Nat) :
    let h : Heap A := [.leaf p, .leaf q, new [0, 1], new [2]]
    (queries (fuel + 3) 3 [y] h).map Prod.snd = .ok [false] ∧
    ((queries (fuel + 3) (clone h 3).2 [x] (clone h 3).1).bind
      (fun r => (queries (fuel + 3) 3 [y] r.1).map Prod.snd)) = .ok [true] := by
  simp [queries, atGoal, new, hp, hq, hpy, clone, Res.ok_bind, finished, Obj.finished, Obj.setLast, Obj.incLast,
    List.modify, Except.map, Except.bind]

/-! ### the hypotheses are met -/

/-- a nested example: meet 1, then 2, then 3, with 2, 3 an inner sequence -/
def exHeap : Heap Nat :=
  [.leaf (· == 1), .leaf (· == 2), .leaf (· == 3), new [1, 2], new [0, 3]]

theorem exHeap_plan : Spec.Plan exHeap [4] [4, 3] [(· == 1), (· == 2), (· == 3)] := by
  have inner : Spec.Plan exHeap [3] [3] [(· == 2), (· == 3)] :=
    plan_flat (done := 0) (subs := [1, 2]) rfl (by simp) (.cons rfl (.cons rfl .nil))
  have := Spec.Plan.seq (h := exHeap) (g := 4) (done := 0) (subs := [0, 3]) (gs := []) rfl (by simp)
    (.leaf (g := 0) (p := (· == 1)) rfl inner) .nil (by simp) (by simp)
  simpa using this

example : ∃ n, ∀ fuel, n ≤ fuel → ∃ h' rs, queries fuel 4 [1, 5, 2, 2, 3, 9] exHeap = .ok (h', rs) ∧
    rs.length = 6 ∧ ∀ i, i < 6 → (rs[i]? = some true ↔
      Spec.MetInOrder [(· == 1), (· == 2), (· == 3)] ([1, 5, 2, 2, 3, 9].take (i + 1))) :=
  C39_in_order (subs := [0, 3]) (last := -1) rfl exHeap_plan [1, 5, 2, 2, 3, 9]

example : (queries 5 4 [1, 5, 2, 2, 3, 9] exHeap).toOption.map Prod.snd =
    some [false, false, false, false, true, true] := rfl

example : Spec.WellFormed exHeap := by
  refine ⟨id, ?_⟩
  intro g subs last hg
  have hlt : g < 5 := by
    rcases Nat.lt_or_ge g exHeap.length with h | h
    · exact h
    · rw [List.getElem?_eq_none h] at hg; cases hg
  interval_cases g <;> simp [exHeap, new] at hg <;> obtain ⟨rfl, rfl⟩ := hg <;> simp [exHeap]

end Bark.Goal
