import Verif.Spec.Readers
import Verif.Props.PServer
import Verif.Props.ScenGen
import Verif.Props.Dataset

/-!
C192: config readers of the scenario generation.
-/
namespace Bark.Read
open Bark.PS Bark.PS.Spec Bark.Par Bark.Read.Spec
set_option linter.unusedSectionVars false

variable {A G : Type}

theorem says_find {s : Srv A} {k : Str} {d v : Val A} : Says s k d v ↔ (find k s).getD d = v := by
  unfold Says
  constructor
  · rintro (h | ⟨h, rfl⟩)
    · rw [has_iff.1 h]; rfl
    · cases hf : find k s with
      | none => rfl
      | some w => exact absurd ⟨w, has_iff.2 hf⟩ h
  · intro h
    cases hf : find k s with
    | none => rw [hf] at h; exact .inr ⟨fun ⟨w, hw⟩ => (by rw [has_iff.1 hw] at hf; cases hf), h.symm⟩
    | some w => rw [hf] at h; exact .inl (has_iff.2 (by rw [hf]; exact congrArg some h))

theorem getItemD_leaf (ws : Char → Bool) (k : Str) (a : A) (s : Srv A) :
    ∃ s1, getItemD ws k (.leaf a) s = .ok (s1, (find k s).getD (.leaf a)) ∧ find k s1 = some ((find k s).getD (.leaf a)) ∧
      ∀ k', k' ≠ k → find k' s1 = find k' s := by
  unfold getItemD
  cases hf : find k s with
  | some v => exact ⟨s, rfl, hf, fun _ _ => rfl⟩
  | none =>
    refine ⟨put k (.leaf a) s, rfl, ?_, ?_⟩
    · rw [find_put]; simp
    · intro k' hk; rw [find_put, if_neg hk]

theorem typeOf_some {name : A → Option Str} {v : Val A} {t : Str} (h : typeOf name v = some t) : ∃ a, v = .leaf a ∧ name a = some t := by
  cases v with
  | leaf a => exact ⟨a, rfl, h⟩
  | child c => cases h
  | many l => cases h

theorem make_ok {reg : Registry A} {t : Option Str} {v v' : Val A} (h : make reg t v = .ok v') :
    ∃ t' f c c', t = some t' ∧ reg t' = some f ∧ v = .child c ∧ f c = .ok c' ∧ v' = .child c' := by
  unfold make at h
  cases t with
  | none => cases h
  | some t =>
    cases hr : reg t with
    | none => simp only [Option.bind_some, hr] at h; cases h
    | some f =>
      cases v with
      | leaf a => simp only [Option.bind_some, hr] at h; cases h
      | many l => simp only [Option.bind_some, hr] at h; cases h
      | child c =>
        simp only [Option.bind_some, hr] at h
        cases hc : f c with
        | error e => rw [hc] at h; cases h
        | ok c' =>
          rw [hc] at h
          simp only [Except.map, Except.ok.injEq] at h
          exact ⟨t, f, c, c', rfl, hr, rfl, hc, h.symm⟩

theorem makeAll_ok {reg : Registry A} {t : Option Str} : ∀ {n : Nat} {v v' : Val A}, makeAll reg t n v = .ok v' → n ≠ 0 →
    ∃ t' f c c', t = some t' ∧ reg t' = some f ∧ v = .child c ∧ v' = .child c' ∧
      (Gentle f → ∀ p w, At c p w → IsValue w → At c' p w) := by
  intro n
  induction n with
  | zero => intro v v' _ h; exact absurd rfl h
  | succ n ih =>
    intro v v' h _
    unfold makeAll at h
    cases hm : make reg t v with
    | error e => rw [hm] at h; cases h
    | ok u =>
      rw [hm] at h
      simp only at h
      obtain ⟨t', f, c, c', h1, h2, h3, h4, h5⟩ := make_ok hm
      cases n with
      | zero =>
        simp only [makeAll, Except.ok.injEq] at h
        refine ⟨t', f, c, c', h1, h2, h3, h.symm.trans h5, ?_⟩
        intro hg p w hp hw
        obtain ⟨c1, e1, e2⟩ := hg c
        rw [h4] at e1
        simp only [Except.ok.injEq] at e1
        rw [e1]; exact e2 p w hp hw
      | succ n =>
        obtain ⟨t2, f2, c2, c3, g1, g2, g3, g4, g5⟩ := ih h (Nat.succ_ne_zero n)
        rw [h1] at g1
        cases g1
        rw [h2] at g2
        cases g2
        rw [h5] at g3
        cases g3
        refine ⟨t', f, c, c3, h1, h2, h3, g4, ?_⟩
        intro hg p w hp hw
        obtain ⟨c1, e1, e2⟩ := hg c
        rw [h4] at e1
        simp only [Except.ok.injEq] at e1
        exact g5 hg p w (e1 ▸ e2 p w hp hw) hw

theorem makeAll_total {reg : Registry A} {t : Str} {f : Srv A → Res (Srv A)} (hr : reg t = some f) (hg : Gentle f) :
    ∀ (n : Nat) (c : Srv A), ∃ c', makeAll reg (some t) n (.child c) = .ok (.child c') := by
  intro n
  induction n with
  | zero => intro c; exact ⟨c, rfl⟩
  | succ n ih =>
    intro c
    obtain ⟨c1, e1, _⟩ := hg c
    obtain ⟨c2, e2⟩ := ih c1
    refine ⟨c2, ?_⟩
    have : make reg (some t) (.child c) = .ok (.child c1) := by unfold make; simp only [Option.bind_some, hr, e1]; rfl
    unfold makeAll
    rw [this]
    exact e2

/-- what `fixed` returns, in terms of the store -/
theorem fixed_eq (ws : Char → Bool) (str : Str → A) (name : A → Option Str) (reg : Registry A) (dflt : Str) (n : Nat) (s : Srv A) :
    ∃ s1, find kType s1 = some ((find kType s).getD (.leaf (str dflt))) ∧ (∀ k', k' ≠ kType → find k' s1 = find k' s) ∧
      fixed ws str name reg dflt n s =
        (makeAll reg (typeOf name ((find kType s).getD (.leaf (str dflt)))) n ((find kParams s).getD (.child .nil))).map fun p =>
          (List.replicate n ⟨(typeOf name ((find kType s).getD (.leaf (str dflt)))).getD [], some [kParams]⟩, put kParams p s1) := by
  obtain ⟨s1, e1, e2, e3⟩ := getItemD_leaf ws kType (str dflt) s
  refine ⟨s1, e2, e3, ?_⟩
  unfold fixed
  rw [e1]
  simp only
  have : childOf kParams s1 = (find kParams s).getD (.child .nil) := by
    unfold childOf; rw [e3 _ (by decide)]
  rw [this]
  cases makeAll reg (typeOf name ((find kType s).getD (.leaf (str dflt)))) n ((find kParams s).getD (.child .nil)) <;> rfl

/-- C192: a fixed type: one model per agent, all of the configured type, all with the configured parameters; the type is
stored in the configuration, the parameters' section exists, everything else stays as it was -/
theorem C192_fixed {ws : Char → Bool} {str : Str → A} {name : A → Option Str} {reg : Registry A} {dflt : Str} {n : Nat} {s s' : Srv A}
    {ms : List Made} (h : fixed ws str name reg dflt n s = .ok (ms, s')) :
    ms.length = n ∧ (∃ v, Says s kType (.leaf (str dflt)) v ∧ Has s' kType v ∧
      (n ≠ 0 → ∃ a t f, v = .leaf a ∧ name a = some t ∧ reg t = some f ∧ ∀ m ∈ ms, m.type = t ∧ m.server = some [kParams])) ∧
    (∃ v, Has s' kParams v) ∧ Untouched [kType, kParams] s s' := by
  obtain ⟨s1, e1, e2, e3⟩ := fixed_eq ws str name reg dflt n s
  rw [e3] at h
  cases hm : makeAll reg (typeOf name ((find kType s).getD (.leaf (str dflt)))) n ((find kParams s).getD (.child .nil)) with
  | error e => rw [hm] at h; cases h
  | ok p =>
    rw [hm] at h
    simp only [Except.map, Except.ok.injEq, Prod.mk.injEq] at h
    obtain ⟨h1, h2⟩ := h
    subst h1 h2
    refine ⟨by simp, ⟨_, says_find.2 rfl, has_iff.2 (by rw [find_put, if_neg (by decide), e1]), ?_⟩,
      ⟨p, has_iff.2 (by rw [find_put]; simp)⟩, ?_⟩
    · intro hn
      obtain ⟨t, f, c, c', g1, g2, g3, g4, _⟩ := makeAll_ok hm hn
      obtain ⟨a, a1, a2⟩ := typeOf_some g1
      refine ⟨a, t, f, a1, a2, g2, ?_⟩
      intro m hmem
      rw [List.mem_replicate] at hmem
      rw [hmem.2, g1]
      exact ⟨rfl, rfl⟩
    · intro k v hk
      simp only [List.mem_cons, List.not_mem_nil, or_false, not_or] at hk
      rw [has_iff, has_iff, find_put, if_neg hk.2, e2 _ hk.1]

/-- C192: the configured parameters reach the models: with constructors that only add the values they fall back to, no value
of the section is changed -/
theorem C192_fixed_keeps {ws : Char → Bool} {str : Str → A} {name : A → Option Str} {reg : Registry A} {dflt : Str} {n : Nat} {s s' c : Srv A}
    {ms : List Made} (h : fixed ws str name reg dflt n s = .ok (ms, s')) (hc : Section s kParams c)
    (hg : ∀ t f, reg t = some f → Gentle f) :
    ∃ c', Section s' kParams c' ∧ ∀ p v, At c p v → IsValue v → At c' p v := by
  obtain ⟨s1, e1, e2, e3⟩ := fixed_eq ws str name reg dflt n s
  unfold Section at hc
  rw [says_find] at hc
  rw [e3, hc] at h
  cases hm : makeAll reg (typeOf name ((find kType s).getD (.leaf (str dflt)))) n (.child c) with
  | error e => rw [hm] at h; cases h
  | ok p =>
    rw [hm] at h
    simp only [Except.map, Except.ok.injEq, Prod.mk.injEq] at h
    obtain ⟨_, h2⟩ := h
    subst h2
    have hs : ∀ c', p = .child c' → Section (put kParams p s1) kParams c' := by
      intro c' hp
      unfold Section
      rw [says_find, find_put]
      simp [hp]
    by_cases hn : n = 0
    · subst hn
      simp only [makeAll, Except.ok.injEq] at hm
      exact ⟨c, hs c hm.symm, fun _ _ hp _ => hp⟩
    · obtain ⟨t, f, c1, c', g1, g2, g3, g4, g5⟩ := makeAll_ok hm hn
      cases g3
      exact ⟨c', hs c' g4, g5 (hg t f g2)⟩

/-- C192: a known type and a section of parameters are all that is needed -/
theorem C192_fixed_succeeds {ws : Char → Bool} {str : Str → A} {name : A → Option Str} {reg : Registry A} {dflt : Str} (n : Nat) {s c : Srv A}
    {a : A} {t : Str} {f : Srv A → Res (Srv A)} (h1 : Says s kType (.leaf (str dflt)) (.leaf a)) (h2 : name a = some t) (h3 : reg t = some f)
    (h4 : Gentle f) (h5 : Section s kParams c) : ∃ r, fixed ws str name reg dflt n s = .ok r := by
  obtain ⟨s1, e1, e2, e3⟩ := fixed_eq ws str name reg dflt n s
  unfold Section at h5
  rw [says_find] at h1 h5
  obtain ⟨c', hc'⟩ := makeAll_total h3 h4 n c
  rw [e3, h1, h5]
  have : typeOf name (Val.leaf a) = some t := h2
  rw [this, hc']
  exact ⟨_, rfl⟩

/-- C192: with an unknown type and at least one agent the generation is aborted -/
theorem C192_fixed_unknown {ws : Char → Bool} {str : Str → A} {name : A → Option Str} {reg : Registry A} {dflt : Str} {n : Nat} {s : Srv A}
    {a : A} {t : Str} (h1 : Says s kType (.leaf (str dflt)) (.leaf a)) (h2 : name a = some t) (h3 : reg t = none) (hn : n ≠ 0) :
    ¬ ∃ r, fixed ws str name reg dflt n s = .ok r := by
  rintro ⟨⟨ms, s'⟩, h⟩
  obtain ⟨_, ⟨v, v1, v2, v3⟩, _⟩ := C192_fixed h
  obtain ⟨a', t', f, g1, g2, g3, _⟩ := v3 hn
  rw [says_find] at h1 v1
  rw [v1, g1] at h1
  cases h1
  rw [h2] at g2
  cases g2
  rw [h3] at g3
  cases g3

/-- C192: reading the configuration again, for the next scenario, gives models of the same type -/
theorem C192_fixed_again {ws : Char → Bool} {str : Str → A} {name : A → Option Str} {reg : Registry A} {dflt d' : Str} {n n' : Nat}
    {s s' s'' : Srv A} {ms ms' : List Made} (h : fixed ws str name reg dflt n s = .ok (ms, s')) (h' : fixed ws str name reg d' n' s' = .ok (ms', s'')) :
    ∀ m ∈ ms, ∀ m' ∈ ms', m = m' := by
  intro m hm m' hm'
  obtain ⟨l1, ⟨v, v1, v2, v3⟩, _⟩ := C192_fixed h
  obtain ⟨l2, ⟨u, u1, u2, u3⟩, _⟩ := C192_fixed h'
  have hn : n ≠ 0 := by rintro rfl; rw [List.length_eq_zero_iff] at l1; rw [l1] at hm; cases hm
  have hn' : n' ≠ 0 := by rintro rfl; rw [List.length_eq_zero_iff] at l2; rw [l2] at hm'; cases hm'
  obtain ⟨a, t, f, g1, g2, _, g4⟩ := v3 hn
  obtain ⟨b, t', f', k1, k2, _, k4⟩ := u3 hn'
  rw [says_find, has_iff.1 v2] at u1
  simp only [Option.getD_some] at u1
  rw [g1, k1] at u1
  cases u1
  rw [g2] at k2
  cases k2
  obtain ⟨x1, x2⟩ := g4 m hm
  obtain ⟨y1, y2⟩ := k4 m' hm'
  cases m; cases m'
  simp only at x1 x2 y1 y2
  rw [x1, x2, y1, y2]

theorem mapM_replicate {β : Type} (x : Res β) : ∀ (n : Nat) (l : List β), (List.replicate n ()).mapM (fun _ => x) = .ok l →
    l.length = n ∧ (n ≠ 0 → ∃ b, x = .ok b) := by
  intro n
  induction n with
  | zero => intro l h; simp only [List.replicate_zero, List.mapM_nil, pure, Except.pure, Except.ok.injEq] at h; subst h; simp
  | succ n ih =>
    intro l h
    rw [List.replicate_succ, List.mapM_cons] at h
    cases x with
    | error e => cases h
    | ok b =>
      simp only [bind, Except.bind] at h
      cases hr : (List.replicate n ()).mapM (fun _ => (Except.ok b : Res β)) with
      | error e => rw [hr] at h; cases h
      | ok bs =>
        rw [hr] at h
        simp only [pure, Except.pure, Except.ok.injEq] at h
        subst h
        exact ⟨by simp [(ih bs hr).1], fun _ => ⟨b, rfl⟩⟩

/-- C192: execution models: one per agent, of the configured type, each with parameters of its own; only the type is stored -/
theorem C192_execution {ws : Char → Bool} {str : Str → A} {name : A → Option Str} {reg : Registry A} {dflt : Str} {n : Nat} {s s' : Srv A}
    {ms : List Made} (h : fixedExecution ws str name reg dflt n s = .ok (ms, s')) :
    ms.length = n ∧ (∃ v, Says s kType (.leaf (str dflt)) v ∧ Has s' kType v ∧
      (n ≠ 0 → ∃ a t f, v = .leaf a ∧ name a = some t ∧ reg t = some f ∧ ∀ m ∈ ms, m.type = t ∧ m.server = none)) ∧
    Untouched [kType] s s' := by
  obtain ⟨s1, e1, e2, e3⟩ := getItemD_leaf ws kType (str dflt) s
  unfold fixedExecution at h
  rw [e1] at h
  simp only at h
  split at h
  · cases h
  · rename_i ps hps
    simp only [Except.ok.injEq, Prod.mk.injEq] at h
    obtain ⟨h1, h2⟩ := h
    subst h1 h2
    obtain ⟨k1, k2⟩ := mapM_replicate _ _ _ hps
    refine ⟨by simp [k1], ⟨_, says_find.2 rfl, has_iff.2 e2, ?_⟩, ?_⟩
    · intro hn
      obtain ⟨b, hb⟩ := k2 hn
      obtain ⟨t, f, c, c', g1, g2, _⟩ := make_ok hb
      obtain ⟨a, a1, a2⟩ := typeOf_some g1
      refine ⟨a, t, f, a1, a2, g2, ?_⟩
      intro m hmem
      rw [List.mem_map] at hmem
      obtain ⟨_, _, rfl⟩ := hmem
      rw [g1]
      exact ⟨rfl, rfl⟩
    · intro k v hk
      simp only [List.mem_cons, List.not_mem_nil, or_false] at hk
      rw [has_iff, has_iff, e3 _ hk]

end Bark.Read
