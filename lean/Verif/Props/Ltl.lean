import Verif.Spec.Ltl
import Mathlib.Data.List.Basic
import Mathlib.Data.List.Nodup
import Mathlib.Data.List.Induction
import Mathlib.Data.List.Dedup
import Mathlib.Tactic.IntervalCases

/-! C43, C82: the LTL evaluator. -/
namespace Bark.Ltl
open Bark LtlSpec
set_option linter.unusedSectionVars false

variable {A L : Type}

theorem addKnown_mem (cur known : List Nat) (i : Nat) : i ∈ addKnown known cur ↔ i ∈ known ∨ i ∈ cur := by
  unfold addKnown
  induction cur generalizing known with
  | nil => simp
  | cons j cur ih =>
    rw [List.foldl_cons, ih]
    by_cases g : j ∈ known
    · rw [if_pos g, List.mem_cons]
      constructor
      · rintro (h | h) <;> simp [h]
      · rintro (h | h | h)
        · exact Or.inl h
        · exact Or.inl (h ▸ g)
        · exact Or.inr h
    · rw [if_neg g]; simp [or_assoc]

theorem runAll_eq (run : L → A → A × Bool) (final : A → Bool) (labels : L) (ms : List (Mon A)) (s g : Nat) :
    runAll run final labels ms s g =
      (ms.map (fun m => { m with st := (run labels m.st).1 }),
       s + (ms.filter (fun m => (run labels m.st).2)).length,
       g + (ms.filter (fun m => final (run labels m.st).1)).length) := by
  induction ms generalizing s g with
  | nil => rfl
  | cons m ms ih =>
    simp only [runAll, ih, List.map_cons]
    refine Prod.ext rfl (Prod.ext ?_ ?_)
    · cases h : (run labels m.st).2 <;> simp [h] <;> omega
    · cases h : final (run labels m.st).1 <;> simp [h] <;> omega

/-- what holds of the evaluator after the evaluations `es` -/
structure Inv (run : L → A → A × Bool) (start : A) (k : Nat) (es : List (List Nat × L)) (e : Ev A) : Prop where
  known : ∀ i, i ∈ e.known ↔ ∃ x ∈ es, i ∈ x.1
  nodup : (e.mons.map Mon.ids).Nodup
  sound : ∀ m ∈ e.mons, ∃ now, WatchedSince k es now m.ids ∧ m.st = runFrom run start now
  complete : ∀ t now, WatchedSince k es now t → ∃ m ∈ e.mons, m.ids = t

variable {run : L → A → A × Bool} {final : A → Bool} {start : A} {k : Nat} {make : List Nat → List Nat → List (Mon A)}

/-- the monitors that are run in an evaluation -/
theorem prepared (hm : MakeContract k start make) {es : List (List Nat × L)} {e : Ev A} (h : Inv run start k es e)
    (cur : List Nat) (labels : L) :
    ((prepare true make cur e).mons.map Mon.ids).Nodup ∧
    (∀ m ∈ (prepare true make cur e).mons, ∃ now, WatchedSince k (es ++ [(cur, labels)]) (now ++ [(cur, labels)]) m.ids ∧
      m.st = runFrom run start now) ∧
    (∀ t now, WatchedSince k (es ++ [(cur, labels)]) now t → ∃ m ∈ (prepare true make cur e).mons, m.ids = t) := by
  have hmons : (prepare true make cur e).mons = removeStates (e.mons ++ make cur e.known) cur := by
    unfold prepare; simp
  rw [hmons]
  have hin : ∀ m ∈ removeStates (e.mons ++ make cur e.known) cur, (m ∈ e.mons ∨ m ∈ make cur e.known) ∧
      ∀ i ∈ m.ids, i ∈ cur := by
    intro m hmm
    unfold removeStates at hmm
    rw [List.mem_filter, List.mem_append, List.all_eq_true] at hmm
    exact ⟨hmm.1, fun i hi => of_decide_eq_true (hmm.2 i hi)⟩
  have hmem : ∀ m, (m ∈ e.mons ∨ m ∈ make cur e.known) → (∀ i ∈ m.ids, i ∈ cur) →
      m ∈ removeStates (e.mons ++ make cur e.known) cur := by
    intro m h1 h2
    unfold removeStates
    rw [List.mem_filter, List.mem_append, List.all_eq_true]
    exact ⟨h1, fun i hi => decide_eq_true (h2 i hi)⟩
  refine ⟨?_, ?_, ?_⟩
  · refine List.Nodup.sublist (List.Sublist.map _ List.filter_sublist) ?_
    rw [List.map_append, List.nodup_append]
    refine ⟨h.nodup, hm.nodup _ _, ?_⟩
    intro a ha b hb hab
    subst hab
    obtain ⟨m1, hm1, e1⟩ := List.mem_map.1 ha
    obtain ⟨m2, hm2, e2⟩ := List.mem_map.1 hb
    obtain ⟨_, _, i, hi, hik⟩ := hm.sound _ _ m2 hm2
    obtain ⟨now, ⟨_, _, hne, hall, pre, he, _⟩, _⟩ := h.sound m1 hm1
    obtain ⟨x, hx⟩ := List.exists_mem_of_ne_nil _ hne
    refine hik ((h.known i).2 ⟨x, he ▸ List.mem_append_right _ hx, hall x hx i ?_⟩)
    rw [e1, ← e2]; exact hi
  · intro m hmm
    obtain ⟨h1, h2⟩ := hin m hmm
    rcases h1 with h1 | h1
    · obtain ⟨now, ⟨a1, a2, a3, a4, pre, a5, a6⟩, hst⟩ := h.sound m h1
      refine ⟨now, ⟨a1, a2, by simp, ?_, pre, by rw [a5, List.append_assoc], a6⟩, hst⟩
      intro x hx
      rcases List.mem_append.1 hx with hx | hx
      · exact a4 x hx
      · rw [List.mem_singleton] at hx; subst hx; exact h2
    · obtain ⟨a1, a2, i, hi, hik⟩ := hm.sound _ _ m h1
      refine ⟨[], ⟨a1, a2, by simp, ?_, es, rfl, i, hi, ?_⟩, hm.fresh _ _ m h1⟩
      · intro x hx
        rw [List.nil_append, List.mem_singleton] at hx; subst hx; exact h2
      · intro x hx hix
        exact hik ((h.known i).2 ⟨x, hx, hix⟩)
  · rintro t now ⟨a1, a2, a3, a4, pre, a5, i, hi, a6⟩
    obtain ⟨now', z, rfl⟩ : ∃ now' z, now = now' ++ [z] :=
      ⟨now.dropLast, now.getLast a3, (List.dropLast_append_getLast a3).symm⟩
    rw [← List.append_assoc] at a5
    obtain ⟨e1, e2⟩ := List.append_inj' a5 rfl
    cases e2
    have hcur : ∀ i ∈ t, i ∈ cur := a4 (cur, labels) (by simp)
    by_cases hn : now' = []
    · subst hn
      rw [List.append_nil] at e1; subst e1
      obtain ⟨m, b1, b2⟩ := hm.complete cur e.known t a1 a2 hcur
        ⟨i, hi, fun hk => by
          obtain ⟨x, hx, hix⟩ := (h.known i).1 hk
          exact a6 x hx hix⟩
      exact ⟨m, hmem m (Or.inr b1) (by rw [b2]; exact hcur), b2⟩
    · obtain ⟨m, b1, b2⟩ := h.complete t now'
        ⟨a1, a2, hn, fun x hx => a4 x (List.mem_append_left _ hx), pre, e1, i, hi, a6⟩
      exact ⟨m, hmem m (Or.inl b1) (by rw [b2]; exact hcur), b2⟩

theorem step_inv (hm : MakeContract k start make) {es : List (List Nat × L)} {e : Ev A} (h : Inv run start k es e)
    (cur : List Nat) (labels : L) :
    Inv run start k (es ++ [(cur, labels)]) (evaluateObs true make run final cur labels e).1 := by
  obtain ⟨p1, p2, p3⟩ := prepared hm h cur labels
  unfold evaluateObs
  simp only [runAll_eq]
  refine ⟨?_, ?_, ?_, ?_⟩
  · intro i
    show i ∈ (prepare true make cur e).known ↔ _
    have : (prepare true make cur e).known = addKnown e.known cur := by unfold prepare; simp
    rw [this, addKnown_mem, h.known]
    simp only [List.mem_append, List.mem_singleton]
    constructor
    · rintro (⟨x, hx, hi⟩ | hi)
      · exact ⟨x, Or.inl hx, hi⟩
      · exact ⟨_, Or.inr rfl, hi⟩
    · rintro ⟨x, hx | rfl, hi⟩
      · exact Or.inl ⟨x, hx, hi⟩
      · exact Or.inr hi
  · simp only [List.map_map]; exact p1
  · intro m hmm
    obtain ⟨m0, h0, rfl⟩ := List.mem_map.1 hmm
    obtain ⟨now, w, hst⟩ := p2 m0 h0
    refine ⟨now ++ [(cur, labels)], w, ?_⟩
    unfold runFrom at hst ⊢
    rw [List.foldl_append, ← hst]; rfl
  · intro t now w
    obtain ⟨m, b1, b2⟩ := p3 t now w
    exact ⟨_, List.mem_map.2 ⟨m, b1, rfl⟩, b2⟩

theorem init_inv (global : A) : Inv run start k ([] : List (List Nat × L)) (init true global) := by
  refine ⟨by simp [init], by simp [init], by simp [init], ?_⟩
  rintro t now ⟨_, _, h, _, pre, he, _⟩
  exact absurd (List.append_eq_nil_iff.1 he.symm).2 h

theorem after_append (specific : Bool) (hist : List (Option (List Nat × L))) (o : Option (List Nat × L)) (e : Ev A) :
    after specific make run final (hist ++ [o]) e =
      (evaluate specific make run final o (after specific make run final hist e)).1 := by
  unfold after; rw [List.foldl_append]; rfl

theorem after_inv (hm : MakeContract k start make) (global : A) (hist : List (Option (List Nat × L))) :
    Inv run start k (seen hist) (after true make run final hist (init true global)) := by
  induction hist using List.reverseRecOn with
  | nil => exact init_inv global
  | append_singleton hist o ih =>
    rw [after_append]
    cases o with
    | none => simpa [seen, evaluate] using ih
    | some o =>
      have : seen (hist ++ [some o]) = seen hist ++ [o] := by simp [seen]
      rw [this]
      exact step_inv hm ih o.1 o.2

theorem watched_len {es n1 n2 : List (List Nat × L)} {t : List Nat} (w1 : WatchedSince k es n1 t)
    (w2 : WatchedSince k es n2 t) : n2.length ≤ n1.length := by
  obtain ⟨_, _, c3, _, p1, c5, i, hi, c6⟩ := w1
  obtain ⟨_, _, _, d4, p2, d5, _⟩ := w2
  by_contra hlt
  push Not at hlt
  rw [c5] at d5
  rcases List.append_eq_append_iff.1 d5 with ⟨q, q1, q2⟩ | ⟨q, q1, q2⟩
  · have := congrArg List.length q2
    rw [List.length_append] at this; omega
  · have hq : q ≠ [] := by
      rintro rfl
      simp only [List.nil_append] at q2
      rw [q2] at hlt; omega
    obtain ⟨x, hx⟩ := List.exists_mem_of_ne_nil _ hq
    exact c6 x (q1 ▸ List.mem_append_right _ hx) (d4 x (q2 ▸ List.mem_append_left _ hx) i hi)

theorem watched_unique {es n1 n2 : List (List Nat × L)} {t : List Nat} (w1 : WatchedSince k es n1 t)
    (w2 : WatchedSince k es n2 t) : n1 = n2 := by
  have hl := le_antisymm (watched_len w1 w2) (watched_len w2 w1)
  obtain ⟨_, _, _, _, q1, c5, _⟩ := w1
  obtain ⟨_, _, _, _, q2, d5, _⟩ := w2
  exact List.append_inj_right' (c5.symm.trans d5) hl.symm

/-- **C43** (monitors, exactly what happens): after every history a tuple has at most one monitor; it has one exactly if its
agents are distinct, as many as the rule is about, and all present ever since the moment the last of them appeared for
the first time; the monitor has then seen exactly the labels since that moment. -/
theorem C43_monitors (hm : MakeContract k start make) (global : A) (hist : List (Option (List Nat × L))) :
    ((after true make run final hist (init true global)).mons.map Mon.ids).Nodup ∧
    (∀ t, (∃ m ∈ (after true make run final hist (init true global)).mons, m.ids = t) ↔
      ∃ now, WatchedSince k (seen hist) now t) ∧
    ∀ m ∈ (after true make run final hist (init true global)).mons, ∀ now, WatchedSince k (seen hist) now m.ids →
      m.st = runFrom run start now := by
  have h := after_inv (run := run) (final := final) hm global hist
  refine ⟨h.nodup, fun t => ⟨?_, fun ⟨now, w⟩ => h.complete t now w⟩, ?_⟩
  · rintro ⟨m, hmm, rfl⟩
    obtain ⟨now, w, _⟩ := h.sound m hmm
    exact ⟨now, w⟩
  · intro m hmm now w
    obtain ⟨now', w', hst⟩ := h.sound m hmm
    rw [watched_unique w w']; exact hst

theorem watched_exists (hk : 1 ≤ k) (es : List (List Nat × L)) (cur : List Nat) (labels : L)
    (hr : NoReturn (es ++ [(cur, labels)])) (t : List Nat) (a1 : t.length = k) (a2 : t.Nodup) (a3 : ∀ i ∈ t, i ∈ cur) :
    ∃ now, WatchedSince k (es ++ [(cur, labels)]) now t := by
  induction es using List.reverseRecOn generalizing cur labels with
  | nil =>
    obtain ⟨i, hi⟩ := List.exists_mem_of_ne_nil t (by rintro rfl; simp at a1; omega)
    exact ⟨[(cur, labels)], a1, a2, by simp, by simpa using a3, [], rfl, i, hi, by simp⟩
  | append_singleton es e ih =>
    by_cases hall : ∀ i ∈ t, i ∈ e.1
    · have hr' : NoReturn (es ++ [e]) := by
        intro a b c x y z hab hbc ha hb hc
        have hc' := (List.getElem?_eq_some_iff.1 hc).1
        refine hr a b c x y z hab hbc ?_ ?_ ?_ <;>
          rw [List.getElem?_append_left (by omega)] <;> assumption
      have hq := ih e.1 e.2 hr' hall
      obtain ⟨now, b1, b2, b3, b4, pre, b5, b6⟩ := hq
      refine ⟨now ++ [(cur, labels)], b1, b2, by simp, ?_, pre, ?_, b6⟩
      · intro x hx
        rcases List.mem_append.1 hx with hx | hx
        · exact b4 x hx
        · rw [List.mem_singleton] at hx; subst hx; exact a3
      · rw [← List.append_assoc, ← b5]
    · push Not at hall
      obtain ⟨i, hi, hne⟩ := hall
      refine ⟨[(cur, labels)], a1, a2, by simp, by simpa using a3, es ++ [e], rfl, i, hi, ?_⟩
      intro x hx hix
      obtain ⟨n, hn⟩ := List.mem_iff_getElem?.1 hx
      have hn' := (List.getElem?_eq_some_iff.1 hn).1
      rw [List.length_append, List.length_singleton] at hn'
      refine hne (hr n es.length (es.length + 1) x e (cur, labels) (by omega) (by omega) ?_ ?_ ?_ i hix (a3 i hi))
      · rw [List.getElem?_append_left (by simp; omega)]; exact hn
      · simp
      · rw [List.getElem?_append_right (by simp)]; simp

/-- **C43** (monitors, no returns): if no agent that left ever comes back, then after every evaluation exactly the tuples of
distinct present agents of the size the rule demands have a monitor, and each exactly one.  Violated without the
hypothesis: `C43_return_violated`. -/
theorem C43_one_monitor (hm : MakeContract k start make) (hk : 1 ≤ k) (global : A)
    (hist : List (Option (List Nat × L))) (cur : List Nat) (labels : L)
    (hr : NoReturn (seen (hist ++ [some (cur, labels)]))) (t : List Nat) :
    ((after true make run final (hist ++ [some (cur, labels)]) (init true global)).mons.filter
        (fun m => decide (m.ids = t))).length = if t.length = k ∧ t.Nodup ∧ ∀ i ∈ t, i ∈ cur then 1 else 0 := by
  obtain ⟨h1, h2, _⟩ := C43_monitors (run := run) (final := final) hm global (hist ++ [some (cur, labels)])
  have hseen : seen (hist ++ [some (cur, labels)]) = seen hist ++ [(cur, labels)] := by simp [seen]
  rw [hseen] at h2 hr
  have hcount : ∀ l : List (Mon A), (l.map Mon.ids).Nodup → (l.filter (fun m => decide (m.ids = t))).length =
      if ∃ m ∈ l, m.ids = t then 1 else 0 := by
    intro l hl
    induction l with
    | nil => simp
    | cons m l ih =>
      rw [List.map_cons, List.nodup_cons] at hl
      by_cases g : m.ids = t
      · rw [List.filter_cons_of_pos (by simp [g]), if_pos ⟨m, by simp, g⟩, List.length_cons, ih hl.2,
          if_neg]
        rintro ⟨x, hx, he⟩
        exact hl.1 (List.mem_map.2 ⟨x, hx, he.trans g.symm⟩)
      · rw [List.filter_cons_of_neg (by simp [g]), ih hl.2]
        simp [g]
  rw [hcount _ h1]
  have hiff : (∃ m ∈ (after true make run final (hist ++ [some (cur, labels)]) (init true global)).mons, m.ids = t) ↔
      (t.length = k ∧ t.Nodup ∧ ∀ i ∈ t, i ∈ cur) := by
    rw [h2]
    constructor
    · rintro ⟨now, a1, a2, a3, a4, pre, a5, _⟩
      refine ⟨a1, a2, ?_⟩
      have hz : now.getLast a3 = (cur, labels) := by
        have : (pre ++ now).getLast (by simp [a3]) = (seen hist ++ [(cur, labels)]).getLast (by simp) := by
          congr 1; exact a5.symm
        rwa [List.getLast_append_of_ne_nil _ a3, List.getLast_concat] at this
      have := a4 _ (List.getLast_mem a3)
      rwa [hz] at this
    · rintro ⟨a1, a2, a3⟩
      exact watched_exists hk _ cur labels hr t a1 a2 a3
  by_cases g : t.length = k ∧ t.Nodup ∧ ∀ i ∈ t, i ∈ cur
  · rw [if_pos g, if_pos (hiff.2 g)]
  · rw [if_neg g, if_neg (fun h => g (hiff.1 h))]

/-- **C43** (safety count): one evaluation increases the number of safety violations by the number of watched tuples whose
automaton — started when the tuple was first complete — penalises the new labels; the returned number is that count plus the
tuples whose guarantee would be violated if the trace ended now. -/
theorem C43_safety (hm : MakeContract k start make) (global : A) (hist : List (Option (List Nat × L)))
    (cur : List Nat) (labels : L) :
    ∃ bad unmet : List (List Nat), bad.Nodup ∧ unmet.Nodup ∧
      (∀ t, t ∈ bad ↔ ∃ now, WatchedSince k (seen hist ++ [(cur, labels)]) (now ++ [(cur, labels)]) t ∧
        (run labels (runFrom run start now)).2 = true) ∧
      (∀ t, t ∈ unmet ↔ ∃ now, WatchedSince k (seen hist ++ [(cur, labels)]) now t ∧
        final (runFrom run start now) = true) ∧
      (after true make run final (hist ++ [some (cur, labels)]) (init true global)).safety =
        (after true make run final hist (init true global)).safety + bad.length ∧
      (evaluate true make run final (some (cur, labels)) (after true make run final hist (init true global))).2 =
        (after true make run final hist (init true global)).safety + bad.length + unmet.length := by
  have h := after_inv (run := run) (final := final) hm global hist
  rw [after_append]
  generalize after true make run final hist (init true global) = e at h
  obtain ⟨p1, p2, p3⟩ := prepared hm h cur labels
  have hsf : (prepare true make cur e).safety = e.safety := by unfold prepare; simp
  generalize hms : (prepare true make cur e).mons = ms at p1 p2 p3
  have hlast : ∀ t now, WatchedSince k (seen hist ++ [(cur, labels)]) now t → ∃ now', now = now' ++ [(cur, labels)] := by
    rintro t now ⟨_, _, a3, _, pre, a5, _⟩
    refine ⟨now.dropLast, ?_⟩
    have hz : now.getLast a3 = (cur, labels) := by
      have : (pre ++ now).getLast (by simp [a3]) = (seen hist ++ [(cur, labels)]).getLast (by simp) := by
        congr 1; exact a5.symm
      rwa [List.getLast_append_of_ne_nil _ a3, List.getLast_concat] at this
    rw [← hz, List.dropLast_append_getLast]
  have hst : ∀ m ∈ ms, ∀ now, WatchedSince k (seen hist ++ [(cur, labels)]) (now ++ [(cur, labels)]) m.ids →
      m.st = runFrom run start now := by
    intro m hmm now w
    obtain ⟨now', w', e'⟩ := p2 m hmm
    rw [e', List.append_cancel_right (watched_unique w w')]
  have hnd : ∀ q : Mon A → Bool, ((ms.filter q).map Mon.ids).Nodup := fun q =>
    List.Nodup.sublist (List.Sublist.map _ List.filter_sublist) p1
  have hrun : ∀ now, (run labels (runFrom run start now)).1 = runFrom run start (now ++ [(cur, labels)]) := by
    intro now; unfold runFrom; rw [List.foldl_append]; rfl
  refine ⟨(ms.filter (fun m => (run labels m.st).2)).map Mon.ids,
    (ms.filter (fun m => final (run labels m.st).1)).map Mon.ids, hnd _, hnd _, ?_, ?_, ?_, ?_⟩
  · intro t
    simp only [List.mem_map, List.mem_filter]
    constructor
    · rintro ⟨m, ⟨hmm, hb⟩, rfl⟩
      obtain ⟨now, w, e'⟩ := p2 m hmm
      exact ⟨now, w, e' ▸ hb⟩
    · rintro ⟨now, w, hb⟩
      obtain ⟨m, hmm, rfl⟩ := p3 t _ w
      exact ⟨m, ⟨hmm, by rw [hst m hmm now w]; exact hb⟩, rfl⟩
  · intro t
    simp only [List.mem_map, List.mem_filter]
    constructor
    · rintro ⟨m, ⟨hmm, hb⟩, rfl⟩
      obtain ⟨now, w, e'⟩ := p2 m hmm
      exact ⟨_, w, by rw [← hrun, ← e']; exact hb⟩
    · rintro ⟨now, w, hb⟩
      obtain ⟨now', rfl⟩ := hlast t now w
      obtain ⟨m, hmm, rfl⟩ := p3 t _ w
      exact ⟨m, ⟨hmm, by rw [hst m hmm now' w, hrun]; exact hb⟩, rfl⟩
  · simp only [evaluate, evaluateObs, runAll_eq, hms, hsf, List.length_map]
  · simp only [evaluate, evaluateObs, runAll_eq, hms, hsf, List.length_map, Nat.zero_add]

/-- **C43** (monotone): the number of safety violations never decreases, for any library and any kind of rule, and is what
is returned while the evaluator's agent is gone. -/
theorem C43_never_decreases (specific : Bool) (hist more : List (Option (List Nat × L))) (e : Ev A) :
    (after specific make run final hist e).safety ≤ (after specific make run final (hist ++ more) e).safety ∧
    (evaluate specific make run final none e) = (e, e.safety) := by
  refine ⟨?_, rfl⟩
  induction more using List.reverseRecOn with
  | nil => simp
  | append_singleton more o ih =>
    rw [← List.append_assoc, after_append]
    refine le_trans ih ?_
    cases o with
    | none => exact le_refl _
    | some o =>
      simp only [evaluate, evaluateObs, runAll_eq]
      have : ∀ x : Ev A, (prepare specific make o.1 x).safety = x.safety := by
        intro x; unfold prepare; cases specific <;> simp
      rw [this]
      exact Nat.le_add_right _ _

/-- **C43** (rules not about other agents): there is always exactly one monitor, and it has seen the labels of every
evaluation since the evaluator was created. -/
theorem C43_global (global : A) (hist : List (Option (List Nat × L))) :
    (after false make run final hist (init false global)).mons =
      [{ ids := [], st := runFrom run global (seen hist) }] := by
  induction hist using List.reverseRecOn with
  | nil => rfl
  | append_singleton hist o ih =>
    rw [after_append]
    cases o with
    | none => simpa [seen, evaluate] using ih
    | some o =>
      have : seen (hist ++ [some o]) = seen hist ++ [o] := by simp [seen]
      rw [this]
      simp only [evaluate, evaluateObs, runAll_eq]
      have hp : ∀ x : Ev A, prepare false make o.1 x = x := by intro x; unfold prepare; simp
      rw [hp, ih]
      simp [runFrom]

/-- **C43 is violated** (general): if an agent was present, then absent in an evaluation, and is present again, no tuple made
of agents seen before its return contains it: it is never monitored again together with them — whatever it does. -/
theorem C43_return_unmonitored (hm : MakeContract k start make) (global : A)
    (es1 es2 : List (List Nat × L)) (gap : List Nat × L) (i : Nat) (t : List Nat) (hi : i ∈ t) (hgap : i ∉ gap.1)
    (hseen : ∀ j ∈ t, ∃ e ∈ es1, j ∈ e.1) :
    ¬ ∃ m ∈ (after true make run final ((es1 ++ gap :: es2).map some) (init true global)).mons, m.ids = t := by
  have hs : seen ((es1 ++ gap :: es2).map some) = es1 ++ gap :: es2 := by
    unfold seen
    rw [List.filterMap_map]
    simp
  have := (C43_monitors (run := run) (final := final) hm global ((es1 ++ gap :: es2).map some)).2.1 t
  rw [this, hs]
  rintro ⟨now, _, _, a3, a4, pre, a5, j, hj, a6⟩
  rcases List.append_eq_append_iff.1 a5 with ⟨q, q1, q2⟩ | ⟨q, q1, q2⟩
  · -- `pre` covers all of `es1`
    obtain ⟨e, he, hje⟩ := hseen j hj
    exact a6 e (q1 ▸ List.mem_append_left _ he) hje
  · -- `now` covers `gap`
    exact hgap (a4 gap (q2 ▸ by simp) i hi)

/-- a correct library for rules about one other agent -/
def makeOne {A : Type} (start : A) (cur known : List Nat) : List (Mon A) :=
  (cur.dedup.filter (fun i => decide (i ∉ known))).map (fun i => { ids := [i], st := start })

theorem makeOne_contract (start : A) : MakeContract 1 start (makeOne start) := by
  refine ⟨?_, ?_, ?_, ?_⟩
  · intro cur known
    unfold makeOne
    rw [List.map_map]
    refine List.Nodup.map (fun a b h => by simpa using h) ((List.nodup_dedup cur).filter _)
  · intro cur known m hmm
    obtain ⟨i, _, rfl⟩ := List.mem_map.1 hmm; rfl
  · intro cur known m hmm
    obtain ⟨i, hi, rfl⟩ := List.mem_map.1 hmm
    exact ⟨rfl, by simp, i, by simp, of_decide_eq_true (List.mem_filter.1 hi).2⟩
  · rintro cur known t h1 _ h3 ⟨i, hi, hk⟩
    obtain ⟨j, rfl⟩ := List.length_eq_one_iff.1 h1
    rw [List.mem_singleton] at hi; subst hi
    exact ⟨_, List.mem_map.2 ⟨i, List.mem_filter.2 ⟨List.mem_dedup.2 (h3 i (by simp)), decide_eq_true hk⟩, rfl⟩, rfl⟩

/-- **C43 is violated** (witness): the rule penalises every evaluation; agent 5 is present, leaves and returns.  The first
evaluation counts one violation, the last, with agent 5 present again and still in violation, none. -/
theorem C43_return_violated :
    let run : Unit → Unit → Unit × Bool := fun _ _ => ((), true)
    let e1 := after true (makeOne ()) run (fun _ => false) [some ([5], ())] (init true ())
    let e3 := after true (makeOne ()) run (fun _ => false) [some ([5], ()), some ([], ()), some ([5], ())] (init true ())
    e1.safety = 1 ∧ e3.safety = 1 ∧ e3.mons.map Mon.ids = [] := by decide

example : NoReturn (L := Unit) [([5], ()), ([5, 7], ()), ([7], ())] := by
  intro a b c x y z hab hbc ha hb hc i hx hz
  have h1 := (List.getElem?_eq_some_iff.1 hc).1
  simp only [List.length_cons, List.length_nil] at h1
  interval_cases c <;> interval_cases b <;> interval_cases a <;> (try simp_all) <;> (subst_vars; simp_all)

/-! ### C82: labels -/

theorem insertLabels_find {N V : Type} [LinearOrder N] (l m : OMap N V) (n : N) :
    OMap.find n (l.foldl (fun m p => if (OMap.find p.1 m).isSome then m else OMap.insert p.1 p.2 m) m) =
      (OMap.find n m).or (OMap.find n l) := by
  induction l generalizing m with
  | nil => simp [OMap.find]
  | cons p l ih =>
    rw [List.foldl_cons, ih]
    by_cases g : (OMap.find p.1 m).isSome
    · rw [if_pos g]
      by_cases hn : n = p.1
      · subst hn
        obtain ⟨v, hv⟩ := Option.isSome_iff_exists.1 g
        rw [hv]; simp
      · have hcons : OMap.find n (p :: l) = OMap.find n l := by
          simp only [OMap.find]; rw [if_neg (by first | exact hn | exact fun e => hn e.symm)]
        rw [hcons]
    · rw [if_neg g, OMap.find_insert]
      by_cases hn : n = p.1
      · subst hn
        rw [if_pos rfl]
        have hnone : OMap.find p.1 m = none := by simpa using g
        rw [hnone]; simp [OMap.find]
      · have hcons : OMap.find n (p :: l) = OMap.find n l := by
          simp only [OMap.find]; rw [if_neg (by first | exact hn | exact fun e => hn e.symm)]
        rw [if_neg hn, hcons]

/-- **C82**: the value of a label is the one given by the first label function that provides it; a label is defined iff some
label function provides it. -/
theorem C82_labels {N V : Type} [LinearOrder N] (fns : List (OMap N V)) (n : N) :
    OMap.find n (labelsOf fns) = (fns.filterMap (OMap.find n)).head? := by
  have key : ∀ m : OMap N V, OMap.find n (fns.foldl (fun m l => l.foldl
      (fun m p => if (OMap.find p.1 m).isSome then m else OMap.insert p.1 p.2 m) m) m) =
      (OMap.find n m).or (fns.filterMap (OMap.find n)).head? := by
    induction fns with
    | nil => simp
    | cons l fns ih =>
      intro m
      rw [List.foldl_cons, ih, insertLabels_find, Option.or_assoc]
      congr 1
      cases h : OMap.find n l <;> simp [h]
  exact (key []).trans (by simp [OMap.find])

end Bark.Ltl
