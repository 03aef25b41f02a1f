import Mathlib.Data.List.Forall2
import Mathlib.Data.List.Nodup
import Mathlib.Data.List.Basic
import Mathlib.Data.List.Lattice
import Mathlib.Data.List.NodupEquivFin
import Verif.Props.Viewer

/-! C186: which vehicles are drawn and in which colours. -/

namespace Bark.View
open Spec
set_option linter.unusedSectionVars false

section
variable {C K : Type} [Field K] [LinearOrder K]

/-- the effective evaluated agents -/
theorem kept_iff (f : Frame K) (i : Nat) : i ∈ (keptIds f).getD [] ↔ Evaluated f i := by
  obtain ⟨w, s, ev, d⟩ := f
  match ev with
  | none => simp [keptIds, Evaluated]
  | some [] => simp [keptIds, Evaluated]
  | some (e :: l) =>
    by_cases h : e ∈ w.agents
    · simp only [keptIds, if_pos h, Option.getD_some, Evaluated, Option.some.injEq, List.cons.injEq]
      constructor
      · exact fun hi => ⟨e, l, ⟨rfl, rfl⟩, h, hi⟩
      · rintro ⟨_, _, ⟨rfl, rfl⟩, _, hi⟩; exact hi
    · simp only [keptIds, if_neg h, Option.getD_none, List.not_mem_nil, Evaluated, Option.some.injEq, List.cons.injEq, false_iff]
      rintro ⟨_, _, ⟨rfl, rfl⟩, h', _⟩; exact h h'

theorem sensed_iff (f : Frame K) (s : Scene K) :
    sensedWorld f = some s ↔ ∃ e l, f.evalIds = some (e :: l) ∧ e ∈ f.world.agents ∧ f.sensed e = some s := by
  obtain ⟨w, sn, ev, d⟩ := f
  match ev with
  | none => simp [sensedWorld, keptIds]
  | some [] => simp [sensedWorld, keptIds]
  | some (e :: l) =>
    by_cases h : e ∈ w.agents
    · simp only [sensedWorld, keptIds, if_pos h, Option.some.injEq, List.cons.injEq]
      constructor
      · exact fun hi => ⟨e, l, ⟨rfl, rfl⟩, h, hi⟩
      · rintro ⟨_, _, ⟨rfl, rfl⟩, _, hi⟩; exact hi
    · simp only [sensedWorld, keptIds, if_neg h, reduceCtorEq, Option.some.injEq, List.cons.injEq, false_iff]
      rintro ⟨_, _, ⟨rfl, rfl⟩, h', _⟩; exact h h'

/-- a dictionary grows from `m` to `m'`: old entries stay -/
def Grows (m m' : Colors C) : Prop := ∃ t, m' = m ++ t

theorem Grows.refl (m : Colors C) : Grows m m := ⟨[], by simp⟩

theorem Grows.trans {a b c : Colors C} : Grows a b → Grows b c → Grows a c := by
  rintro ⟨s, rfl⟩ ⟨t, rfl⟩; exact ⟨s ++ t, by simp⟩

theorem lookup_append_some {m t : Colors C} {i : Nat} {c : C} (h : m.lookup i = some c) : (m ++ t).lookup i = some c := by
  induction m with
  | nil => cases h
  | cons x m ih =>
    obtain ⟨a, b⟩ := x
    simp only [List.cons_append, List.lookup_cons] at h ⊢
    by_cases e : (i == a) = true
    · simp only [e] at h ⊢; exact h
    · have e' : (i == a) = false := by simpa using e
      simp only [e'] at h ⊢; exact ih h

theorem lookup_append_none {m t : Colors C} {i : Nat} (h : m.lookup i = none) : (m ++ t).lookup i = t.lookup i := by
  induction m with
  | nil => rfl
  | cons x m ih =>
    obtain ⟨a, b⟩ := x
    simp only [List.cons_append, List.lookup_cons] at h ⊢
    by_cases e : (i == a) = true
    · simp only [e] at h; cases h
    · have e' : (i == a) = false := by simpa using e
      simp only [e'] at h ⊢; exact ih h

theorem Grows.lookup {m m' : Colors C} (h : Grows m m') {i : Nat} {c : C} (hc : m.lookup i = some c) : m'.lookup i = some c := by
  obtain ⟨t, rfl⟩ := h; exact lookup_append_some hc

theorem lookup_none {m : Colors C} {i : Nat} : m.lookup i = none ↔ i ∉ m.map Prod.fst := by
  induction m with
  | nil => simp
  | cons x m ih =>
    obtain ⟨a, b⟩ := x
    simp only [List.lookup_cons, List.map_cons, List.mem_cons, not_or]
    by_cases e : (i == a) = true
    · simp only [e]; simp only [beq_iff_eq] at e; simp [e]
    · have e' : (i == a) = false := by simpa using e
      simp only [e']; rw [ih]
      simp only [beq_iff_eq] at e
      exact ⟨fun h => ⟨e, h⟩, fun h => h.2⟩

/-- the colour dictionary a viewer can have: keys once, the colours given out in the order of the colour map -/
def Fair (g : Config C K) (m : Colors C) : Prop :=
  (m.map Prod.fst).Nodup ∧ ∀ k x, m[k]? = some x → x.2 = g.cmap (k % g.size)

/-- what one call of `GetAgentColor` does -/
theorem agentColor_spec (g : Config C K) (m : Colors C) (ev : Option (List Nat)) (i : Nat) :
    Grows m (agentColor g m ev i).2 ∧ (Fair g m → Fair g (agentColor g m ev i).2) ∧
    (∀ j ∈ (agentColor g m ev i).2.map Prod.fst, j ∈ m.map Prod.fst ∨ j = i) ∧
    (i ∈ ev.getD [] → (agentColor g m ev i).1 = (g.evalLine, g.evalFace, g.alphaEval)) ∧
    (i ∉ ev.getD [] → (agentColor g m ev i).1.2.2 = g.alphaOther ∧
      (g.colormap = true → (agentColor g m ev i).2.lookup i = some (agentColor g m ev i).1.2.1) ∧
      (g.colormap = false → (agentColor g m ev i).1.2.1 = g.otherFace) ∧
      ((agentColor g m ev i).1.1 = if g.colormap = true ∧ g.fixedLine = false then (agentColor g m ev i).1.2.1 else g.otherLine)) := by
  unfold agentColor
  by_cases h : i ∈ ev.getD []
  · rw [if_pos h]
    exact ⟨Grows.refl _, id, fun j hj => Or.inl hj, fun _ => rfl, fun h' => absurd h h'⟩
  · rw [if_neg h]
    by_cases hc : g.colormap = true
    · rw [if_pos hc]
      by_cases hm : (m.lookup i).isSome = true
      · simp only [hm, if_true]
        obtain ⟨c, hcol⟩ := Option.isSome_iff_exists.1 hm
        refine ⟨Grows.refl _, id, fun j hj => Or.inl hj, fun h' => absurd h' h, fun _ => ⟨trivial, fun _ => ?_, fun e => ?_, ?_⟩⟩
        · rw [hcol]; rfl
        · rw [hc] at e; cases e
        · cases g.fixedLine <;> simp [hc]
      · have hm' : m.lookup i = none := by
          cases hq : m.lookup i with
          | none => rfl
          | some _ => rw [hq] at hm; exact absurd rfl hm
        simp only [hm, Bool.false_eq_true, if_false]
        have hl : (m ++ [(i, g.cmap (m.length % g.size))]).lookup i = some (g.cmap (m.length % g.size)) := by
          rw [lookup_append_none hm']; simp
        refine ⟨⟨_, rfl⟩, ?_, ?_, fun h' => absurd h' h, fun _ => ⟨trivial, fun _ => ?_, fun e => ?_, ?_⟩⟩
        · rintro ⟨h1, h2⟩
          refine ⟨?_, ?_⟩
          · rw [List.map_append, List.map_cons, List.map_nil]
            refine List.nodup_append.2 ⟨h1, by simp, ?_⟩
            intro a ha b hb
            rw [List.mem_singleton] at hb; subst hb
            rintro rfl
            exact lookup_none.1 hm' ha
          · intro k x hx
            by_cases hk : k < m.length
            · rw [List.getElem?_append_left hk] at hx; exact h2 k x hx
            · rw [List.getElem?_append_right (by omega)] at hx
              have hk0 : k - m.length = 0 := by
                by_contra hne
                rw [List.getElem?_eq_none (by simp; omega)] at hx; cases hx
              rw [hk0] at hx
              simp only [List.getElem?_cons_zero, Option.some.injEq] at hx
              subst hx
              have : k = m.length := by omega
              rw [this]
        · intro j hj
          rw [List.map_append, List.mem_append] at hj
          rcases hj with hj | hj
          · exact Or.inl hj
          · exact Or.inr (by simpa using hj)
        · rw [hl]; rfl
        · rw [hc] at e; cases e
        · cases g.fixedLine <;> simp [hc]
    · have hc' : g.colormap = false := by simpa using hc
      rw [if_neg hc]
      refine ⟨Grows.refl _, id, fun j hj => Or.inl hj, fun h' => absurd h' h, fun _ => ⟨rfl, fun e => absurd e hc, fun _ => rfl, ?_⟩⟩
      rw [if_neg]; rintro ⟨e, _⟩; exact hc e

/-- the style of a vehicle: evaluated agents have the colours for these; the others, if the colour map is used, the colour of the
dictionary -/
def Styled (g : Config C K) (ev : Option (List Nat)) (m : Colors C) (i : Nat) (line face : C) (alpha : K) : Prop :=
  (i ∈ ev.getD [] → line = g.evalLine ∧ face = g.evalFace ∧ alpha = g.alphaEval) ∧
  (i ∉ ev.getD [] → alpha = g.alphaOther ∧ (g.colormap = true → m.lookup i = some face) ∧
    (g.colormap = false → face = g.otherFace) ∧
    line = if g.colormap = true ∧ g.fixedLine = false then face else g.otherLine)

theorem Styled.grow {g : Config C K} {ev : Option (List Nat)} {m m' : Colors C} (h : Grows m m') {i : Nat} {a b : C} {x : K}
    (hs : Styled g ev m i a b x) : Styled g ev m' i a b x :=
  ⟨hs.1, fun hi => let ⟨h1, h2, h3, h4⟩ := hs.2 hi; ⟨h1, fun hc => h.lookup (h2 hc), h3, h4⟩⟩

theorem agentColor_styled (g : Config C K) (m : Colors C) (ev : Option (List Nat)) (i : Nat) :
    Styled g ev (agentColor g m ev i).2 i (agentColor g m ev i).1.1 (agentColor g m ev i).1.2.1 (agentColor g m ev i).1.2.2 := by
  obtain ⟨_, _, _, h4, h5⟩ := agentColor_spec g m ev i
  refine ⟨fun h => ?_, fun h => h5 h⟩
  rw [h4 h]; exact ⟨rfl, rfl, rfl⟩

theorem drawTrue_spec (g : Config C K) (ev : Option (List Nat)) : ∀ (l : List Nat) (m : Colors C),
    Grows m (drawTrue g ev l m).2 ∧ (Fair g m → Fair g (drawTrue g ev l m).2) ∧
    (∀ j ∈ (drawTrue g ev l m).2.map Prod.fst, j ∈ m.map Prod.fst ∨ j ∈ l) ∧
    List.Forall₂ (fun i (p : Patch C K) => p.id = i ∧ p.outline = true ∧ p.face = g.white ∧ p.hatch = false ∧
      ∃ face, Styled g ev (drawTrue g ev l m).2 i p.line face p.alpha) l (drawTrue g ev l m).1
  | [], m => ⟨Grows.refl _, id, fun j hj => Or.inl hj, .nil⟩
  | i :: l, m => by
    obtain ⟨a1, a2, a3, _⟩ := agentColor_spec g m ev i
    obtain ⟨b1, b2, b3, b4⟩ := drawTrue_spec g ev l (agentColor g m ev i).2
    simp only [drawTrue]
    refine ⟨a1.trans b1, fun h => b2 (a2 h), ?_, .cons ⟨rfl, rfl, rfl, rfl, _, (agentColor_styled g m ev i).grow b1⟩ b4⟩
    intro j hj
    rcases b3 j hj with h | h
    · rcases a3 j h with h | h
      · exact Or.inl h
      · exact Or.inr (by simp [h])
    · exact Or.inr (by simp [h])

theorem drawShown_spec (g : Config C K) (valid : List Nat) (ev : Option (List Nat)) : ∀ (l : List Nat) (m : Colors C),
    Grows m (drawShown g valid ev l m).2 ∧ (Fair g m → Fair g (drawShown g valid ev l m).2) ∧
    (∀ j ∈ (drawShown g valid ev l m).2.map Prod.fst, j ∈ m.map Prod.fst ∨ j ∈ l) ∧
    List.Forall₂ (fun i (p : Patch C K) => p.id = i ∧ p.outline = false ∧ (p.hatch = false ↔ i ∈ valid) ∧
      Styled g ev (drawShown g valid ev l m).2 i p.line p.face p.alpha)
      (l.filter (fun i => decide (i ∈ valid ∨ g.drawInvalid = true))) (drawShown g valid ev l m).1
  | [], m => ⟨Grows.refl _, id, fun j hj => Or.inl hj, .nil⟩
  | i :: l, m => by
    obtain ⟨a1, a2, a3, _⟩ := agentColor_spec g m ev i
    obtain ⟨b1, b2, b3, b4⟩ := drawShown_spec g valid ev l (agentColor g m ev i).2
    have hj : ∀ j ∈ (drawShown g valid ev l (agentColor g m ev i).2).2.map Prod.fst, j ∈ m.map Prod.fst ∨ j ∈ i :: l := by
      intro j hj
      rcases b3 j hj with h | h
      · rcases a3 j h with h | h
        · exact Or.inl h
        · exact Or.inr (by simp [h])
      · exact Or.inr (by simp [h])
    by_cases h : i ∈ valid ∨ g.drawInvalid = true
    · simp only [drawShown, if_pos h]
      refine ⟨a1.trans b1, fun h => b2 (a2 h), hj, ?_⟩
      rw [List.filter_cons_of_pos (by simpa using h)]
      refine .cons ⟨rfl, rfl, ?_, (agentColor_styled g m ev i).grow b1⟩ b4
      simp
    · simp only [drawShown, if_neg h]
      refine ⟨a1.trans b1, fun h => b2 (a2 h), hj, ?_⟩
      rw [List.filter_cons_of_neg (by simpa using h)]
      exact b4

/-- a successful `drawWorldImplementation` -/
theorem drawImpl_ok {g : Config C K} {c : Camera K} {aspect : K} {s : Scene K} {ev : Option (List Nat)} {d : Bool} {st st' : State C K}
    {ps : List (Patch C K)} (h : drawImpl g c aspect s ev d st = .ok (ps, st')) :
    viewRange aspect c s ev st.range = .ok st'.range ∧ ps = (drawShown g s.valid ev s.agents st.colors).1 ∧
      st'.colors = (drawShown g s.valid ev s.agents st.colors).2 ∧ (g.needsEval = true → ∃ e l, ev = some (e :: l)) := by
  unfold drawImpl at h
  cases hv : viewRange aspect c s ev st.range with
  | error e => rw [hv] at h; cases h
  | ok v =>
    cases h1 : checkReference g s.agents ev with
    | error e => rw [hv, h1] at h; cases h
    | ok _ =>
      cases h2 : checkText s.agents d ev with
      | error e => rw [hv, h1, h2] at h; cases h
      | ok _ =>
        cases h3 : checkEval g ev with
        | error e => rw [hv, h1, h2, h3] at h; cases h
        | ok _ =>
          rw [hv, h1, h2, h3] at h
          simp only [bind, Except.bind, Except.ok.injEq, Prod.mk.injEq] at h
          obtain ⟨rfl, rfl⟩ := h
          refine ⟨rfl, rfl, rfl, fun hn => ?_⟩
          rw [checkEval, if_pos hn] at h3
          match ev with
          | none => cases h3
          | some [] => cases h3
          | some (e :: l) => exact ⟨e, l, rfl⟩

/-- everything about a successful `drawWorld` -/
theorem drawWorld_ok {g : Config C K} {c : Camera K} {aspect : K} {f : Frame K} {st st' : State C K}
    {ps : List (Patch C K)} (h : drawWorld g c aspect f st = .ok (ps, st')) :
    Grows st.colors st'.colors ∧ (Fair g st.colors → Fair g st'.colors) ∧
    ∃ s os shown, Shown f s ∧ ps = os ++ shown ∧ viewRange aspect c s (keptIds f) st.range = .ok st'.range ∧
      (∀ j ∈ st'.colors.map Prod.fst, j ∈ st.colors.map Prod.fst ∨ j ∈ f.world.agents ∨ j ∈ s.agents) ∧
      (¬ FromSensors f → os = []) ∧
      (FromSensors f → List.Forall₂ (fun i (p : Patch C K) => p.id = i ∧ p.outline = true ∧ p.face = g.white ∧ p.hatch = false ∧
        ∃ face, Styled g (keptIds f) st'.colors i p.line face p.alpha) f.world.agents os) ∧
      List.Forall₂ (fun i (p : Patch C K) => p.id = i ∧ p.outline = false ∧ (p.hatch = false ↔ i ∈ s.valid) ∧
        Styled g (keptIds f) st'.colors i p.line p.face p.alpha)
        (s.agents.filter (fun i => decide (i ∈ s.valid ∨ g.drawInvalid = true))) shown := by
  unfold drawWorld at h
  cases hs : sensedWorld f with
  | some s =>
    simp only [hs] at h
    cases hd : drawImpl g c aspect s (keptIds f) f.debugText { st with colors := (drawTrue g (keptIds f) f.world.agents st.colors).2 } with
    | error e => rw [hd] at h; cases h
    | ok r =>
      obtain ⟨ps1, st1⟩ := r
      rw [hd] at h
      simp only [bind, Except.bind, Except.ok.injEq, Prod.mk.injEq] at h
      obtain ⟨rfl, rfl⟩ := h
      obtain ⟨e1, e2, e3, _⟩ := drawImpl_ok hd
      obtain ⟨a1, a2, a3, a4⟩ := drawTrue_spec g (keptIds f) f.world.agents st.colors
      obtain ⟨b1, b2, b3, b4⟩ := drawShown_spec g s.valid (keptIds f) s.agents (drawTrue g (keptIds f) f.world.agents st.colors).2
      dsimp only at e1 e2 e3
      rw [← e3] at b1 b2 b3 b4
      have hfs : FromSensors f := by
        obtain ⟨e, l, x, y, z⟩ := (sensed_iff f s).1 hs
        exact ⟨e, l, s, x, y, z⟩
      refine ⟨a1.trans b1, fun h => b2 (a2 h), s, _, ps1, Or.inl ((sensed_iff f s).1 hs), rfl, e1, ?_, fun h => absurd hfs h, fun _ => ?_, ?_⟩
      · intro j hj
        rcases b3 j hj with h | h
        · rcases a3 j h with h | h
          · exact Or.inl h
          · exact Or.inr (Or.inl h)
        · exact Or.inr (Or.inr h)
      · refine a4.imp ?_
        rintro i p ⟨h1, h2, h3, h4, face, h5⟩
        exact ⟨h1, h2, h3, h4, face, h5.grow b1⟩
      · rw [e2]; exact b4
  | none =>
    simp only [hs] at h
    obtain ⟨e1, e2, e3, _⟩ := drawImpl_ok h
    obtain ⟨b1, b2, b3, b4⟩ := drawShown_spec g f.world.valid (keptIds f) f.world.agents st.colors
    rw [← e3] at b1 b2 b3 b4
    have hno : ∀ e l, f.evalIds = some (e :: l) → e ∈ f.world.agents → f.sensed e = none := by
      intro e l x y
      cases hse : f.sensed e with
      | none => rfl
      | some s => rw [(sensed_iff f s).2 ⟨e, l, x, y, hse⟩] at hs; cases hs
    have hfs : ¬ FromSensors f := by
      rintro ⟨e, l, s, x, y, z⟩
      rw [hno e l x y] at z; cases z
    refine ⟨b1, b2, f.world, [], ps, Or.inr ⟨rfl, hno⟩, rfl, e1, ?_, fun _ => rfl, fun h => absurd h hfs, ?_⟩
    · intro j hj
      rcases b3 j hj with h | h
      · exact Or.inl h
      · exact Or.inr (Or.inl h)
    · rw [e2]; exact b4

/-- **What a frame shows.** A call that returns draws of the world it shows - what the first evaluated agent has sensed, or the true
world if it has sensed nothing or is gone - every valid agent exactly once in the order of the world, and the other agents, hatched,
exactly if drawing them is switched on; before this, if sensors are shown, white outlines of all agents of the true world. Evaluated
agents have their own colours. -/
theorem C186_frame {g : Config C K} {c : Camera K} {aspect : K} {f : Frame K} {st st' : State C K}
    {ps : List (Patch C K)} (h : drawWorld g c aspect f st = .ok (ps, st')) :
    ∃ s os shown, Shown f s ∧ ps = os ++ shown ∧
      (¬ FromSensors f → os = []) ∧
      (FromSensors f → List.Forall₂ (fun i (p : Patch C K) => p.id = i ∧ p.outline = true ∧ p.face = g.white) f.world.agents os) ∧
      List.Forall₂ (fun i (p : Patch C K) => p.id = i ∧ p.outline = false ∧ (p.hatch = false ↔ i ∈ s.valid))
        (s.agents.filter (fun i => decide (i ∈ s.valid ∨ g.drawInvalid = true))) shown ∧
      (∀ p ∈ shown, Evaluated f p.id → p.line = g.evalLine ∧ p.face = g.evalFace ∧ p.alpha = g.alphaEval) ∧
      (∀ p ∈ ps, ¬ Evaluated f p.id → p.alpha = g.alphaOther ∧ (g.colormap = false ∨ g.fixedLine = true → p.line = g.otherLine)) ∧
      (∀ p ∈ shown, ¬ Evaluated f p.id → g.colormap = false → p.face = g.otherFace) := by
  obtain ⟨_, _, s, os, shown, h1, h2, _, _, h3, h4, h5⟩ := drawWorld_ok h
  have hm : ∀ {P : Nat → Patch C K → Prop} {l : List Nat} {q : List (Patch C K)}, List.Forall₂ P l q → ∀ p ∈ q, ∃ i, P i p := by
    intro P l q hf
    induction hf with
    | nil => intro p hp; cases hp
    | cons hab _ ih =>
      intro p hp
      rcases List.mem_cons.1 hp with rfl | hp
      · exact ⟨_, hab⟩
      · exact ih p hp
  have hall : ∀ p ∈ ps, ∃ face, Styled g (keptIds f) st'.colors p.id p.line face p.alpha := by
    intro p hp
    rw [h2, List.mem_append] at hp
    rcases hp with hp | hp
    · by_cases hfs : FromSensors f
      · obtain ⟨i, rfl, _, _, _, face, hst⟩ := hm (h4 hfs) p hp
        exact ⟨face, hst⟩
      · rw [h3 hfs] at hp; cases hp
    · obtain ⟨i, rfl, _, _, hst⟩ := hm h5 p hp
      exact ⟨_, hst⟩
  refine ⟨s, os, shown, h1, h2, h3, fun hfs => (h4 hfs).imp ?_, h5.imp ?_, ?_, ?_, ?_⟩
  · rintro i p ⟨a, b, d, _⟩; exact ⟨a, b, d⟩
  · rintro i p ⟨a, b, d, _⟩; exact ⟨a, b, d⟩
  · intro p hp he
    obtain ⟨i, rfl, _, _, hst⟩ := hm h5 p hp
    exact hst.1 ((kept_iff f _).2 he)
  · intro p hp he
    obtain ⟨face, hst⟩ := hall p hp
    obtain ⟨x1, _, _, x4⟩ := hst.2 (fun h => he ((kept_iff f _).1 h))
    refine ⟨x1, fun hc => ?_⟩
    rw [x4, if_neg]
    rintro ⟨y1, y2⟩
    rcases hc with hc | hc
    · rw [hc] at y1; cases y1
    · rw [hc] at y2; cases y2
  · intro p hp he hc
    obtain ⟨i, rfl, _, _, hst⟩ := hm h5 p hp
    exact (hst.2 (fun h => he ((kept_iff f _).1 h))).2.2.1 hc

theorem forall₂_right {A B : Type} {P : A → B → Prop} {l : List A} {q : List B} (h : List.Forall₂ P l q) : ∀ p ∈ q, ∃ i ∈ l, P i p := by
  induction h with
  | nil => intro p hp; cases hp
  | cons hab _ ih =>
    intro p hp
    rcases List.mem_cons.1 hp with rfl | hp
    · exact ⟨_, List.mem_cons_self, hab⟩
    · obtain ⟨i, hi, h⟩ := ih p hp
      exact ⟨i, List.mem_cons_of_mem _ hi, h⟩

theorem drawAll_cons {g : Config C K} {c : Camera K} {aspect : K} {f : Frame K} {fs : List (Frame K)} {st st' : State C K}
    {outs : List (List (Patch C K))} (h : drawAll g c aspect (f :: fs) st = .ok (outs, st')) :
    ∃ ps st1 rest, drawWorld g c aspect f st = .ok (ps, st1) ∧ drawAll g c aspect fs st1 = .ok (rest, st') ∧ outs = ps :: rest := by
  unfold drawAll at h
  cases h1 : drawWorld g c aspect f st with
  | error e => rw [h1] at h; cases h
  | ok r =>
    rw [h1] at h
    simp only [bind, Except.bind] at h
    cases h2 : drawAll g c aspect fs r.2 with
    | error e => rw [h2] at h; cases h
    | ok q =>
      rw [h2] at h
      simp only [Except.ok.injEq, Prod.mk.injEq] at h
      obtain ⟨rfl, rfl⟩ := h
      exact ⟨r.1, r.2, q.1, rfl, h2, rfl⟩

theorem drawAll_spec {g : Config C K} {c : Camera K} {aspect : K} : ∀ {fs : List (Frame K)} {st st' : State C K}
    {outs : List (List (Patch C K))}, drawAll g c aspect fs st = .ok (outs, st') →
    Grows st.colors st'.colors ∧ (Fair g st.colors → Fair g st'.colors) ∧
    (∀ j ∈ st'.colors.map Prod.fst, j ∈ st.colors.map Prod.fst ∨ ∃ f ∈ fs, j ∈ f.world.agents ∨ ∃ s, Shown f s ∧ j ∈ s.agents) ∧
    List.Forall₂ (fun f ps => ∀ p ∈ ps, p.outline = false → ¬ Evaluated f p.id → g.colormap = true →
      st'.colors.lookup p.id = some p.face) fs outs
  | [], st, st', outs, h => by
    simp only [drawAll, Except.ok.injEq, Prod.mk.injEq] at h
    obtain ⟨rfl, rfl⟩ := h
    exact ⟨Grows.refl _, id, fun j hj => Or.inl hj, .nil⟩
  | f :: fs, st, st', outs, h => by
    obtain ⟨ps, st1, rest, h1, h2, rfl⟩ := drawAll_cons h
    obtain ⟨a1, a2, s, os, shown, a3, a4, _, a5, a6, a7, a8⟩ := drawWorld_ok h1
    obtain ⟨b1, b2, b3, b4⟩ := drawAll_spec h2
    refine ⟨a1.trans b1, fun h => b2 (a2 h), ?_, .cons ?_ b4⟩
    · intro j hj
      rcases b3 j hj with h | ⟨f', hf', h⟩
      · rcases a5 j h with h | h | h
        · exact Or.inl h
        · exact Or.inr ⟨f, List.mem_cons_self, Or.inl h⟩
        · exact Or.inr ⟨f, List.mem_cons_self, Or.inr ⟨s, a3, h⟩⟩
      · exact Or.inr ⟨f', List.mem_cons_of_mem _ hf', h⟩
    · intro p hp ho he hc
      rw [a4, List.mem_append] at hp
      rcases hp with hp | hp
      · by_cases hfs : FromSensors f
        · obtain ⟨i, _, _, h', _⟩ := forall₂_right (a7 hfs) p hp
          rw [h'] at ho; cases ho
        · rw [a6 hfs] at hp; cases hp
      · obtain ⟨i, _, rfl, _, _, hst⟩ := forall₂_right a8 p hp
        exact b1.lookup ((hst.2 (fun h => he ((kept_iff f _).1 h))).2.1 hc)

/-- **Colours stay.** In every sequence of frames of one viewer, whatever worlds are shown and whoever enters and leaves, an agent that is
not evaluated always has the same colour. -/
theorem C186_colours_stay {g : Config C K} {c : Camera K} {aspect : K} (hc : g.colormap = true) {fs : List (Frame K)} {st st' : State C K}
    {outs : List (List (Patch C K))} (h : drawAll g c aspect fs st = .ok (outs, st')) :
    ∃ colour : Nat → C, List.Forall₂ (fun f ps => ∀ p ∈ ps, p.outline = false → ¬ Evaluated f p.id → p.face = colour p.id) fs outs := by
  obtain ⟨_, _, _, h4⟩ := drawAll_spec h
  refine ⟨fun i => (st'.colors.lookup i).getD g.otherFace, h4.imp ?_⟩
  intro f ps hf p hp ho he
  beta_reduce; rw [hf p hp ho he hc]; rfl

/-- keys and positions of the dictionary -/
theorem lookup_get {m : Colors C} {i : Nat} {c : C} (h : m.lookup i = some c) : ∃ k : Nat, k < m.length ∧ m[k]? = some (i, c) := by
  induction m with
  | nil => cases h
  | cons x m ih =>
    obtain ⟨a, b⟩ := x
    simp only [List.lookup_cons] at h
    by_cases e : (i == a) = true
    · simp only [e, Option.some.injEq] at h
      simp only [beq_iff_eq] at e
      exact ⟨0, by simp, by simp [e, h]⟩
    · have e' : (i == a) = false := by simpa using e
      simp only [e'] at h
      obtain ⟨k, h1, h2⟩ := ih h
      exact ⟨k + 1, by simpa using h1, by simpa using h2⟩

/-- **Colours differ.** If the colour map really has `n` different colours and the viewer has met at most `n` agents since it was
created, different agents that are not evaluated have different colours, also in different frames. -/
theorem C186_colours_differ {g : Config C K} {c : Camera K} {aspect : K} (hc : g.colormap = true) {n : Nat} (hn : n ≤ g.size)
    (hinj : ∀ a b, a < n → b < n → g.cmap a = g.cmap b → a = b) {fs : List (Frame K)} {ids : List Nat} (hlen : ids.length ≤ n)
    (hids : ∀ f ∈ fs, (∀ j ∈ f.world.agents, j ∈ ids) ∧ ∀ s, Shown f s → ∀ j ∈ s.agents, j ∈ ids)
    {st st' : State C K} (h0 : st.colors = []) {outs : List (List (Patch C K))} (h : drawAll g c aspect fs st = .ok (outs, st')) :
    ∃ colour : Nat → C, List.Forall₂ (fun f ps => ∀ p ∈ ps, p.outline = false → ¬ Evaluated f p.id → p.face = colour p.id) fs outs ∧
      ∀ ps ∈ outs, ∀ qs ∈ outs, ∀ p ∈ ps, ∀ q ∈ qs, p.outline = false → q.outline = false →
        (∀ f ∈ fs, ¬ Evaluated f p.id ∧ ¬ Evaluated f q.id) → p.face = q.face → p.id = q.id := by
  obtain ⟨_, h2, h3, h4⟩ := drawAll_spec h
  have hfair : Fair g st'.colors := h2 (by rw [h0]; exact ⟨by simp, by simp⟩)
  have hle : st'.colors.length ≤ n := by
    have : (st'.colors.map Prod.fst).Subperm ids := by
      refine List.subperm_of_subset hfair.1 ?_
      intro j hj
      rcases h3 j hj with h | ⟨f, hf, h | ⟨s, hs, h⟩⟩
      · rw [h0] at h; cases h
      · exact (hids f hf).1 j h
      · exact (hids f hf).2 s hs j h
    have := this.length_le
    rw [List.length_map] at this
    omega
  refine ⟨fun i => (st'.colors.lookup i).getD g.otherFace, h4.imp ?_, ?_⟩
  · intro f ps hf p hp ho he
    beta_reduce; rw [hf p hp ho he hc]; rfl
  · intro ps hps qs hqs p hp q hq hop hoq he hfeq
    obtain ⟨f, hf, hF⟩ := forall₂_right h4 ps hps
    obtain ⟨f', hf', hF'⟩ := forall₂_right h4 qs hqs
    obtain ⟨k, hk, ek⟩ := lookup_get (hF p hp hop (he f hf).1 hc)
    obtain ⟨k', hk', ek'⟩ := lookup_get (hF' q hq hoq (he f' hf').2 hc)
    have c1 := hfair.2 _ _ ek
    have c2 := hfair.2 _ _ ek'
    dsimp only at c1 c2
    rw [Nat.mod_eq_of_lt (by omega)] at c1 c2
    have : k = k' := hinj _ _ (by omega) (by omega) (by rw [← c1, ← c2, hfeq])
    subst this
    rw [ek] at ek'
    simp only [Option.some.injEq, Prod.mk.injEq] at ek'
    exact ek'.1

/-- **When drawing raises.** A call of `drawWorld` returns exactly if no list of agents is given to follow; the reference line, if
switched on, is not asked for with an empty list of evaluated agents, and with the reference line or the texts the first evaluated
agent, if it is in the world, is in what is shown; and with a debug drawing of the evaluated agent switched on there is an evaluated
agent in the world. -/
theorem C186_returns_iff (g : Config C K) (c : Camera K) (aspect : K) {f : Frame K} {s : Scene K} (hs : Shown f s) (st : State C K) :
    (∃ r, drawWorld g c aspect f st = .ok r) ↔
      (∀ l, c.follow ≠ .ids l) ∧ (g.reference = true → f.evalIds ≠ some []) ∧
      (g.reference = true ∨ f.debugText = true → ∀ e l, f.evalIds = some (e :: l) → e ∈ f.world.agents → e ∈ s.agents) ∧
      (g.needsEval = true → ∃ e l, f.evalIds = some (e :: l) ∧ e ∈ f.world.agents) := by
  have hview : ∀ (s : Scene K) ev v, (∃ r, viewRange aspect c s ev v = .ok r) ↔ ∀ l, c.follow ≠ .ids l := by
    intro s ev v
    unfold viewRange
    cases hf : c.follow with
    | nobody => simp only [drawEvalId]; by_cases hb : c.useBounds = true <;> simp [hb]
    | ids l => simp [drawEvalId]
    | id i =>
      simp only [drawEvalId]
      by_cases hi : i ∈ s.agents <;> by_cases hb : c.useBounds = true <;> simp [hi, hb]
    | flag b =>
      simp only [drawEvalId]
      match ev with
      | some [d] => by_cases hi : d ∈ s.agents <;> by_cases hb : c.useBounds = true <;> simp [hi, hb]
      | none => by_cases hi : b.toNat ∈ s.agents <;> by_cases hb : c.useBounds = true <;> simp [hi, hb]
      | some [] => by_cases hi : b.toNat ∈ s.agents <;> by_cases hb : c.useBounds = true <;> simp [hi, hb]
      | some (_ :: _ :: _) => by_cases hi : b.toNat ∈ s.agents <;> by_cases hb : c.useBounds = true <;> simp [hi, hb]
  have himpl : ∀ (st : State C K), (∃ r, drawImpl g c aspect s (keptIds f) f.debugText st = .ok r) ↔
      (∀ l, c.follow ≠ .ids l) ∧ (∃ u, checkReference g s.agents (keptIds f) = .ok u) ∧
        (∃ u, checkText s.agents f.debugText (keptIds f) = .ok u) ∧ ∃ u, checkEval g (keptIds f) = .ok u := by
    intro st
    rw [← hview s (keptIds f) st.range]
    unfold drawImpl
    cases hv : viewRange aspect c s (keptIds f) st.range with
    | error e => simp [bind, Except.bind]
    | ok v =>
      cases h1 : checkReference g s.agents (keptIds f) with
      | error e => simp [bind, Except.bind]
      | ok _ =>
        cases h2 : checkText s.agents f.debugText (keptIds f) with
        | error e => simp [bind, Except.bind]
        | ok _ =>
          cases h3 : checkEval g (keptIds f) with
          | error e => simp [bind, Except.bind]
          | ok _ => simp [bind, Except.bind]
  have hdraw : (∃ r, drawWorld g c aspect f st = .ok r) ↔ ∃ st, ∃ r, drawImpl g c aspect s (keptIds f) f.debugText st = .ok r := by
    unfold drawWorld
    cases hw : sensedWorld f with
    | some s' =>
      have hss : s' = s := by
        rcases hs with h | ⟨_, h⟩
        · rw [(sensed_iff f s).2 h, Option.some.injEq] at hw; exact hw.symm
        · obtain ⟨e, l, x, y, z⟩ := (sensed_iff f s').1 hw
          rw [h e l x y] at z; cases z
      subst hss
      dsimp only
      constructor
      · rintro ⟨r, h⟩
        refine ⟨{ st with colors := (drawTrue g (keptIds f) f.world.agents st.colors).2 }, ?_⟩
        cases hd : drawImpl g c aspect s' (keptIds f) f.debugText { st with colors := (drawTrue g (keptIds f) f.world.agents st.colors).2 } with
        | error e => rw [hd] at h; cases h
        | ok r => exact ⟨r, rfl⟩
      · intro h
        obtain ⟨st0, h⟩ := h
        obtain ⟨r, hr⟩ := (himpl { st with colors := (drawTrue g (keptIds f) f.world.agents st.colors).2 }).2 ((himpl st0).1 h)
        rw [hr]
        exact ⟨_, rfl⟩
    | none =>
      have hss : s = f.world := by
        rcases hs with h | ⟨h, _⟩
        · rw [(sensed_iff f s).2 h] at hw; cases hw
        · exact h
      subst hss
      dsimp only
      exact ⟨fun h => ⟨st, h⟩, fun ⟨st0, h⟩ => (himpl st).2 ((himpl st0).1 h)⟩
  rw [hdraw]
  have hk0 : f.evalIds = none → keptIds f = none := fun h => by simp only [keptIds, h]
  have hk1 : f.evalIds = some [] → keptIds f = some [] := fun h => by simp only [keptIds, h]
  have hk2 : ∀ e l, f.evalIds = some (e :: l) → keptIds f = if e ∈ f.world.agents then some (e :: l) else none :=
    fun e l h => by simp only [keptIds, h]
  constructor
  · rintro ⟨st, h⟩
    obtain ⟨h1, h2, h3, h4⟩ := (himpl st).1 h
    refine ⟨h1, fun hr he => ?_, ?_, fun hn => ?_⟩
    · rw [hk1 he] at h2
      simp [checkReference, hr, firstEval, bind, Except.bind] at h2
    · intro hor e l he hw
      rw [hk2 e l he, if_pos hw] at h2 h3
      by_contra hc
      rcases hor with hr | hd
      · simp [checkReference, hr, firstEval, bind, Except.bind, agentKey, hc] at h2
      · simp [checkText, hd, agentKey, hc] at h3
    · match he : f.evalIds with
      | none => rw [hk0 he] at h4; simp [checkEval, hn, firstEval, Except.map] at h4
      | some [] => rw [hk1 he] at h4; simp [checkEval, hn, firstEval, Except.map] at h4
      | some (e :: l) =>
        refine ⟨e, l, rfl, ?_⟩
        by_contra hc
        rw [hk2 e l he, if_neg hc] at h4; simp [checkEval, hn, firstEval, Except.map] at h4
  · rintro ⟨h1, h2, h3, h4⟩
    refine ⟨st, (himpl st).2 ⟨h1, ?_, ?_, ?_⟩⟩
    · by_cases hr : g.reference = true
      · match he : f.evalIds with
        | none => rw [hk0 he]; simp [checkReference]
        | some [] => exact absurd he (h2 hr)
        | some (e :: l) =>
          rw [hk2 e l he]
          by_cases hw : e ∈ f.world.agents
          · rw [if_pos hw]
            simp [checkReference, hr, firstEval, bind, Except.bind, agentKey, h3 (.inl hr) e l he hw]
          · rw [if_neg hw]; simp [checkReference]
      · simp [checkReference, hr]
    · by_cases hd : f.debugText = true
      · match he : f.evalIds with
        | none => rw [hk0 he]; simp [checkText]
        | some [] => rw [hk1 he]; simp [checkText]
        | some (e :: l) =>
          rw [hk2 e l he]
          by_cases hw : e ∈ f.world.agents
          · rw [if_pos hw]
            simp [checkText, hd, agentKey, h3 (.inr hd) e l he hw]
          · rw [if_neg hw]; simp [checkText]
      · simp [checkText, hd]
    · by_cases hn : g.needsEval = true
      · obtain ⟨e, l, he, hw⟩ := h4 hn
        rw [hk2 e l he, if_pos hw]
        simp [checkEval, hn, firstEval, Except.map]
      · simp [checkEval, hn]

/-- **Violation: the evaluated agent leaves.** With one of the debug drawings of the evaluated agent switched on, a frame without this
agent raises an exception. -/
theorem C186_agent_gone_violated {g : Config C K} (hg : g.needsEval = true) (c : Camera K) (aspect : K) {f : Frame K} {e : Nat} {l : List Nat}
    (he : f.evalIds = some (e :: l)) (hgone : e ∉ f.world.agents) (st : State C K) :
    ∃ err, drawWorld g c aspect f st = .error err := by
  cases h : drawWorld g c aspect f st with
  | error err => exact ⟨err, rfl⟩
  | ok r =>
    exfalso
    have hk : keptIds f = none := by simp only [keptIds, he, if_neg hgone]
    have hs : sensedWorld f = none := by simp only [sensedWorld, hk]
    unfold drawWorld at h
    simp only [hs] at h
    obtain ⟨_, _, _, h4⟩ := drawImpl_ok (ps := r.1) (st' := r.2) h
    obtain ⟨_, _, h4⟩ := h4 hg
    rw [hk] at h4; cases h4

/-- **Violation: outlines of agents not taking part.** If a sensed world is shown, agents of the true world that are not valid are
outlined although drawing invalid agents is off. -/
theorem C186_outline_violated {g : Config C K} {c : Camera K} {aspect : K} {f : Frame K} {st st' : State C K}
    {ps : List (Patch C K)} (h : drawWorld g c aspect f st = .ok (ps, st')) (hs : FromSensors f) {i : Nat} (hi : i ∈ f.world.agents) :
    ∃ p ∈ ps, p.id = i ∧ p.hatch = false := by
  obtain ⟨_, _, s, os, shown, _, h2, _, _, _, h4, _⟩ := drawWorld_ok h
  have : ∀ {l : List Nat} {q : List (Patch C K)} {P : Nat → Patch C K → Prop}, List.Forall₂ P l q → ∀ i ∈ l, ∃ p ∈ q, P i p := by
    intro l q P hf
    induction hf with
    | nil => intro i hi; cases hi
    | cons hab _ ih =>
      intro i hi
      rcases List.mem_cons.1 hi with rfl | hi
      · exact ⟨_, List.mem_cons_self, hab⟩
      · obtain ⟨p, hp, h⟩ := ih i hi
        exact ⟨p, List.mem_cons_of_mem _ hp, h⟩
  obtain ⟨p, hp, h1, _, _, h5, _⟩ := this (h4 hs) i hi
  exact ⟨p, by rw [h2]; exact List.mem_append_left _ hp, h1, h5⟩

end

/-- the settings of the matplotlib viewer; colours are numbers, with 100.. for those not of the colour map -/
def mpConfig : Config Nat ℚ := ⟨false, true, true, 100, 101, 102, 103, 104, 4 / 5, 1, mpSize, mpColor, false, false⟩

/-- **Violation: 19 vehicles.** The matplotlib viewer reports a colour map of 20 colours that has only 18: the 18th, 19th and 20th
vehicle it meets look the same. -/
theorem C186_mp_colours_violated :
    ((drawShown mpConfig (List.range 20) none (List.range 20) []).1.map (fun p => (p.id, p.face))).drop 16 =
      [(16, 16), (17, 17), (18, 17), (19, 17)] := by decide +kernel

/-- with 18 vehicles the hypotheses of `C186_colours_differ` hold -/
example : ∀ a b, a < 18 → b < 18 → mpConfig.cmap a = mpConfig.cmap b → a = b := by
  intro a b ha hb h
  simp only [mpConfig, mpColor, if_pos ha, if_pos hb] at h
  exact h

/-- a frame with the evaluated agent 7, agent 3 and the invalid agent 5 -/
def exFrame : Frame ℚ := ⟨⟨[3, 5, 7], [3, 7], fun _ => (0, 0), ((0, 0), (100, 60))⟩, fun _ => none, some [7], true⟩

example : (drawWorld mpConfig exCam 2 exFrame ⟨⟨(0, 0), (0, 0)⟩, []⟩).toOption.map (fun r => r.1) =
    some [⟨3, 102, 0, 1, false, false⟩, ⟨7, 100, 101, 4 / 5, false, false⟩] := by decide +kernel

/-- **History.** The drawn history fades: exactly the last four states are visible (the comment in the code says ten). -/
theorem C186_history (lh idx : Nat) (h : idx < lh) :
    (0 < historyAlpha (K := ℚ) lh idx ↔ lh ≤ idx + 4) ∧ (lh ≤ idx + 4 → historyAlpha (K := ℚ) lh idx < 1) ∧
    (lh > idx + 4 → historyAlpha (K := ℚ) lh idx = 0) ∧
    ∀ j, idx < j → j < lh → historyAlpha (K := ℚ) lh idx ≤ historyAlpha lh j := by
  have hpos : (1 : ℚ) ≤ (lh : ℚ) - idx := by
    have : ((idx + 1 : Nat) : ℚ) ≤ lh := by exact_mod_cast h
    push_cast at this; linarith
  have hle : lh ≤ idx + 4 → (lh : ℚ) - idx ≤ 4 := by
    intro h'
    have : (lh : ℚ) ≤ ((idx + 4 : Nat) : ℚ) := by exact_mod_cast h'
    push_cast at this; linarith
  have hgt : lh > idx + 4 → (5 : ℚ) ≤ (lh : ℚ) - idx := by
    intro h'
    have : ((idx + 5 : Nat) : ℚ) ≤ lh := by exact_mod_cast h'
    push_cast at this; linarith
  have hzero : lh > idx + 4 → historyAlpha (K := ℚ) lh idx = 0 := by
    intro h'
    have := hgt h'
    simp only [historyAlpha]
    rw [if_pos]
    rw [sub_neg, lt_div_iff₀ (by norm_num)]
    linarith
  have hval : lh ≤ idx + 4 → historyAlpha (K := ℚ) lh idx = 1 - 8 / 10 * ((lh : ℚ) - idx) / (34 / 10) := by
    intro h'
    have := hle h'
    simp only [historyAlpha]
    rw [if_neg]
    rw [not_lt, sub_nonneg, div_le_iff₀ (by norm_num)]
    linarith
  refine ⟨⟨fun hp => ?_, fun h' => ?_⟩, fun h' => ?_, hzero, ?_⟩
  · by_contra hn
    rw [hzero (by omega)] at hp
    exact lt_irrefl _ hp
  · rw [hval h', sub_pos, div_lt_iff₀ (by norm_num)]
    have := hle h'; linarith
  · rw [hval h']
    have : 0 < 8 / 10 * ((lh : ℚ) - idx) / (34 / 10) := by positivity
    linarith
  · intro j hj hjl
    have hmono : 1 - 8 / 10 * ((lh : ℚ) - idx) / (34 / 10) ≤ 1 - 8 / 10 * ((lh : ℚ) - j) / (34 / 10) := by
      have : (idx : ℚ) < j := by exact_mod_cast hj
      apply sub_le_sub_left
      apply div_le_div_of_nonneg_right _ (by norm_num)
      linarith
    simp only [historyAlpha]
    split_ifs with h1 h2 h2
    · exact le_refl _
    · exact not_lt.1 h2
    · exact absurd (lt_of_le_of_lt hmono h2) h1
    · exact hmono

end Bark.View
