import Verif.Spec.Prediction
import Verif.Lemmas.World
import Mathlib.Data.List.Induction
import Mathlib.Tactic.Linarith

/-! C48, C92, C93: prediction settings and prediction of observed worlds. -/
namespace Bark.Pred
open Bark
set_option linter.unusedSectionVars false
section
variable {K B : Type} [Field K] [LinearOrder K] [IsStrictOrderedRing K]

/-- give agent `p.1` a new model object with contents `p.2` -/
def assign (s : Heap B × ObsWorld K) (p : Nat × Beh B) : Heap B × ObsWorld K :=
  ((alloc s.1 p.2).1, { s.2 with agents := OMap.modify p.1 (fun a => { a with beh := s.1.next }) s.2.agents })

/-- several assignments in order -/
def assignAll (l : List (Nat × Beh B)) (s : Heap B × ObsWorld K) : Heap B × ObsWorld K := l.foldl assign s

/-- the last assignment to `i` -/
def lastFor (i : Nat) (l : List (Nat × Beh B)) : Option (Beh B) :=
  l.foldl (fun o p => if p.1 = i then some p.2 else o) none

theorem lastFor_append_ne {i : Nat} {l r : List (Nat × Beh B)} (h : ∀ p ∈ r, p.1 ≠ i) : lastFor i (l ++ r) = lastFor i l := by
  induction r using List.reverseRecOn with
  | nil => simp
  | append_singleton r p ih =>
    rw [← List.append_assoc]
    have hp := h p (by simp)
    have : lastFor i (l ++ r ++ [p]) = lastFor i (l ++ r) := by simp [lastFor, hp]
    rw [this, ih (fun x hx => h x (by simp [hx]))]

theorem lastFor_snoc (i : Nat) (l : List (Nat × Beh B)) (p : Nat × Beh B) :
    lastFor i (l ++ [p]) = if p.1 = i then some p.2 else lastFor i l := by simp [lastFor]

theorem lastFor_const {i : Nat} {b : Beh B} {l r : List (Nat × Beh B)} (hb : ∀ p ∈ r, p.1 = i → p.2 = b) (hm : ∃ p ∈ r, p.1 = i) :
    lastFor i (l ++ r) = some b := by
  induction r using List.reverseRecOn with
  | nil => obtain ⟨p, hp, _⟩ := hm; cases hp
  | append_singleton r p ih =>
    rw [← List.append_assoc, lastFor_snoc]
    by_cases c : p.1 = i
    · rw [if_pos c, hb p (by simp) c]
    · rw [if_neg c]
      apply ih (fun x hx => hb x (by simp [hx]))
      obtain ⟨x, hx, e⟩ := hm
      rcases List.mem_append.1 hx with m | m
      · exact ⟨x, m, e⟩
      · exact absurd (by rw [← List.mem_singleton.1 m]; exact e) c

theorem assignAll_snoc (l : List (Nat × Beh B)) (p : Nat × Beh B) (s : Heap B × ObsWorld K) :
    assignAll (l ++ [p]) s = assign (assignAll l s) p := by simp [assignAll]

theorem assignAll_append (l r : List (Nat × Beh B)) (s : Heap B × ObsWorld K) :
    assignAll (l ++ r) s = assignAll r (assignAll l s) := by simp [assignAll]

structure AssignSpec (l : List (Nat × Beh B)) (s s' : Heap B × ObsWorld K) : Prop where
  next : s'.1.next = s.1.next + l.length
  old : Untouched s.1 s'.1
  bound : ∀ r, (s'.1.mem r).isSome → r < s'.1.next
  keys : OMap.keys s'.2.agents = OMap.keys s.2.agents
  ego : s'.2.ego = s.2.ego
  time : s'.2.time = s.2.time
  find : ∀ i a, OMap.find i s.2.agents = some a → ∃ a', OMap.find i s'.2.agents = some a' ∧ a'.firstValid = a.firstValid ∧
    (lastFor i l = none → a'.beh = a.beh) ∧ (∀ b, lastFor i l = some b → NewModel s.1 s'.1 a' b)
  sep : ∀ i j a b, i ≠ j → OMap.find i s'.2.agents = some a → OMap.find j s'.2.agents = some b → s.1.next ≤ a.beh → a.beh ≠ b.beh
  lt : ∀ i a, OMap.find i s'.2.agents = some a → a.beh < s'.1.next

theorem assignAll_spec (l : List (Nat × Beh B)) (s : Heap B × ObsWorld K) (wf : Wf s.1 s.2) : AssignSpec l s (assignAll l s) := by
  induction l using List.reverseRecOn with
  | nil =>
    refine ⟨rfl, fun _ _ => rfl, wf.bound, rfl, rfl, rfl, ?_, ?_, ?_⟩
    · intro i a ha
      exact ⟨a, ha, rfl, fun _ => rfl, fun b hb => by simp [lastFor] at hb⟩
    · intro i j a b _ ha _ hn
      have := wf.bound _ (wf.beh i a ha)
      omega
    · intro i a ha
      exact wf.bound _ (wf.beh i a ha)
  | append_singleton l p ih =>
    rw [assignAll_snoc]
    have hn : s.1.next ≤ (assignAll l s).1.next := by rw [ih.next]; omega
    refine ⟨?_, ?_, ?_, ?_, ih.ego, ih.time, ?_, ?_, ?_⟩
    · simp only [assign, alloc, ih.next, List.length_append, List.length_singleton]
      omega
    · intro r hr
      simp only [assign, alloc]
      rw [if_neg (by omega)]
      exact ih.old r hr
    · intro r hr
      simp only [assign, alloc] at hr ⊢
      by_cases c : r = (assignAll l s).1.next
      · omega
      · rw [if_neg c] at hr
        exact Nat.lt_succ_of_lt (ih.bound r hr)
    · simp only [assign, OMap.keys_modify, ih.keys]
    · intro i a ha
      obtain ⟨a', h1, h2, h3, h4⟩ := ih.find i a ha
      simp only [assign, OMap.find_modify, lastFor_snoc, h1]
      by_cases c : i = p.1
      · rw [if_pos c, if_pos c.symm]
        refine ⟨_, rfl, h2, fun h => by simp at h, ?_⟩
        intro b hb
        simp only [Option.some.injEq] at hb
        refine ⟨hn, ?_⟩
        simp [alloc, hb]
      · rw [if_neg c, if_neg (fun e => c e.symm)]
        refine ⟨a', rfl, h2, h3, ?_⟩
        intro b hb
        obtain ⟨e1, e2⟩ := h4 b hb
        refine ⟨e1, ?_⟩
        have := ih.lt i a' h1
        simp only [alloc]
        rw [if_neg (by omega)]
        exact e2
    · intro i j a b ij ha hb hle
      simp only [assign, OMap.find_modify] at ha hb
      by_cases ci : i = p.1
      · have cj : j ≠ p.1 := fun e => ij (ci.trans e.symm)
        rw [if_pos ci] at ha
        rw [if_neg cj] at hb
        obtain ⟨a0, _, e⟩ := Option.map_eq_some_iff.1 ha
        have := ih.lt j b hb
        rw [← e]
        simp only
        omega
      · rw [if_neg ci] at ha
        have := ih.lt i a ha
        by_cases cj : j = p.1
        · rw [if_pos cj] at hb
          obtain ⟨b0, _, e⟩ := Option.map_eq_some_iff.1 hb
          rw [← e]
          simp only
          omega
        · rw [if_neg cj] at hb
          exact ih.sep i j a b ij ha hb hle
    · intro i a ha
      simp only [assign, OMap.find_modify] at ha
      simp only [assign, alloc]
      by_cases ci : i = p.1
      · rw [if_pos ci] at ha
        obtain ⟨a0, _, e⟩ := Option.map_eq_some_iff.1 ha
        rw [← e]
        simp only
        omega
      · rw [if_neg ci] at ha
        have := ih.lt i a ha
        omega

/-! ### the code performs assignments -/

theorem setBeh_ok {w : ObsWorld K} {i : Nat} {r : Nat} (h : i ∈ OMap.keys w.agents) :
    setBeh w i r = .ok { w with agents := OMap.modify i (fun a => { a with beh := r }) w.agents } := by
  unfold setBeh
  rw [← OMap.find_isSome_iff, Option.isSome_iff_exists] at h
  obtain ⟨a, ha⟩ := h
  rw [ha]

theorem assignClone_ok {s : Heap B × ObsWorld K} {m : Nat} {b : Beh B} {i : Nat} (hm : s.1.mem m = some b)
    (hi : i ∈ OMap.keys s.2.agents) : assignClone (some m) i s = .ok (assign s (i, b)) := by
  unfold assignClone cloneBeh
  simp only [hm]
  rw [Res.ok_bind, setBeh_ok hi, Res.ok_bind]
  rfl

theorem specificLoop_ok {st : Settings} {m : Nat} {b : Beh B} (hst : st.specific = some m) (is : List Nat)
    (s : Heap B × ObsWorld K) (hm : s.1.mem m = some b) (lt : m < s.1.next) (hi : ∀ i ∈ is, i ∈ OMap.keys s.2.agents) :
    specificLoop st is s = .ok (assignAll (is.map (fun i => (i, b))) s) := by
  induction is generalizing s with
  | nil => rfl
  | cons i is ih =>
    unfold specificLoop
    rw [hst, assignClone_ok hm (hi i (List.mem_cons_self ..)), Res.ok_bind, ih]
    · simp [assignAll]
    · simp only [assign, alloc]
      rw [if_neg (by omega)]
      exact hm
    · simp only [assign, alloc]
      omega
    · intro j hj
      simp only [assign, OMap.keys_modify]
      exact hi j (List.mem_cons_of_mem _ hj)

/-- what the loop over the other agents assigns -/
noncomputable def dfltOf (eps time : K) (st : Settings) (d : Beh B) (h : Heap B) (p : Nat × Agent K) : List (Nat × Beh B) :=
  if (∃ b, h.mem p.2.beh = some b ∧ b.status = .valid) ∧ validAt eps time p.2 = true then
    if p.1 ∈ st.agents then [] else [(p.1, d)]
  else [(p.1, ⟨none, .notStarted⟩)]

theorem defaultLoop_ok {eps : K} {st : Settings} {m : Nat} {d : Beh B} (hst : st.dflt = some m) (h0 : Heap B)
    (ps : List (Nat × Agent K)) (s : Heap B × ObsWorld K) (un : Untouched h0 s.1) (le : h0.next ≤ s.1.next)
    (hm : s.1.mem m = some d) (lt : m < s.1.next) (hi : ∀ p ∈ ps, p.1 ∈ OMap.keys s.2.agents)
    (hb : ∀ p ∈ ps, (h0.mem p.2.beh).isSome ∧ p.2.beh < h0.next) :
    defaultLoop eps st ps s = .ok (assignAll (ps.flatMap (dfltOf eps s.2.time st d h0)) s) := by
  induction ps generalizing s with
  | nil => rfl
  | cons p ps ih =>
    obtain ⟨hs, hl⟩ := hb p (List.mem_cons_self ..)
    have hmem := un _ hl
    obtain ⟨b, hbb⟩ := Option.isSome_iff_exists.1 hs
    have hbb' : s.1.mem p.2.beh = some b := hmem.trans hbb
    have hk := hi p (List.mem_cons_self ..)
    have next : ∀ c : Beh B, defaultLoop eps st ps (assign s (p.1, c)) =
        .ok (assignAll (ps.flatMap (dfltOf eps s.2.time st d h0)) (assign s (p.1, c))) := by
      intro c
      apply ih (assign s (p.1, c))
      · intro r hr
        simp only [assign, alloc]
        rw [if_neg (by omega)]
        exact un r hr
      · simp only [assign, alloc]; omega
      · simp only [assign, alloc]
        rw [if_neg (by omega)]
        exact hm
      · simp only [assign, alloc]; omega
      · intro x hx
        simp only [assign, OMap.keys_modify]
        exact hi x (List.mem_cons_of_mem _ hx)
      · exact fun x hx => hb x (List.mem_cons_of_mem _ hx)
    unfold defaultLoop defaultRound load
    simp only [hbb']
    rw [Res.ok_bind, List.flatMap_cons, assignAll_append]
    by_cases c : b.status = .valid ∧ validAt eps s.2.time p.2 = true
    · rw [if_pos c]
      have c' : (∃ b, h0.mem p.2.beh = some b ∧ b.status = .valid) ∧ validAt eps s.2.time p.2 = true := ⟨⟨b, hbb, c.1⟩, c.2⟩
      have e : dfltOf eps s.2.time st d h0 p = if p.1 ∈ st.agents then [] else [(p.1, d)] := by
        unfold dfltOf
        rw [if_pos c']
      rw [e]
      by_cases c2 : p.1 ∈ st.agents
      · rw [if_pos c2, if_pos c2, Res.ok_bind]
        exact ih s un le hm lt (fun x hx => hi x (List.mem_cons_of_mem _ hx)) (fun x hx => hb x (List.mem_cons_of_mem _ hx))
      · rw [if_neg c2, if_neg c2, hst, assignClone_ok hm hk, Res.ok_bind, next]
        rfl
    · rw [if_neg c]
      have c' : ¬ ((∃ b, h0.mem p.2.beh = some b ∧ b.status = .valid) ∧ validAt eps s.2.time p.2 = true) := by
        rintro ⟨⟨b', h1, h2⟩, h3⟩
        rw [hbb] at h1
        cases h1
        exact c ⟨h2, h3⟩
      have e : dfltOf eps s.2.time st d h0 p = [(p.1, ⟨none, .notStarted⟩)] := by
        unfold dfltOf
        rw [if_neg c']
      rw [e, setBeh_ok hk, Res.ok_bind, Res.ok_bind]
      exact next _

/-- the settings fit the world: the models exist, the ego agent and all specifically predicted agents are there -/
structure Fits (h : Heap B) (w : ObsWorld K) (st : Settings) (me : Beh B) (d sp : Option (Beh B)) : Prop where
  ego : ∃ r, st.ego = some r ∧ h.mem r = some me
  dflt : (st.dflt = none ∧ d = none) ∨ ∃ r b, st.dflt = some r ∧ h.mem r = some b ∧ d = some b
  spec : (st.specific = none ∧ sp = none) ∨ ∃ r b, st.specific = some r ∧ h.mem r = some b ∧ sp = some b
  egoIn : w.ego ∈ OMap.keys w.agents
  specIn : st.specific.isSome = true → ∀ i ∈ st.agents, i ∈ OMap.keys w.agents

theorem mem_erase_iff {m : OMap Nat (Agent K)} {k : Nat} {p : Nat × Agent K} : p ∈ OMap.erase k m ↔ p ∈ m ∧ p.1 ≠ k := by
  simp [OMap.erase]

/-- all assignments the settings cause -/
theorem apply_ok (eps : K) (st : Settings) (h : Heap B) (w : ObsWorld K) (me : Beh B) (d sp : Option (Beh B)) (wf : Wf h w)
    (ft : Fits h w st me d sp) : ∃ ld ls, apply eps st (h, w) = .ok (assignAll ((w.ego, me) :: (ld ++ ls)) (h, w)) ∧
      (d = none → ld = []) ∧
      (∀ b, d = some b → ld = (OMap.erase w.ego w.agents).flatMap (dfltOf eps w.time st b h)) ∧
      (sp = none → ls = []) ∧ (∀ b, sp = some b → ls = st.agents.map (fun i => (i, b))) := by
  obtain ⟨re, he, hme⟩ := ft.ego
  have lte : re < h.next := wf.bound _ (by rw [hme]; rfl)
  set s1 : Heap B × ObsWorld K := assign (h, w) (w.ego, me) with hs1
  have un1 : Untouched h s1.1 := by
    intro r hr
    simp only [hs1, assign, alloc]
    rw [if_neg (by omega)]
  have n1 : s1.1.next = h.next + 1 := rfl
  have k1 : OMap.keys s1.2.agents = OMap.keys w.agents := by simp only [hs1, assign, OMap.keys_modify]
  have er : OMap.erase s1.2.ego s1.2.agents = OMap.erase w.ego w.agents := by
    apply OMap.ext
    · exact OMap.sorted_erase _ (OMap.sorted_modify _ _ wf.sorted)
    · exact OMap.sorted_erase _ wf.sorted
    · intro k
      simp only [hs1, assign, OMap.find_erase, OMap.find_modify]
      by_cases c : k = w.ego
      · simp [c]
      · simp [c]
  have hld : ∃ ld, defaultPart eps st s1 = .ok (assignAll ld s1) ∧ (d = none → ld = []) ∧
      (∀ b, d = some b → ld = (OMap.erase w.ego w.agents).flatMap (dfltOf eps w.time st b h)) := by
    rcases ft.dflt with ⟨e1, e2⟩ | ⟨r, b, e1, e2, e3⟩
    · refine ⟨[], ?_, fun _ => rfl, fun b hb => by rw [e2] at hb; cases hb⟩
      unfold defaultPart
      rw [e1]
      rfl
    · refine ⟨(OMap.erase w.ego w.agents).flatMap (dfltOf eps w.time st b h), ?_, fun hn => (by rw [e3] at hn; cases hn), fun b' hb' => ?_⟩
      · unfold defaultPart
        rw [e1, er]
        simp only [Option.isSome_some, if_true]
        have ltr : r < h.next := wf.bound _ (by rw [e2]; rfl)
        have := defaultLoop_ok (eps := eps) e1 h (OMap.erase w.ego w.agents) s1 un1 (by rw [n1]; omega)
          (by rw [un1 r ltr]; exact e2) (by rw [n1]; omega)
          (by intro p hp
              rw [k1]
              exact List.mem_map_of_mem (mem_erase_iff.1 hp).1)
          (by intro p hp
              have := wf.beh p.1 p.2 (OMap.mem_find_some wf.sorted (mem_erase_iff.1 hp).1)
              exact ⟨this, wf.bound _ this⟩)
        exact this
      · have e4 : some b = some b' := e3.symm.trans hb'
        cases e4
        rfl
  obtain ⟨ld, hd1, hd2, hd3⟩ := hld
  have wf1 : AssignSpec ((w.ego, me) :: ld) (h, w) (assignAll ld s1) := by
    have := assignAll_spec ((w.ego, me) :: ld) (h, w) wf
    simpa [assignAll, hs1] using this
  have hls : ∃ ls, specificPart st (assignAll ld s1) = .ok (assignAll ls (assignAll ld s1)) ∧ (sp = none → ls = []) ∧
      (∀ b, sp = some b → ls = st.agents.map (fun i => (i, b))) := by
    rcases ft.spec with ⟨e1, e2⟩ | ⟨r, b, e1, e2, e3⟩
    · refine ⟨[], ?_, fun _ => rfl, fun b hb => by rw [e2] at hb; cases hb⟩
      unfold specificPart
      rw [e1]
      rfl
    · refine ⟨st.agents.map (fun i => (i, b)), ?_, fun hn => (by rw [e3] at hn; cases hn), fun b' hb' => ?_⟩
      · unfold specificPart
        have : st.specific.isSome = true := by rw [e1]; rfl
        rw [if_pos this]
        have ltr : r < h.next := wf.bound _ (by rw [e2]; rfl)
        apply specificLoop_ok e1
        · rw [wf1.old r ltr]; exact e2
        · rw [wf1.next]; simp only; omega
        · intro i hi
          rw [wf1.keys]
          exact ft.specIn this i hi
      · have e4 : some b = some b' := e3.symm.trans hb'
        cases e4
        rfl
  obtain ⟨ls, hs1', hs2, hs3⟩ := hls
  refine ⟨ld, ls, ?_, hd2, hd3, hs2, hs3⟩
  unfold apply
  simp only
  rw [he, assignClone_ok hme ft.egoIn, Res.ok_bind, ← hs1, hd1, Res.ok_bind, hs1']
  rw [← assignAll_append]
  simp [assignAll, hs1]

/-- the assignments of the default part concern an agent only if it is another agent -/
theorem lastFor_dflt (eps : K) (st : Settings) (h : Heap B) (w : ObsWorld K) (b : Beh B) (wf : Wf h w) (i : Nat) (a : Agent K)
    (hi : OMap.find i w.agents = some a) (ne : i ≠ w.ego) (x : Beh B) :
    (dfltOf eps w.time st b h (i, a) = [] →
      lastFor i ((w.ego, x) :: (OMap.erase w.ego w.agents).flatMap (dfltOf eps w.time st b h)) = none) ∧
    (∀ c, dfltOf eps w.time st b h (i, a) = [(i, c)] →
      lastFor i ((w.ego, x) :: (OMap.erase w.ego w.agents).flatMap (dfltOf eps w.time st b h)) = some c) := by
  have fst : ∀ p q, q ∈ dfltOf eps w.time st b h p → q.1 = p.1 := by
    intro p q hq
    unfold dfltOf at hq
    split_ifs at hq <;> simp at hq <;> simp [hq]
  have same : ∀ p ∈ OMap.erase w.ego w.agents, p.1 = i → p = (i, a) := by
    intro p hp e
    have := OMap.mem_find_some wf.sorted (mem_erase_iff.1 hp).1
    rw [e, hi] at this
    obtain ⟨p1, p2⟩ := p
    simp only at e this
    cases this
    rw [e]
  constructor
  · intro em
    have := lastFor_append_ne (l := []) (r := (w.ego, x) :: (OMap.erase w.ego w.agents).flatMap (dfltOf eps w.time st b h)) (i := i) (by
      intro p hp
      rcases List.mem_cons.1 hp with e | e
      · rw [e]; exact fun c => ne c.symm
      · obtain ⟨q, hq, hpq⟩ := List.mem_flatMap.1 e
        intro c
        have := fst q p hpq
        have := same q hq (this.symm.trans c)
        rw [this, em] at hpq
        cases hpq)
    exact this
  · intro c hc
    have := lastFor_const (i := i) (b := c) (l := [(w.ego, x)])
      (r := (OMap.erase w.ego w.agents).flatMap (dfltOf eps w.time st b h)) (by
        intro p hp e
        obtain ⟨q, hq, hpq⟩ := List.mem_flatMap.1 hp
        have := same q hq ((fst q p hpq).symm.trans e)
        rw [this, hc] at hpq
        rw [List.mem_singleton.1 hpq]) (by
        refine ⟨(i, c), List.mem_flatMap.2 ⟨(i, a), mem_erase_iff.2 ⟨OMap.find_some_mem hi, ne⟩, ?_⟩, rfl⟩
        rw [hc]; simp)
    simpa using this

theorem validAt_iff (eps time : K) (a : Agent K) : validAt eps time a = true ↔ a.firstValid ≤ time + eps := by
  simp [validAt]

/-- **C48**: the settings never fail when they fit the world, leave all existing model objects, ids, clock and ego id alone, and give
* every agent of the specific list a new copy of the specific model (if there is one),
* the ego agent — unless it is in that list — a new copy of the ego model,
* every other active agent outside the list a new copy of the default model (if there is one),
* every other inactive agent not predicted specifically a model that never starts (if there is a default model),
* and leave the others' models as they are; no two agents share a new model object. -/
theorem C48_settings (eps : K) (st : Settings) (h : Heap B) (w : ObsWorld K) (me : Beh B) (d sp : Option (Beh B)) (wf : Wf h w)
    (ft : Fits h w st me d sp) : ∃ h' w', apply eps st (h, w) = .ok (h', w') ∧ Untouched h h' ∧
      OMap.keys w'.agents = OMap.keys w.agents ∧ w'.ego = w.ego ∧ w'.time = w.time ∧
      (∀ i a, OMap.find i w.agents = some a → ∃ a', OMap.find i w'.agents = some a' ∧ a'.firstValid = a.firstValid ∧
        (∀ b, sp = some b → i ∈ st.agents → NewModel h h' a' b) ∧
        (i = w.ego → ¬ (sp.isSome = true ∧ i ∈ st.agents) → NewModel h h' a' me) ∧
        (i ≠ w.ego → ∀ b, d = some b → Active eps h w a → i ∉ st.agents → NewModel h h' a' b) ∧
        (i ≠ w.ego → d.isSome = true → ¬ Active eps h w a → ¬ (sp.isSome = true ∧ i ∈ st.agents) →
          NewModel h h' a' ⟨none, .notStarted⟩) ∧
        (i ≠ w.ego → ¬ (sp.isSome = true ∧ i ∈ st.agents) → (d = none ∨ (Active eps h w a ∧ i ∈ st.agents)) → a'.beh = a.beh)) ∧
      (∀ i j a b, i ≠ j → OMap.find i w'.agents = some a → OMap.find j w'.agents = some b → h.next ≤ a.beh → a.beh ≠ b.beh) := by
  obtain ⟨ld, ls, e, hd0, hd1, hs0, hs1⟩ := apply_ok eps st h w me d sp wf ft
  have S := assignAll_spec ((w.ego, me) :: (ld ++ ls)) (h, w) wf
  refine ⟨_, _, e, S.old, S.keys, S.ego, S.time, ?_, S.sep⟩
  intro i a hi
  obtain ⟨a', h1, h2, h3, h4⟩ := S.find i a hi
  refine ⟨a', h1, h2, ?_⟩
  have noSpec : ¬ (sp.isSome = true ∧ i ∈ st.agents) → lastFor i ((w.ego, me) :: (ld ++ ls)) = lastFor i ((w.ego, me) :: ld) := by
    intro hn
    rw [← List.cons_append]
    apply lastFor_append_ne
    intro p hp c
    cases hsp : sp with
    | none => rw [hs0 hsp] at hp; cases hp
    | some b =>
      rw [hs1 b hsp] at hp
      obtain ⟨j, hj, ej⟩ := List.mem_map.1 hp
      apply hn
      rw [hsp]
      refine ⟨rfl, ?_⟩
      rw [← c, ← ej]
      exact hj
  have act : ∀ b, (Active eps h w a → i ∉ st.agents → dfltOf eps w.time st b h (i, a) = [(i, b)]) ∧
      (Active eps h w a → i ∈ st.agents → dfltOf eps w.time st b h (i, a) = []) ∧
      (¬ Active eps h w a → dfltOf eps w.time st b h (i, a) = [(i, ⟨none, .notStarted⟩)]) := by
    intro b
    unfold dfltOf Active
    simp only
    rw [← validAt_iff]
    refine ⟨fun x y => ?_, fun x y => ?_, fun x => ?_⟩
    · rw [if_pos x, if_neg y]
    · rw [if_pos x, if_pos y]
    · rw [if_neg x]
  refine ⟨?_, ?_, ?_, ?_, ?_⟩
  · intro b hb hin
    apply h4
    rw [← List.cons_append]
    apply lastFor_const
    · intro p hp _
      rw [hs1 b hb] at hp
      obtain ⟨j, _, ej⟩ := List.mem_map.1 hp
      rw [← ej]
    · exact ⟨(i, b), by rw [hs1 b hb]; exact List.mem_map.2 ⟨i, hin, rfl⟩, rfl⟩
  · intro ie hn
    apply h4
    rw [noSpec hn]
    have : lastFor i ([(w.ego, me)] ++ ld) = lastFor i [(w.ego, me)] := by
      apply lastFor_append_ne
      intro p hp c
      cases hd : d with
      | none => rw [hd0 hd] at hp; cases hp
      | some b =>
        rw [hd1 b hd] at hp
        obtain ⟨q, hq, hpq⟩ := List.mem_flatMap.1 hp
        have e1 : p.1 = q.1 := by
          unfold dfltOf at hpq
          split_ifs at hpq <;> simp at hpq <;> simp [hpq]
        exact (mem_erase_iff.1 hq).2 (e1.symm.trans (c.trans ie))
    rw [show (w.ego, me) :: ld = [(w.ego, me)] ++ ld from rfl, this]
    simp [lastFor, ie]
  · intro ne b hb ha hnin
    apply h4
    rw [noSpec (fun x => hnin x.2), hd1 b hb]
    exact (lastFor_dflt eps st h w b wf i a hi ne me).2 b ((act b).1 ha hnin)
  · intro ne hd hna hns
    obtain ⟨b, hb⟩ := Option.isSome_iff_exists.1 hd
    apply h4
    rw [noSpec hns, hd1 b hb]
    exact (lastFor_dflt eps st h w b wf i a hi ne me).2 _ ((act b).2.2 hna)
  · intro ne hns hc
    apply h3
    rw [noSpec hns]
    rcases hc with hd | ⟨ha, hin⟩
    · rw [hd0 hd]
      simp [lastFor, Ne.symm ne]
    · cases hd : d with
      | none =>
        rw [hd0 hd]
        simp [lastFor, Ne.symm ne]
      | some b =>
        rw [hd1 b hd]
        exact (lastFor_dflt eps st h w b wf i a hi ne me).1 ((act b).2.1 ha hin)

/-- **C48** violated for inactive agents in the specific list: they get a running model (if the specific model runs) -/
theorem C48_inactive_specific_violated (eps : K) (st : Settings) (h : Heap B) (w : ObsWorld K) (me : Beh B) (d : Option (Beh B))
    (b : Beh B) (wf : Wf h w) (ft : Fits h w st me d (some b)) (run : b.status = .valid) (i : Nat) (a : Agent K)
    (hi : OMap.find i w.agents = some a) (hin : i ∈ st.agents) (_ina : ¬ Active eps h w a) :
    ∃ h' w' a', apply eps st (h, w) = .ok (h', w') ∧ OMap.find i w'.agents = some a' ∧
      ∃ b', h'.mem a'.beh = some b' ∧ b'.status = .valid := by
  obtain ⟨h', w', e, _, _, _, _, f, _⟩ := C48_settings eps st h w me d (some b) wf ft
  obtain ⟨a', h1, _, h3, _⟩ := f i a hi
  exact ⟨h', w', a', e, h1, b, (h3 b rfl hin).2, run⟩

/-- **C48** violated for the ego agent if it is in the specific list: it does not get the ego model but the specific one -/
theorem C48_ego_specific_violated (eps : K) (st : Settings) (h : Heap B) (w : ObsWorld K) (me : Beh B) (d : Option (Beh B))
    (b : Beh B) (wf : Wf h w) (ft : Fits h w st me d (some b)) (hin : w.ego ∈ st.agents) :
    ∃ h' w' a', apply eps st (h, w) = .ok (h', w') ∧ OMap.find w.ego w'.agents = some a' ∧ h'.mem a'.beh = some b := by
  obtain ⟨h', w', e, _, _, _, _, f, _⟩ := C48_settings eps st h w me d (some b) wf ft
  have := ft.egoIn
  rw [← OMap.find_isSome_iff, Option.isSome_iff_exists] at this
  obtain ⟨a, ha⟩ := this
  obtain ⟨a', h1, _, h3, _⟩ := f w.ego a ha
  exact ⟨h', w', a', e, h1, (h3 b rfl hin).2⟩

/-- **C48**: settings without an ego model (as the default constructor makes them) are undefined behaviour in every world -/
theorem C48_no_ego_model (eps : K) (st : Settings) (s : Heap B × ObsWorld K) (hn : st.ego = none) : apply eps st s = .error .ub := by
  unfold apply assignClone cloneBeh
  rw [hn]
  rfl

/-- **C48**: a specifically predicted agent that is not in the world is undefined behaviour -/
theorem C48_unknown_agent (st : Settings) (s : Heap B × ObsWorld K) (i : Nat) (is : List Nat) (ag : st.agents = i :: is)
    (hi : i ∉ OMap.keys s.2.agents) (hs : st.specific.isSome = true) : specificPart st s = .error .ub := by
  unfold specificPart
  rw [if_pos hs, ag]
  unfold specificLoop assignClone
  have hf : OMap.find i s.2.agents = none := by
    rw [← Option.not_isSome_iff_eq_none, OMap.find_isSome_iff]
    exact hi
  have : ∀ r, setBeh s.2 i r = .error .ub := by
    intro r
    unfold setBeh
    rw [hf]
  obtain ⟨m, hm⟩ := Option.isSome_iff_exists.1 hs
  rw [hm]
  cases hx : s.1.mem m with
  | none =>
    have : cloneBeh s.1 (some m) = .error .ub := by
      unfold cloneBeh
      simp only [hx]
    rw [this]
    rfl
  | some b =>
    have h2 : cloneBeh s.1 (some m) = .ok (alloc s.1 b) := by
      unfold cloneBeh
      simp only [hx]
    rw [h2, Res.ok_bind, this]
    rfl

/-! ### Predict -/

structure CloneSpec (m : OMap Nat (Agent K)) (h : Heap B) (h' : Heap B) (m' : OMap Nat (Agent K)) : Prop where
  next : h'.next = h.next + m.length
  old : Untouched h h'
  map : ∃ rs : List Nat, rs = List.range' h.next m.length ∧ m' = List.zipWith (fun p r => (p.1, { p.2 with beh := r })) m rs
  mem : ∀ k (hk : k < m.length), h'.mem (h.next + k) = h.mem (m[k].2.beh)

theorem cloneAll_ok (m : OMap Nat (Agent K)) (h : Heap B) (hb : ∀ p ∈ m, (h.mem p.2.beh).isSome ∧ p.2.beh < h.next) :
    ∃ h' m', cloneAll m h = .ok (h', m') ∧ CloneSpec m h h' m' := by
  induction m generalizing h with
  | nil => exact ⟨h, [], rfl, rfl, fun _ _ => rfl, ⟨[], rfl, rfl⟩, fun k hk => absurd hk (by simp)⟩
  | cons p m ih =>
    obtain ⟨i, a⟩ := p
    obtain ⟨hs, hl⟩ := hb (i, a) (List.mem_cons_self ..)
    obtain ⟨b, hbb⟩ := Option.isSome_iff_exists.1 hs
    have keep : ∀ r, r < h.next → (alloc h b).1.mem r = h.mem r := by
      intro r hr
      simp only [alloc]
      rw [if_neg (by omega)]
    obtain ⟨h', m', e, sp⟩ := ih (alloc h b).1 (by
      intro p hp
      obtain ⟨x, y⟩ := hb p (List.mem_cons_of_mem _ hp)
      rw [keep _ y]
      exact ⟨x, Nat.lt_succ_of_lt y⟩)
    have n1 : (alloc h b).1.next = h.next + 1 := rfl
    refine ⟨h', (i, { a with beh := h.next }) :: m', ?_, ?_, ?_, ?_, ?_⟩
    · unfold cloneAll cloneBeh
      simp only at hbb
      simp only [hbb]
      rw [Res.ok_bind, e, Res.ok_bind]
      rfl
    · rw [sp.next, n1, List.length_cons]; omega
    · intro r hr
      rw [sp.old r (by rw [n1]; omega), keep r hr]
    · obtain ⟨rs, e1, e2⟩ := sp.map
      refine ⟨h.next :: rs, ?_, ?_⟩
      · rw [List.length_cons, List.range'_succ, e1, n1]
      · rw [e2]
        rfl
    · intro k hk
      cases k with
      | zero =>
        rw [Nat.add_zero, sp.old h.next (by rw [n1]; omega)]
        simp only [alloc, if_true]
        exact hbb.symm
      | succ k =>
        have := sp.mem k (by simpa using hk)
        rw [n1] at this
        rw [show h.next + (k + 1) = h.next + 1 + k by omega, this]
        simp only [List.getElem_cons_succ]
        apply keep
        exact (hb _ (List.mem_cons_of_mem _ (List.getElem_mem _))).2

/-- what the clone of a world is -/
structure WorldClone (h : Heap B) (w : ObsWorld K) (h' : Heap B) (w' : ObsWorld K) : Prop where
  old : Untouched h h'
  keys : OMap.keys w'.agents = OMap.keys w.agents
  ego : w'.ego = w.ego
  time : w'.time = w.time
  find : ∀ i a, OMap.find i w.agents = some a → ∃ a', OMap.find i w'.agents = some a' ∧ a'.firstValid = a.firstValid ∧
    h.next ≤ a'.beh ∧ h'.mem a'.beh = h.mem a.beh
  back : ∀ i a', OMap.find i w'.agents = some a' → h.next ≤ a'.beh
  inj : ∀ i j a b, i ≠ j → OMap.find i w'.agents = some a → OMap.find j w'.agents = some b → a.beh ≠ b.beh
  sorted : OMap.Sorted w'.agents

theorem cloneWorld_ok (h : Heap B) (w : ObsWorld K) (wf : Wf h w) : ∃ h' w', cloneWorld (h, w) = .ok (h', w') ∧ WorldClone h w h' w' := by
  obtain ⟨h', m', e, sp⟩ := cloneAll_ok w.agents h (by
    intro p hp
    have := wf.beh p.1 p.2 (OMap.mem_find_some wf.sorted hp)
    exact ⟨this, wf.bound _ this⟩)
  refine ⟨h', { w with agents := m' }, ?_, ?_⟩
  · unfold cloneWorld
    simp only
    rw [e, Res.ok_bind]
  · obtain ⟨rs, e1, e2⟩ := sp.map
    have hk : OMap.keys m' = OMap.keys w.agents := by
      rw [e2]
      unfold OMap.keys
      apply List.ext_getElem
      · simp [e1]
      · intro n h1 h2
        simp
    have hs : OMap.Sorted m' := by
      rw [OMap.sorted_iff_keys, hk, ← OMap.sorted_iff_keys]
      exact wf.sorted
    have len : m'.length = w.agents.length := by rw [e2]; simp [e1]
    have at' : ∀ k (hk : k < w.agents.length), m'[k]? = some ((w.agents[k]).1, { (w.agents[k]).2 with beh := h.next + k }) := by
      intro k hk
      rw [e2, e1]
      simp [List.getElem?_zipWith, hk]
    have idx : ∀ i a', OMap.find i m' = some a' → ∃ k, ∃ hk : k < w.agents.length, w.agents[k].1 = i ∧ a'.beh = h.next + k := by
      intro i a' hf
      obtain ⟨k, hk', ek⟩ := List.getElem_of_mem (OMap.find_some_mem hf)
      have hk2 : k < w.agents.length := by rw [← len]; exact hk'
      have := at' k hk2
      rw [List.getElem?_eq_getElem hk', ek] at this
      simp only [Option.some.injEq, Prod.mk.injEq] at this
      refine ⟨k, hk2, this.1.symm, ?_⟩
      rw [this.2]
    refine ⟨sp.old, hk, rfl, rfl, ?_, ?_, ?_, hs⟩
    · intro i a hi
      obtain ⟨k, hk', ek⟩ := List.getElem_of_mem (OMap.find_some_mem hi)
      have := at' k hk'
      rw [ek] at this
      refine ⟨_, OMap.mem_find_some hs (List.mem_of_getElem? this), rfl, ?_, ?_⟩
      · simp only; omega
      · simp only
        rw [sp.mem k hk', ek]
    · intro i a' hf
      obtain ⟨k, _, _, e⟩ := idx i a' hf
      omega
    · intro i j a b ij ha hb c
      obtain ⟨k, hk1, ei, e⟩ := idx i a ha
      obtain ⟨k', hk2, ej, e'⟩ := idx j b hb
      have : k = k' := by omega
      subst this
      exact ij (ei.symm.trans ej)

/-- planning changes every agent's model once if no two agents share one -/
theorem stepBeh_spec (plan : Nat → Beh B → Beh B) (m : OMap Nat (Agent K)) (h : Heap B) :
    (∀ r, (∀ p ∈ m, p.2.beh ≠ r) → (stepBeh plan m h).mem r = h.mem r) ∧
    ((m.map (fun p => p.2.beh)).Nodup → ∀ p ∈ m, (stepBeh plan m h).mem p.2.beh = (h.mem p.2.beh).map (plan p.1)) := by
  induction m generalizing h with
  | nil => exact ⟨fun _ _ => rfl, fun _ p hp => by cases hp⟩
  | cons q m ih =>
    obtain ⟨i, a⟩ := q
    set h1 : Heap B := { h with mem := fun r => if r = a.beh then (h.mem r).map (plan i) else h.mem r } with hh1
    obtain ⟨ih1, ih2⟩ := ih h1
    refine ⟨?_, ?_⟩
    · intro r hr
      show (stepBeh plan m h1).mem r = _
      rw [ih1 r (fun p hp => hr p (List.mem_cons_of_mem _ hp))]
      simp only [hh1]
      rw [if_neg (fun c => hr (i, a) (List.mem_cons_self ..) c.symm)]
    · intro nd p hp
      rw [List.map_cons, List.nodup_cons] at nd
      show (stepBeh plan m h1).mem p.2.beh = _
      rcases List.mem_cons.1 hp with e | e
      · rw [e, ih1]
        · simp [hh1]
        · intro q hq c
          exact nd.1 (List.mem_map.2 ⟨q, hq, c⟩)
      · rw [ih2 nd.2 p e]
        simp only [hh1]
        rw [if_neg]
        intro c
        exact nd.1 (List.mem_map.2 ⟨p, e, c⟩)

theorem nodup_behs {m : OMap Nat (Agent K)} (hs : OMap.Sorted m)
    (inj : ∀ i j a b, i ≠ j → OMap.find i m = some a → OMap.find j m = some b → a.beh ≠ b.beh) : (m.map (fun p => p.2.beh)).Nodup := by
  rw [List.nodup_iff_pairwise_ne, List.pairwise_map]
  refine (List.Pairwise.and_mem.1 hs).imp ?_
  intro p q hpq
  exact inj p.1 q.1 p.2 q.2 (ne_of_lt hpq.2.2) (OMap.mem_find_some hs hpq.1) (OMap.mem_find_some hs hpq.2.1)

theorem giveActions_spec {A : Type} (setAct : A → B → Option B) (w : ObsWorld K) (acts : List (Nat × A)) (h : Heap B)
    (nd : (acts.map Prod.fst).Nodup)
    (inj : ∀ i j a b, i ≠ j → OMap.find i w.agents = some a → OMap.find j w.agents = some b → a.beh ≠ b.beh) :
    (∀ r, (∀ i x a, (i, x) ∈ acts → OMap.find i w.agents = some a → a.beh ≠ r) → (giveActions setAct w acts h).mem r = h.mem r) ∧
    (∀ i x a, (i, x) ∈ acts → OMap.find i w.agents = some a →
      (giveActions setAct w acts h).mem a.beh = (h.mem a.beh).map (giveAction setAct x)) := by
  induction acts generalizing h with
  | nil => exact ⟨fun _ _ => rfl, fun i x a hm => by cases hm⟩
  | cons q acts ih =>
    obtain ⟨j, y⟩ := q
    rw [List.map_cons, List.nodup_cons] at nd
    cases hf : OMap.find j w.agents with
    | none =>
      have e : giveActions setAct w ((j, y) :: acts) h = giveActions setAct w acts h := by simp only [giveActions, hf]
      rw [e]
      obtain ⟨ih1, ih2⟩ := ih h nd.2
      refine ⟨fun r hr => ih1 r (fun i x a hm => hr i x a (List.mem_cons_of_mem _ hm)), ?_⟩
      intro i x a hm ha
      rcases List.mem_cons.1 hm with e | e
      · cases e
        rw [hf] at ha
        cases ha
      · exact ih2 i x a e ha
    | some b =>
      set h1 : Heap B := { h with mem := fun r => if r = b.beh then (h.mem r).map (giveAction setAct y) else h.mem r } with hh1
      have e : giveActions setAct w ((j, y) :: acts) h = giveActions setAct w acts h1 := by simp only [giveActions, hf, hh1]
      rw [e]
      obtain ⟨ih1, ih2⟩ := ih h1 nd.2
      refine ⟨?_, ?_⟩
      · intro r hr
        rw [ih1 r (fun i x a hm => hr i x a (List.mem_cons_of_mem _ hm))]
        simp only [hh1]
        rw [if_neg (fun c => hr j y b (List.mem_cons_self ..) hf c.symm)]
      · intro i x a hm ha
        rcases List.mem_cons.1 hm with e | e
        · cases e
          rw [hf] at ha
          cases ha
          rw [ih1]
          · simp [hh1]
          · intro i' x' a' hm' ha'
            apply inj i' j a' b _ ha' hf
            intro c
            exact nd.1 (List.mem_map.2 ⟨(i', x'), hm', c⟩)
        · rw [ih2 i x a e ha]
          simp only [hh1]
          rw [if_neg]
          apply inj i j a b _ ha hf
          intro c
          exact nd.1 (List.mem_map.2 ⟨(i, x), e, c⟩)

/-- **C93**: `Predict` with an action per agent id (at most one each, in any order) makes every named agent whose model accepts actions plan
with its action and leaves the model of every other agent as it is; each agent plans once, with its own new model object; the world it is
called on and all existing models are untouched (C92); unknown ids are ignored. -/
theorem C93_actions {A : Type} (setAct : A → B → Option B) (plan : Nat → Beh B → Beh B) (acts : List (Nat × A))
    (nd : (acts.map Prod.fst).Nodup) (h : Heap B) (w : ObsWorld K) (wf : Wf h w) :
    ∃ h' w', predictActions setAct plan acts (h, w) = .ok (h', w') ∧ Untouched h h' ∧ OMap.keys w'.agents = OMap.keys w.agents ∧
      w'.ego = w.ego ∧
      ∀ i a b, OMap.find i w.agents = some a → h.mem a.beh = some b →
        ∃ a', OMap.find i w'.agents = some a' ∧
          ((∀ x, (i, x) ∉ acts) → NewModel h h' a' (plan i b)) ∧
          (∀ x bd bd', (i, x) ∈ acts → b.body = some bd → setAct x bd = some bd' →
            NewModel h h' a' (plan i { b with body := some bd' })) ∧
          (∀ x, (i, x) ∈ acts → (b.body = none ∨ ∃ bd, b.body = some bd ∧ setAct x bd = none) → NewModel h h' a' (plan i b)) := by
  obtain ⟨h1, w1, e, c⟩ := cloneWorld_ok h w wf
  obtain ⟨g1, g2⟩ := giveActions_spec setAct w1 acts h1 nd c.inj
  set h2 := giveActions setAct w1 acts h1 with hh2
  obtain ⟨s1, s2⟩ := stepBeh_spec plan w1.agents h2
  have s2' := s2 (nodup_behs c.sorted c.inj)
  refine ⟨stepBeh plan w1.agents h2, w1, ?_, ?_, c.keys, c.ego, ?_⟩
  · unfold predictActions
    rw [e, Res.ok_bind]
  · intro r hr
    rw [s1 r, g1 r, c.old r hr]
    · intro i x a _ ha e
      have := c.back i a ha
      omega
    · intro p hp e
      have := c.back p.1 p.2 (OMap.mem_find_some c.sorted hp)
      omega
  · intro i a b hi hb
    obtain ⟨a', f1, _, f3, f4⟩ := c.find i a hi
    have st := s2' (i, a') (OMap.find_some_mem f1)
    simp only at st
    rw [hb] at f4
    refine ⟨a', f1, ?_, ?_, ?_⟩
    · intro hn
      refine ⟨f3, ?_⟩
      rw [st, g1, f4]
      · rfl
      · intro j x b' hm hj
        by_cases ij : j = i
        · subst ij
          exact absurd hm (hn x)
        · exact c.inj j i b' a' ij hj f1
    · intro x bd bd' hm e1 e2
      refine ⟨f3, ?_⟩
      rw [st, g2 i x a' hm f1, f4]
      simp [giveAction, e1, e2]
    · intro x hm hor
      refine ⟨f3, ?_⟩
      rw [st, g2 i x a' hm f1, f4]
      rcases hor with e1 | ⟨bd, e1, e2⟩
      · simp [giveAction, e1]
      · simp [giveAction, e1, e2]

/-- **C92** (holds for `Predict(time_span)`): all existing models are untouched, every agent plans with a new copy of its model -/
theorem C92_predict_isolated (plan : Nat → Beh B → Beh B) (h : Heap B) (w : ObsWorld K) (wf : Wf h w) :
    ∃ h' w', predict plan (h, w) = .ok (h', w') ∧ Untouched h h' ∧ OMap.keys w'.agents = OMap.keys w.agents ∧
      ∀ i a b, OMap.find i w.agents = some a → h.mem a.beh = some b →
        ∃ a', OMap.find i w'.agents = some a' ∧ NewModel h h' a' (plan i b) := by
  obtain ⟨h', w', e, u, k, _, f⟩ := C93_actions (A := Empty) (fun x _ => x.elim) plan [] List.nodup_nil h w wf
  refine ⟨h', w', e, u, k, ?_⟩
  intro i a b hi hb
  obtain ⟨a', f1, f2, _⟩ := f i a b hi hb
  exact ⟨a', f1, f2 (fun x hx => by cases hx)⟩

theorem setModels_find (rs : List (Nat × Nat)) (m : OMap Nat (Agent K)) (nd : (rs.map Prod.fst).Nodup) (i : Nat) (a : Agent K)
    (ha : OMap.find i m = some a) : ((∀ r, (i, r) ∉ rs) → OMap.find i (setModels rs m) = some a) ∧
      (∀ r, (i, r) ∈ rs → OMap.find i (setModels rs m) = some { a with beh := r }) := by
  induction rs generalizing m a with
  | nil => exact ⟨fun _ => ha, fun r hr => by cases hr⟩
  | cons q rs ih =>
    obtain ⟨j, y⟩ := q
    rw [List.map_cons, List.nodup_cons] at nd
    unfold setModels
    by_cases c : i = j
    · subst c
      have hf : OMap.find i (OMap.modify i (fun a => { a with beh := y }) m) = some { a with beh := y } := by
        rw [OMap.find_modify, if_pos rfl, ha]
        rfl
      have hno : ∀ r, (i, r) ∉ rs := fun r hr => nd.1 (List.mem_map.2 ⟨(i, r), hr, rfl⟩)
      obtain ⟨i1, _⟩ := ih _ nd.2 _ hf
      refine ⟨fun hn => absurd (List.mem_cons_self ..) (hn y), ?_⟩
      intro r hr
      rcases List.mem_cons.1 hr with e | e
      · cases e
        exact i1 hno
      · exact absurd e (hno r)
    · have hf : OMap.find i (OMap.modify j (fun a => { a with beh := y }) m) = some a := by
        rw [OMap.find_modify, if_neg c, ha]
      obtain ⟨i1, i2⟩ := ih _ nd.2 _ hf
      refine ⟨fun hn => i1 (fun r hr => hn r (List.mem_cons_of_mem _ hr)), ?_⟩
      intro r hr
      rcases List.mem_cons.1 hr with e | e
      · cases e
        exact absurd rfl c
      · exact i2 r e

theorem setModels_keys (rs : List (Nat × Nat)) (m : OMap Nat (Agent K)) : OMap.keys (setModels rs m) = OMap.keys m := by
  induction rs generalizing m with
  | nil => rfl
  | cons q rs ih =>
    obtain ⟨j, y⟩ := q
    unfold setModels
    rw [ih, OMap.keys_modify]

/-- **C92** violated for models passed to `Predict`: the predicted ego agent plans with the very object passed, which is changed by it -/
theorem C92_passed_model_violated (plan : Nat → Beh B → Beh B) (egoModel : Nat) (h : Heap B) (w : ObsWorld K) (wf : Wf h w)
    (b : Beh B) (hb : h.mem egoModel = some b) (egoIn : w.ego ∈ OMap.keys w.agents) :
    ∃ h' w', predictModels plan egoModel [] (h, w) = .ok (h', w') ∧ h'.mem egoModel = some (plan w.ego b) := by
  obtain ⟨h1, w1, e, c⟩ := cloneWorld_ok h w wf
  have lt : egoModel < h.next := wf.bound _ (by rw [hb]; rfl)
  refine ⟨_, _, by unfold predictModels; rw [e, Res.ok_bind], ?_⟩
  simp only
  rw [← OMap.find_isSome_iff, Option.isSome_iff_exists] at egoIn
  obtain ⟨a, ha⟩ := egoIn
  obtain ⟨a', f1, _, f3, _⟩ := c.find w.ego a ha
  set m : OMap Nat (Agent K) := setModels [(w1.ego, egoModel)] w1.agents with hm
  have hk : OMap.keys m = OMap.keys w1.agents := setModels_keys _ _
  have hs : OMap.Sorted m := by rw [OMap.sorted_iff_keys, hk, ← OMap.sorted_iff_keys]; exact c.sorted
  have hin : OMap.find w.ego m = some { a' with beh := egoModel } :=
    (setModels_find [(w1.ego, egoModel)] w1.agents (by simp) w.ego a' f1).2 egoModel (by rw [c.ego]; simp)
  have other : ∀ i x, i ≠ w.ego → OMap.find i m = some x → OMap.find i w1.agents = some x := by
    intro i x ne hx
    have : (OMap.find i w1.agents).isSome := by
      rw [OMap.find_isSome_iff, ← hk, ← OMap.find_isSome_iff, hx]; rfl
    obtain ⟨y, hy⟩ := Option.isSome_iff_exists.1 this
    have := (setModels_find [(w1.ego, egoModel)] w1.agents (by simp) i y hy).1 (by
      intro r hr
      simp only [List.mem_singleton, Prod.mk.injEq] at hr
      exact ne (hr.1.trans c.ego))
    rw [← hm, hx] at this
    cases this
    exact hy
  have inj : ∀ i j a b, i ≠ j → OMap.find i m = some a → OMap.find j m = some b → a.beh ≠ b.beh := by
    intro i j x y ij hx hy
    by_cases ci : i = w.ego
    · subst ci
      rw [hin] at hx
      cases hx
      have := c.back j y (other j y (Ne.symm ij) hy)
      simp only
      omega
    · by_cases cj : j = w.ego
      · subst cj
        rw [hin] at hy
        cases hy
        have := c.back i x (other i x ci hx)
        simp only
        omega
      · exact c.inj i j x y ij (other i x ci hx) (other j y cj hy)
  have := (stepBeh_spec plan m h1).2 (nodup_behs hs inj) (w.ego, { a' with beh := egoModel }) (OMap.find_some_mem hin)
  simp only at this
  rw [this, c.old egoModel lt, hb]
  rfl

end

/-! ### a concrete case -/

/-- agents 1 (ego), 2 (active), 3 (not yet valid), 4 (active, predicted specifically); models 0-3 are theirs, 4 ego, 5 default, 6 specific -/
def exHeap : Heap Nat := ⟨7, fun r => if r < 7 then some ⟨some r, .valid⟩ else none⟩

/-- the world of the example -/
def exWorld : ObsWorld ℚ := ⟨[(1, ⟨0, 0⟩), (2, ⟨1, 0⟩), (3, ⟨2, 5⟩), (4, ⟨3, 0⟩)], 1, 1⟩

theorem ex_wf : Wf exHeap exWorld := by
  refine ⟨by unfold OMap.Sorted exWorld; decide, ?_, ?_⟩
  · intro i a h
    have := OMap.find_some_mem h
    simp only [exWorld, List.mem_cons, Prod.mk.injEq, List.not_mem_nil, or_false] at this
    rcases this with ⟨_, e⟩ | ⟨_, e⟩ | ⟨_, e⟩ | ⟨_, e⟩ <;> rw [e] <;> rfl
  · intro r hr
    unfold exHeap at hr ⊢
    simp only at hr ⊢
    by_contra c
    rw [if_neg c] at hr
    cases hr

/-- the hypotheses of C48 are met -/
example : Wf exHeap exWorld ∧ Fits exHeap exWorld ⟨some 4, some 5, some 6, [4]⟩ ⟨some 4, .valid⟩ (some ⟨some 5, .valid⟩) (some ⟨some 6, .valid⟩) :=
  ⟨ex_wf, ⟨4, rfl, rfl⟩, Or.inr ⟨5, _, rfl, rfl, rfl⟩, Or.inr ⟨6, _, rfl, rfl, rfl⟩, by decide,
    fun _ i hi => by rw [List.mem_singleton.1 hi]; decide⟩

/-- … and agent 3 is inactive -/
example : ¬ Active (0 : ℚ) exHeap exWorld ⟨2, 5⟩ := by
  rintro ⟨_, h⟩
  revert h
  unfold exWorld
  decide +kernel

end Bark.Pred
