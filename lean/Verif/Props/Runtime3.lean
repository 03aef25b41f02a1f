import Verif.Props.Runtime2

/-!
C147–C150: the runtime (history of worlds, resets, rendering) and the map file of a scenario.
-/
set_option linter.unusedSectionVars false
namespace Bark.Run

variable {A M F J T : Type}

/-- `n` calls of `step` -/
def steps (c : Code A M F J T) (r : Runtime A M F J T) : Nat → Res (Runtime A M F J T)
  | 0 => .ok r
  | n + 1 =>
    match steps c r n with
    | .error f => .error f
    | .ok r' => step c r'

/-- snapshots `hist` in heap `h`, apart from the live world `w`, have the contents `l` -/
structure HistOk (h : Heap A) (hist : List (World M)) (w : World M) (l : List (List (Nat × A))) : Prop where
  eq : hist.map (contents h) = l
  old : ∀ x ∈ hist, ∀ p ∈ x.agents, p.2 < h.next
  apart : ∀ x ∈ hist, ∀ p ∈ x.agents, ∀ q ∈ w.agents, p.2 ≠ q.2

theorem histOk_update {f : Nat → A → A} {h : Heap A} {hist : List (World M)} {w : World M}
    {l : List (List (Nat × A))} (hh : HistOk h hist w l) : HistOk (updateAll f h w.agents) hist w l := by
  obtain ⟨g1, g2⟩ := updateAll_frame f w.agents h
  refine ⟨?_, fun x hx p hp => by rw [g1]; exact hh.old x hx p hp, hh.apart⟩
  rw [← hh.eq]
  refine List.map_congr_left fun x hx => ?_
  unfold contents
  refine List.map_congr_left fun p hp => ?_
  rw [g2 p.2 fun q hq he => hh.apart x hx p hp q hq he.symm]

theorem histOk_sub {h : Heap A} {hist : List (World M)} {w w' : World M} {l : List (List (Nat × A))}
    (hh : HistOk h hist w l) (hs : ∀ p ∈ w'.agents, p ∈ w.agents) : HistOk h hist w' l :=
  ⟨hh.eq, hh.old, fun x hx p hp q hq => hh.apart x hx p hp q (hs q hq)⟩

theorem contents_frame {h h' : Heap A} (hf : Frame h h') {w : World M} (hw : ∀ p ∈ w.agents, p.2 < h.next) :
    contents h' w = contents h w := by
  unfold contents
  refine List.map_congr_left fun p hp => ?_
  rw [hf.2 _ (hw p hp)]

/-- taking a snapshot -/
theorem histOk_clone (c : Code A M F J T) {h : Heap A} {hist : List (World M)} {w : World M}
    {l : List (List (Nat × A))} (hh : HistOk h hist w l) (hw : ∀ p ∈ w.agents, p.2 < h.next) :
    HistOk (cloneWorld c h w).1 (hist ++ [(cloneWorld c h w).2]) w (l ++ [Spec.copies c (contents h w)]) ∧
    Frame h (cloneWorld c h w).1 := by
  obtain ⟨f1, f2, f3⟩ := cloneAgents_spec c w.agents h hw
  refine ⟨⟨?_, ?_, ?_⟩, f1⟩
  · rw [List.map_append]
    congr 1
    · rw [← hh.eq]
      exact List.map_congr_left fun x hx => contents_frame f1 (hh.old x hx)
    · simp only [List.map_cons, List.map_nil]
      congr 1
      show (cloneAgents c h w.agents).2.map (fun p => (p.1, (cloneAgents c h w.agents).1.cell p.2)) = _
      rw [f3]
      unfold Spec.copies contents
      rw [List.map_map]
      rfl
  · intro x hx p hp
    rcases List.mem_append.1 hx with g | g
    · exact Nat.lt_of_lt_of_le (hh.old x g p hp) f1.1
    · have : x = (cloneWorld c h w).2 := by simpa using g
      subst this
      exact (f2 p hp).2
  · intro x hx p hp q hq
    rcases List.mem_append.1 hx with g | g
    · exact hh.apart x g p hp q hq
    · have : x = (cloneWorld c h w).2 := by simpa using g
      subst this
      exact fun e => Nat.lt_irrefl _ (Nat.lt_of_lt_of_le (hw q hq) (e ▸ (f2 p hp).1))

/-- the runtime `r` after `n` steps from `r0`, which was reset to contents `cs` on map `m` -/
structure After (c : Code A M F J T) (r0 : Runtime A M F J T) (s : Scenario M F J) (m : M) (cs : List (Nat × A))
    (n : Nat) (r : Runtime A M F J T) (w : World M) : Prop where
  called : r.resetCalled = true
  world : r.world = some w
  scenario : r.scenario = some s
  map : w.map = m
  refs : ∀ p ∈ w.agents, p.2 < r.heap.next
  inj : Injective w
  now : contents r.heap w = Spec.after c m r0.stepTime cs n
  hist : if r.keep = true ∧ 0 < n
    then HistOk r.heap r.history w ((List.range (n + 1)).map fun j => Spec.copies c (Spec.after c m r0.stepTime cs j))
    else r.history = []
  drawn : r.drawn = r0.drawn ++ (if r0.render = true ∧ r0.viewer = true
    then (List.range n).map fun j =>
      ⟨Spec.planned c m r0.stepTime (Spec.after c m r0.stepTime cs j), s.evalIds, r0.idx⟩
    else [])
  fixed : r.stepTime = r0.stepTime ∧ r.keep = r0.keep ∧ r.render = r0.render ∧ r.viewer = r0.viewer ∧ r.idx = r0.idx ∧
    r.gen = r0.gen

theorem injective_filter {w : World M} (hw : Injective w) (f : Nat × Nat → Bool) :
    Injective { w with agents := w.agents.filter f } :=
  List.Nodup.sublist (List.Sublist.map _ List.filter_sublist) hw

theorem first_spec (c : Code A M F J T) {r0 r : Runtime A M F J T} {s : Scenario M F J} {m : M} {cs : List (Nat × A)}
    {n : Nat} {w : World M} (ha : After c r0 s m cs n r w) :
    Frame r.heap (firstSnapshot c r w).1 ∧
    if r.keep = true
    then HistOk (firstSnapshot c r w).1 (firstSnapshot c r w).2 w
      ((List.range (n + 1)).map fun j => Spec.copies c (Spec.after c m r0.stepTime cs j))
    else (firstSnapshot c r w).2 = [] := by
  have hh := ha.hist
  unfold firstSnapshot
  by_cases hk : r.keep = true
  · rw [if_pos hk]
    by_cases hn : 0 < n
    · rw [if_pos ⟨hk, hn⟩] at hh
      have hne : r.history ≠ [] := by
        intro e
        have := hh.eq
        rw [e] at this
        have := congrArg List.length this
        simp at this
      rw [if_neg (fun h => hne h.1)]
      exact ⟨Frame.refl _, hh⟩
    · rw [if_neg (fun h => hn h.2)] at hh
      rw [if_pos ⟨hh, hk⟩]
      have hn0 : n = 0 := by omega
      subst hn0
      have h0 : HistOk r.heap ([] : List (World M)) w [] := ⟨rfl, by simp, by simp⟩
      obtain ⟨g1, g2⟩ := histOk_clone c h0 ha.refs
      refine ⟨g2, ?_⟩
      rw [ha.now] at g1
      simpa using g1
  · rw [if_neg hk, if_neg (fun h => hk h.2)]
    rw [if_neg (fun h => hk h.1)] at hh
    exact ⟨Frame.refl _, hh⟩

theorem after_step (c : Code A M F J T) {r0 r : Runtime A M F J T} {s : Scenario M F J} {m : M} {cs : List (Nat × A)}
    {n : Nat} {w : World M} (ha : After c r0 s m cs n r w) :
    ∃ r' w', step c r = .ok r' ∧ After c r0 s m cs (n + 1) r' w' := by
  obtain ⟨hf, hh⟩ := first_spec c ha
  have hm := ha.map
  obtain ⟨e1, e2, e3, e4, e5, e6⟩ := ha.fixed
  have hrefs1 : ∀ p ∈ w.agents, p.2 < (firstSnapshot c r w).1.next :=
    fun p hp => Nat.lt_of_lt_of_le (ha.refs p hp) hf.1
  have hnow1 : contents (firstSnapshot c r w).1 w = Spec.after c m r0.stepTime cs n :=
    (contents_frame hf ha.refs).trans ha.now
  have hstep : step c r = .ok
      { r with
        heap := (snapshot c r.keep (executeWorld c r.stepTime (planWorld c r.stepTime (firstSnapshot c r w).1 w) w).1
          (firstSnapshot c r w).2
          (executeWorld c r.stepTime (planWorld c r.stepTime (firstSnapshot c r w).1 w) w).2).1
        world := some (executeWorld c r.stepTime (planWorld c r.stepTime (firstSnapshot c r w).1 w) w).2
        history := (snapshot c r.keep
          (executeWorld c r.stepTime (planWorld c r.stepTime (firstSnapshot c r w).1 w) w).1
          (firstSnapshot c r w).2
          (executeWorld c r.stepTime (planWorld c r.stepTime (firstSnapshot c r w).1 w) w).2).2
        drawn := if r.render then
          renderNow { r with heap := planWorld c r.stepTime (firstSnapshot c r w).1 w } w s.evalIds else r.drawn } := by
    unfold step
    rw [ha.called, ha.world, ha.scenario]
  -- the live world after the step
  have hplan : contents (planWorld c r.stepTime (firstSnapshot c r w).1 w) w =
      Spec.planned c m r0.stepTime (Spec.after c m r0.stepTime cs n) := by
    rw [contents_plan c _ _ w ha.inj, hnow1, hm, e1]
  have hnew : contents (stepWorld c r.stepTime (firstSnapshot c r w).1 w).1
      (stepWorld c r.stepTime (firstSnapshot c r w).1 w).2 = Spec.after c m r0.stepTime cs (n + 1) := by
    rw [contents_step c _ _ w ha.inj, hnow1, hm, e1]
    rfl
  have hinj : Injective (stepWorld c r.stepTime (firstSnapshot c r w).1 w).2 := injective_filter ha.inj _
  obtain ⟨k1, k2, k3⟩ := step_frame c r.stepTime (firstSnapshot c r w).1 w
  have hrefs2 : ∀ p ∈ (stepWorld c r.stepTime (firstSnapshot c r w).1 w).2.agents,
      p.2 < (stepWorld c r.stepTime (firstSnapshot c r w).1 w).1.next :=
    fun p hp => by rw [k1]; exact hrefs1 p (k3 p hp)
  have hdrawn : (if r.render then
      renderNow { r with heap := planWorld c r.stepTime (firstSnapshot c r w).1 w } w s.evalIds else r.drawn) =
      r0.drawn ++ (if r0.render = true ∧ r0.viewer = true
        then (List.range (n + 1)).map fun j =>
          ⟨Spec.planned c m r0.stepTime (Spec.after c m r0.stepTime cs j), s.evalIds, r0.idx⟩
        else []) := by
    unfold renderNow
    simp only
    rw [hplan, ha.drawn, e3, e4, e5]
    by_cases hr : r0.render = true
    · by_cases hv : r0.viewer = true
      · simp only [hr, hv, if_true, and_self, List.range_succ, List.map_append, List.map_cons, List.map_nil,
          List.append_assoc]
      · simp only [hr, hv, if_false, and_false, Bool.false_eq_true]
        simp
    · simp only [hr, false_and, if_false, Bool.false_eq_true]
  refine ⟨_, (stepWorld c r.stepTime (firstSnapshot c r w).1 w).2, hstep, ?_⟩
  unfold snapshot
  by_cases hk : r.keep = true
  · rw [if_pos hk] at hh
    have hu : HistOk (stepWorld c r.stepTime (firstSnapshot c r w).1 w).1 (firstSnapshot c r w).2
        (stepWorld c r.stepTime (firstSnapshot c r w).1 w).2
        ((List.range (n + 1)).map fun j => Spec.copies c (Spec.after c m r0.stepTime cs j)) :=
      histOk_sub (histOk_update (histOk_update hh)) k3
    obtain ⟨g1, g2⟩ := histOk_clone c hu hrefs2
    refine ⟨ha.called, rfl, ha.scenario, hm, ?_, hinj, ?_, ?_, hdrawn, ha.fixed⟩
    · simp only [hk, if_true]
      exact fun p hp => Nat.lt_of_lt_of_le (hrefs2 p hp) g2.1
    · simp only [hk, if_true]
      exact (contents_frame g2 hrefs2).trans hnew
    · have : r.keep = true ∧ 0 < n + 1 := ⟨hk, Nat.succ_pos n⟩
      simp only [hk, if_true, Nat.succ_pos, and_self]
      rw [hnew] at g1
      have hl : ((List.range (n + 1)).map fun j => Spec.copies c (Spec.after c m r0.stepTime cs j)) ++
          [Spec.copies c (Spec.after c m r0.stepTime cs (n + 1))] =
          (List.range (n + 1 + 1)).map fun j => Spec.copies c (Spec.after c m r0.stepTime cs j) := by
        rw [List.range_succ (n := n + 1), List.map_append]
        rfl
      rw [hl] at g1
      exact g1
  · rw [if_neg hk] at hh
    refine ⟨ha.called, rfl, ha.scenario, hm, ?_, hinj, ?_, ?_, hdrawn, ha.fixed⟩
    · simp only [hk, if_false, Bool.false_eq_true]
      exact hrefs2
    · simp only [hk, if_false, Bool.false_eq_true]
      exact hnew
    · simp only [hk, false_and, if_false, Bool.false_eq_true]
      exact hh

theorem resetWith_after (c : Code A M F J T) (dflt : J) {r r0 : Runtime A M F J T} {h : Heap A} {g : Generator M F J}
    {s : Scenario M F J} {idx : Option Nat} (hs : Spec.Proper h s) (e : resetWith c dflt r h g s idx = .ok r0) :
    ∃ w s', After c r0 s' w.map (contents r0.heap w) 0 r0 w ∧ s' = { s with map := some w.map } ∧
      getWorld c dflt h s = .ok (r0.heap, s', w) ∧ r0.gen = g ∧ r0.idx = idx ∧ r0.history = [] ∧
      Spec.IsInitial c w.map (Spec.agentsOf h s) (contents r0.heap w) := by
  unfold resetWith at e
  cases hw : getWorld c dflt h s with
  | error f => rw [hw] at e; cases e
  | ok q =>
    obtain ⟨h', s', w⟩ := q
    rw [hw] at e
    simp only [Except.ok.injEq] at e
    subst e
    obtain ⟨g1, g2, g3, g4, g5, g6, g7⟩ := getWorld_spec c dflt hw
    obtain ⟨k1, k2, k3⟩ := g7 hs.1
    refine ⟨w, s', ⟨rfl, rfl, rfl, rfl, fun p hp => ?_, injective_of k2 k3, rfl, ?_, ?_, ?_⟩, g2, rfl, rfl, rfl, rfl,
      k1⟩
    · show p.2 < h'.next
      rw [g4]; exact hs.2 _ (g6 p hp)
    · simp
    · simp
    · exact ⟨rfl, rfl, rfl, rfl, rfl, rfl⟩

theorem after_steps (c : Code A M F J T) {r0 : Runtime A M F J T} {s : Scenario M F J} {m : M} {cs : List (Nat × A)}
    {w : World M} (ha : After c r0 s m cs 0 r0 w) (n : Nat) :
    ∃ r w', steps c r0 n = .ok r ∧ After c r0 s m cs n r w' := by
  induction n with
  | zero => exact ⟨r0, w, rfl, ha⟩
  | succ n ih =>
    obtain ⟨r, w', e, h⟩ := ih
    obtain ⟨r', w'', e', h'⟩ := after_step c h
    exact ⟨r', w'', by rw [steps, e]; exact e', h'⟩

/-- C147: after a reset to a scenario and `n ≥ 1` steps the live world is the scenario's world `n` steps later, and a
runtime that keeps the history has the `n+1` snapshots of the worlds after 0, 1, … n steps, none of them disturbed by
the later steps; a runtime that does not keep it has none -/
theorem C147_history (c : Code A M F J T) (dflt : J) (r r0 : Runtime A M F J T) (s : Scenario M F J)
    (hs : Spec.Proper r.heap s) (e : reset c dflt r (some s) = .ok r0) (n : Nat) (hn : 0 < n) :
    ∃ m cs r' w', Spec.IsInitial c m (Spec.agentsOf r.heap s) cs ∧ steps c r0 n = .ok r' ∧ r'.world = some w' ∧
      contents r'.heap w' = Spec.after c m r.stepTime cs n ∧
      (if r.keep = true
       then r'.history.map (contents r'.heap) =
         (List.range (n + 1)).map fun j => Spec.copies c (Spec.after c m r.stepTime cs j)
       else r'.history = []) := by
  obtain ⟨w, s', ha, -, hw, -, -, -, hin⟩ := resetWith_after c dflt hs e
  obtain ⟨r', w', h1, h2⟩ := after_steps c ha n
  have hk : r0.stepTime = r.stepTime ∧ r0.keep = r.keep := by
    simp only [reset, resetWith] at e
    rw [hw] at e
    simp only [Except.ok.injEq] at e
    rw [← e]
    exact ⟨rfl, rfl⟩
  refine ⟨w.map, contents r0.heap w, r', w', hin, h1, h2.world, by rw [← hk.1]; exact h2.now, ?_⟩
  have hh := h2.hist
  rw [h2.fixed.2.1, hk.2] at hh
  by_cases g : r.keep = true
  · rw [if_pos g]
    rw [if_pos ⟨g, hn⟩] at hh
    rw [← hk.1]; exact hh.eq
  · rw [if_neg g]
    rw [if_neg (fun h => g h.1)] at hh
    exact hh

/-- C147: what is drawn in step `j` of a rendering runtime is the situation in which the agents planned, before
execution, with the evaluated agents of the scenario -/
theorem C147_drawn (c : Code A M F J T) (dflt : J) (r r0 : Runtime A M F J T) (s : Scenario M F J)
    (hs : Spec.Proper r.heap s) (e : reset c dflt r (some s) = .ok r0) (n : Nat) :
    ∃ m cs r', Spec.IsInitial c m (Spec.agentsOf r.heap s) cs ∧ steps c r0 n = .ok r' ∧
      r'.drawn = r.drawn ++ (if r.render = true ∧ r.viewer = true
        then (List.range n).map fun j =>
          ⟨Spec.planned c m r.stepTime (Spec.after c m r.stepTime cs j), s.evalIds, r.idx⟩
        else []) := by
  obtain ⟨w, s', ha, hs', hw, -, hidx, -, hin⟩ := resetWith_after c dflt hs e
  obtain ⟨r', w', h1, h2⟩ := after_steps c ha n
  have hk : r0.stepTime = r.stepTime ∧ r0.render = r.render ∧ r0.viewer = r.viewer ∧ r0.drawn = r.drawn := by
    simp only [reset, resetWith] at e
    rw [hw] at e
    simp only [Except.ok.injEq] at e
    rw [← e]
    exact ⟨rfl, rfl, rfl, rfl⟩
  refine ⟨w.map, contents r0.heap w, r', hin, h1, ?_⟩
  have hd := h2.drawn
  rw [hk.1, hk.2.1, hk.2.2.1, hk.2.2.2, hidx] at hd
  rw [hd, hs']

/-- C147: `ExtractTimeSeries` gives the evaluated agent at 0, 1, … n steps, provided it stays in the world -/
theorem C147_time_series (c : Code A M F J T) (dflt : J) (r r0 : Runtime A M F J T) (s : Scenario M F J)
    (hs : Spec.Proper r.heap s) (e : reset c dflt r (some s) = .ok r0) (hk : r.keep = true) (n : Nat) (hn : 0 < n)
    (i : Nat) (hi : s.evalIds.head? = some i) :
    ∃ m cs r', Spec.IsInitial c m (Spec.agentsOf r.heap s) cs ∧ steps c r0 n = .ok r' ∧
      ∀ series, timeSeries r' = .ok series ↔
        series.length = n + 1 ∧ ∀ (j : Nat) a, series[j]? = some a →
          OMap.find i (Spec.copies c (Spec.after c m r.stepTime cs j)) = some a := by
  obtain ⟨w, s', ha, hs', hw, -, -, -, hin⟩ := resetWith_after c dflt hs e
  obtain ⟨r', w', h1, h2⟩ := after_steps c ha n
  have hk' : r0.stepTime = r.stepTime ∧ r0.keep = r.keep := by
    simp only [reset, resetWith] at e
    rw [hw] at e
    simp only [Except.ok.injEq] at e
    rw [← e]
    exact ⟨rfl, rfl⟩
  have hh := h2.hist
  rw [h2.fixed.2.1, hk'.2, if_pos ⟨hk, hn⟩, hk'.1] at hh
  refine ⟨w.map, contents r0.heap w, r', hin, h1, fun series => ?_⟩
  obtain ⟨rest, hr⟩ : ∃ rest, s'.evalIds = i :: rest := by
    rw [hs']
    cases hx : s.evalIds with
    | nil => rw [hx] at hi; cases hi
    | cons y ys => rw [hx] at hi; simp at hi; exact ⟨ys, by rw [hi]⟩
  have hne : ∃ w0 ws, r'.history = w0 :: ws := by
    cases hx : r'.history with
    | nil =>
      have := congrArg List.length hh.eq
      rw [hx] at this
      simp at this
    | cons y ys => exact ⟨y, ys, rfl⟩
  obtain ⟨w0, ws, hne⟩ := hne
  have hts : timeSeries r' = r'.history.mapM (agentIn r'.heap i) := by
    unfold timeSeries
    rw [h2.scenario]
    simp only [hr, hne]
  rw [hts]
  have key : ∀ (ws : List (World M)) (L : List (List (Nat × A))), ws.map (contents r'.heap) = L → ∀ series : List A,
      (ws.mapM (agentIn r'.heap i) = .ok series ↔
      series.length = L.length ∧ ∀ (j : Nat) a, series[j]? = some a → ∃ x, L[j]? = some x ∧ OMap.find i x = some a) := by
    intro ws
    induction ws with
    | nil =>
      intro L hL series
      simp only [List.map_nil] at hL
      subst hL
      cases series with
      | nil => simp [pure, Except.pure]
      | cons y ys => simp [pure, Except.pure]
    | cons w ws ih =>
      intro L hL series
      simp only [List.map_cons] at hL
      subst hL
      rw [List.mapM_cons]
      cases hf : OMap.find i (contents r'.heap w) with
      | none =>
        have hai : agentIn r'.heap i w = .error .thrown := by unfold agentIn; rw [hf]
        rw [hai]
        simp only [bind, Except.bind]
        constructor
        · intro h; cases h
        · rintro ⟨hl, hj⟩
          cases series with
          | nil => simp at hl
          | cons y ys =>
            obtain ⟨x, hx, hy⟩ := hj 0 y (by simp)
            simp only [List.getElem?_cons_zero, Option.some.injEq] at hx
            subst hx
            rw [hf] at hy; cases hy
      | some a =>
        have hai : agentIn r'.heap i w = .ok a := by unfold agentIn; rw [hf]
        rw [hai]
        simp only [bind, Except.bind, pure, Except.pure]
        constructor
        · intro h
          cases hm : ws.mapM (agentIn r'.heap i) with
          | error f => rw [hm] at h; cases h
          | ok l =>
            rw [hm] at h
            simp only [Except.ok.injEq] at h
            subst h
            obtain ⟨q1, q2⟩ := (ih _ rfl l).1 hm
            refine ⟨by simp [q1], fun j b hb => ?_⟩
            cases j with
            | zero => simp at hb; subst hb; exact ⟨_, rfl, hf⟩
            | succ j => exact q2 j b (by simpa using hb)
        · rintro ⟨hl, hj⟩
          cases series with
          | nil => simp at hl
          | cons y ys =>
            obtain ⟨x, hx, hy⟩ := hj 0 y (by simp)
            simp only [List.getElem?_cons_zero, Option.some.injEq] at hx
            subst hx
            rw [hf] at hy
            simp only [Option.some.injEq] at hy
            subst hy
            have := (ih _ rfl ys).2 ⟨by simpa using hl, fun j b hb => hj (j + 1) b (by simpa using hb)⟩
            rw [this]
  rw [key r'.history _ hh.eq series]
  simp only [List.length_map, List.length_range]
  constructor
  · rintro ⟨hl, hj⟩
    refine ⟨hl, fun j a ha => ?_⟩
    obtain ⟨x, hx, hy⟩ := hj j a ha
    rw [List.getElem?_map] at hx
    have hlt : j < n + 1 := by
      have := (List.getElem?_eq_some_iff.1 ha).1
      omega
    rw [List.getElem?_range hlt] at hx
    simp only [Option.map_some, Option.some.injEq] at hx
    rw [hx]; exact hy
  · rintro ⟨hl, hj⟩
    refine ⟨hl, fun j a ha => ⟨_, ?_, hj j a ha⟩⟩
    have hlt : j < n + 1 := by
      have := (List.getElem?_eq_some_iff.1 ha).1
      omega
    rw [List.getElem?_map, List.getElem?_range hlt]
    rfl

/-- C147: without snapshots, without an evaluated agent or with one that is gone in some snapshot there is no time
series -/
theorem C147_no_series (r : Runtime A M F J T) (s : Scenario M F J) (hs : r.scenario = some s)
    (h : r.history = [] ∨ s.evalIds = []) : timeSeries r = .error .thrown := by
  unfold timeSeries
  rw [hs]
  rcases h with h | h
  · simp only [h]
  · simp only [h]
    cases r.history <;> rfl

/-- C147: stepping before the first reset is refused -/
theorem C147_step_needs_reset (c : Code A M F J T) (r : Runtime A M F J T) (h : r.resetCalled = false) :
    step c r = .error .thrown := by
  unfold step
  rw [h]

/-! ### C148: resets -/

/-- a program of resets and steps; it ends at the first error -/
def runCalls (c : Code A M F J T) (dflt : J) (r : Runtime A M F J T) : List Spec.Call → Res (Runtime A M F J T)
  | [] => .ok r
  | .reset :: cs =>
    match reset c dflt r none with
    | .error f => .error f
    | .ok r' => runCalls c dflt r' cs
  | .step :: cs =>
    match step c r with
    | .error f => .error f
    | .ok r' => runCalls c dflt r' cs

/-- the runtime's objects are those of a history of calls on its generator -/
def Embeds (c : Code A M F J T) (dflt : J) (st : State A M F J) (n : Nat) (r : Runtime A M F J T) : Prop :=
  ∃ ops : List (Op T), (applyAll c dflt st ops).heap = r.heap ∧ (applyAll c dflt st ops).gen = r.gen ∧
    Spec.nexts ops = n ∧ ∀ w, r.world = some w → ∃ k : Nat, (applyAll c dflt st ops).worlds[k]? = some w

theorem nexts_append (a b : List (Op T)) : Spec.nexts (a ++ b) = Spec.nexts a + Spec.nexts b := by
  unfold Spec.nexts
  rw [List.countP_append]

/-- one more call -/
theorem applyAll_snoc (c : Code A M F J T) (dflt : J) (st : State A M F J) (ops : List (Op T)) (o : Op T) :
    applyAll c dflt st (ops ++ [o]) = apply c dflt (applyAll c dflt st ops) o := by
  rw [applyAll_append]; rfl

theorem embeds_reset (c : Code A M F J T) (dflt : J) {st : State A M F J} {n : Nat} {r r' : Runtime A M F J T}
    (hE : Embeds c dflt st n r) (e : reset c dflt r none = .ok r') : Embeds c dflt st (n + 1) r' := by
  obtain ⟨ops, h1, h2, h3, h4⟩ := hE
  simp only [reset] at e
  cases hg : getNext c r.heap r.gen with
  | error f => rw [hg] at e; cases e
  | ok q =>
    obtain ⟨h, g, s, k⟩ := q
    rw [hg] at e
    simp only [resetWith] at e
    cases hw : getWorld c dflt h s with
    | error f => rw [hw] at e; cases e
    | ok q =>
      obtain ⟨h', s', w⟩ := q
      rw [hw] at e
      simp only [Except.ok.injEq] at e
      subst e
      have ea : apply c dflt (applyAll c dflt st ops) .next =
          ⟨h, g, (applyAll c dflt st ops).served ++ [s], (applyAll c dflt st ops).worlds⟩ := by
        simp only [apply]
        rw [h1, h2, hg]
      have eb : applyAll c dflt st (ops ++ [.next] ++ [.worldOf (applyAll c dflt st ops).served.length]) =
          ⟨h', g, ((applyAll c dflt st ops).served ++ [s]).set (applyAll c dflt st ops).served.length s',
            (applyAll c dflt st ops).worlds ++ [w]⟩ := by
        rw [applyAll_snoc, applyAll_snoc, ea]
        simp only [apply]
        have : ((applyAll c dflt st ops).served ++ [s])[(applyAll c dflt st ops).served.length]? = some s := by simp
        rw [this]
        simp only
        rw [hw]
      refine ⟨_, by rw [eb], by rw [eb], ?_, fun w' hw' => ⟨(applyAll c dflt st ops).worlds.length, ?_⟩⟩
      · rw [nexts_append, nexts_append, h3]; rfl
      · simp only [Option.some.injEq] at hw'
        subst hw'
        rw [eb]
        simp

theorem getElem?_append_some {α : Type} {l l' : List α} {k : Nat} {a : α} (h : l[k]? = some a) :
    (l ++ l')[k]? = some a := by
  obtain ⟨hk, e⟩ := List.getElem?_eq_some_iff.1 h
  rw [List.getElem?_append_left hk]
  exact h

/-- a snapshot of the world under `k` may be taken or not -/
theorem embeds_copy (c : Code A M F J T) (dflt : J) {st : State A M F J} (ops : List (Op T)) (w : World M) (k : Nat)
    (hk : (applyAll c dflt st ops).worlds[k]? = some w) :
    applyAll c dflt st (ops ++ [.copyWorld k]) =
      ⟨(cloneWorld c (applyAll c dflt st ops).heap w).1, (applyAll c dflt st ops).gen,
       (applyAll c dflt st ops).served,
       (applyAll c dflt st ops).worlds ++ [(cloneWorld c (applyAll c dflt st ops).heap w).2]⟩ := by
  rw [applyAll_snoc]
  simp only [apply]
  rw [hk]

theorem embeds_step (c : Code A M F J T) (dflt : J) {st : State A M F J} {n : Nat} {r r' : Runtime A M F J T}
    (hE : Embeds c dflt st n r) (e : step c r = .ok r') : Embeds c dflt st n r' := by
  obtain ⟨ops, h1, h2, h3, h4⟩ := hE
  unfold step at e
  cases hc : r.resetCalled with
  | false => rw [hc] at e; cases e
  | true =>
    cases hw : r.world with
    | none => rw [hc, hw] at e; cases e
    | some w =>
      cases hs : r.scenario with
      | none => rw [hc, hw, hs] at e; cases e
      | some s =>
        rw [hc, hw, hs] at e
        simp only [Except.ok.injEq] at e
        obtain ⟨k, hk⟩ := h4 w hw
        -- the first snapshot
        obtain ⟨ops1, p1, p2, p3, p4⟩ : ∃ ops1 : List (Op T),
            (applyAll c dflt st ops1).heap = (firstSnapshot c r w).1 ∧ (applyAll c dflt st ops1).gen = r.gen ∧
            Spec.nexts ops1 = n ∧ (applyAll c dflt st ops1).worlds[k]? = some w := by
          unfold firstSnapshot
          by_cases g : r.history = [] ∧ r.keep = true
          · rw [if_pos g]
            have hcp := embeds_copy c dflt ops w k hk
            refine ⟨ops ++ [.copyWorld k], by rw [hcp, h1], by rw [hcp]; exact h2, ?_, ?_⟩
            · rw [nexts_append, h3]; rfl
            · rw [hcp]; exact getElem?_append_some hk
          · rw [if_neg g]
            exact ⟨ops, h1, h2, h3, hk⟩
        -- the step
        have hst : applyAll c dflt st (ops1 ++ [.step k r.stepTime]) =
            ⟨(stepWorld c r.stepTime (applyAll c dflt st ops1).heap w).1, (applyAll c dflt st ops1).gen,
             (applyAll c dflt st ops1).served,
             (applyAll c dflt st ops1).worlds.set k (stepWorld c r.stepTime (applyAll c dflt st ops1).heap w).2⟩ := by
          rw [applyAll_snoc]
          simp only [apply]
          rw [p4]
        rw [p1] at hst
        have hk2 : (applyAll c dflt st (ops1 ++ [.step k r.stepTime])).worlds[k]? =
            some (stepWorld c r.stepTime (firstSnapshot c r w).1 w).2 := by
          rw [hst]
          exact List.getElem?_set_self (List.getElem?_eq_some_iff.1 p4).1
        subst e
        -- the second snapshot
        by_cases g : r.keep = true
        · have hcp := embeds_copy c dflt (ops1 ++ [.step k r.stepTime]) _ k hk2
          refine ⟨ops1 ++ [.step k r.stepTime] ++ [.copyWorld k], ?_, ?_, ?_, fun w' hw' => ⟨k, ?_⟩⟩
          · rw [hcp, hst]
            simp only [snapshot, if_pos g]
            rfl
          · rw [hcp, hst]; exact p2
          · rw [nexts_append, nexts_append, p3]; rfl
          · simp only [Option.some.injEq] at hw'
            subst hw'
            rw [hcp]
            exact getElem?_append_some hk2
        · refine ⟨ops1 ++ [.step k r.stepTime], ?_, ?_, ?_, fun w' hw' => ⟨k, ?_⟩⟩
          · rw [hst]
            simp only [snapshot, if_neg g]
            rfl
          · rw [hst]; exact p2
          · rw [nexts_append, p3]; rfl
          · simp only [Option.some.injEq] at hw'
            subst hw'
            exact hk2

theorem embeds_calls (c : Code A M F J T) (dflt : J) {st : State A M F J} (calls : List Spec.Call) :
    ∀ {n : Nat} {r r' : Runtime A M F J T}, Embeds c dflt st n r → runCalls c dflt r calls = .ok r' →
      Embeds c dflt st (n + Spec.resets calls) r' := by
  induction calls with
  | nil =>
    intro n r r' hE e
    simp only [runCalls, Except.ok.injEq] at e
    subst e
    exact hE
  | cons x calls ih =>
    intro n r r' hE e
    cases x with
    | reset =>
      simp only [runCalls] at e
      cases hr : reset c dflt r none with
      | error f => rw [hr] at e; cases e
      | ok r1 =>
        rw [hr] at e
        have := ih (embeds_reset c dflt hE hr) e
        have h2 : Spec.resets (.reset :: calls) = Spec.resets calls + 1 := by simp [Spec.resets]
        rw [h2, Nat.add_comm (Spec.resets calls) 1, ← Nat.add_assoc]
        exact this
    | step =>
      simp only [runCalls] at e
      cases hr : step c r with
      | error f => rw [hr] at e; cases e
      | ok r1 =>
        rw [hr] at e
        have := ih (embeds_step c dflt hE hr) e
        have h2 : Spec.resets (.step :: calls) = Spec.resets calls := by simp [Spec.resets]
        rw [h2]
        exact this

/-- C148: whatever a program did with the runtime before, a reset puts it into the initial world of the next scenario in
turn, as created, with an empty history -/
theorem C148_reset (c : Code A M F J T) (dflt : J) (st : State A M F J) (hst : Start st)
    (hj : ∀ s ∈ st.gen.list, s.json ≠ none) (hn : 0 < st.gen.list.length) (r r1 r2 : Runtime A M F J T)
    (hh : r.heap = st.heap) (hg : r.gen = st.gen) (hw : r.world = none) (calls : List Spec.Call)
    (e1 : runCalls c dflt r calls = .ok r1) (e2 : reset c dflt r1 none = .ok r2) :
    ∃ s0 w, st.gen.list[Spec.resets calls % st.gen.list.length]? = some s0 ∧ r2.world = some w ∧
      (s0.map = some w.map ∨ c.load s0.file (s0.json.getD dflt) = .ok w.map) ∧
      Spec.IsInitial c w.map ((Spec.agentsOf st.heap s0).map c.pickled) (contents r2.heap w) ∧
      r2.idx = some (Spec.resets calls % st.gen.list.length) ∧ r2.history = [] ∧
      (∃ s, r2.scenario = some s ∧ s.evalIds = s0.evalIds) := by
  have hE0 : Embeds c dflt st 0 r :=
    ⟨[], by simpa [applyAll] using hh.symm, by simpa [applyAll] using hg.symm, rfl,
      fun w h => by rw [hw] at h; cases h⟩
  have hE := embeds_calls c dflt calls hE0 e1
  rw [Nat.zero_add] at hE
  obtain ⟨ops, h1, h2, h3, -⟩ := hE
  obtain ⟨h', g', s, s0, k1, k2, k3, k4, k5, k6, k7⟩ := C145_in_turn c dflt st hst hj hn ops
  rw [h1, h2, h3] at k1
  rw [h3] at k2
  simp only [reset] at e2
  rw [k1] at e2
  simp only at e2
  obtain ⟨-, -, hgs⟩ := getNext_list k1
  obtain ⟨s0', m1, m2, m3, m4, -⟩ := C143_served_as_created c dflt st hst ops _ h' s (by rw [h1, h2]; exact hgs)
  obtain ⟨w, s', ha, hs', hgw, -, hidx, hhist, hin⟩ := resetWith_after c dflt m4 e2
  refine ⟨s0, w, k2, ha.world, ?_, by rw [← k3]; exact hin, hidx, hhist, s', ha.scenario, ?_⟩
  · have := (getWorld_spec c dflt hgw).1
    unfold mapOf at this
    rw [k7, k6, k5] at this
    cases hm : s0.map with
    | none => rw [hm] at this; exact Or.inr this
    | some m =>
      rw [hm] at this
      simp only [Except.ok.injEq] at this
      exact Or.inl (by rw [this])
  · rw [hs']; exact k4

/-- C148: a given scenario is started from its present contents; the scenario index stays that of the last scenario of
the generator. The full claim (the index shown is that of the scenario running) fails. -/
theorem C148_given (c : Code A M F J T) (dflt : J) (r r' : Runtime A M F J T) (s : Scenario M F J)
    (hs : Spec.Proper r.heap s) (e : reset c dflt r (some s) = .ok r') :
    r'.idx = r.idx ∧ r'.gen = r.gen ∧ r'.history = [] ∧
    ∃ w, r'.world = some w ∧ Spec.IsInitial c w.map (Spec.agentsOf r.heap s) (contents r'.heap w) := by
  obtain ⟨w, s', ha, -, -, hg, hidx, hhist, hin⟩ := resetWith_after c dflt hs e
  exact ⟨hidx, hg, hhist, w, ha.world, hin⟩

def toyRuntime : Runtime (Nat × Nat) Unit Unit Unit Unit :=
  ⟨toyHeap, toyState.gen, (), true, true, true, none, none, none, false, [], []⟩

/-- a run with two resets and steps: the second scenario's history and what was drawn -/
example : (runCalls toy () toyRuntime [.reset, .step, .reset, .step, .step]).toOption.map
    (fun r => r.history.map (contents r.heap)) = some [[(8, 8, 10)], [(8, 8, 11)], [(8, 8, 12)]] := by decide

example : (runCalls toy () toyRuntime [.reset, .step, .reset, .step, .step]).toOption.map
    (fun r => r.drawn.map (fun d => (d.contents, d.idx))) =
    some [([(7, 7, 0), (8, 8, 10)], some 0), ([(8, 8, 10)], some 1), ([(8, 8, 11)], some 1)] := by decide

example : Spec.Proper toyRuntime.heap toyScenario ∧ (∃ r0, reset toy () toyRuntime (some toyScenario) = .ok r0) :=
  ⟨⟨by decide, by decide⟩, _, rfl⟩

/-! ### C149 -/

/-- C149: `run(n)` performs no step: it returns at once for `n = 0` and raises otherwise. The full claim (`run(n)` is
`n` steps) fails. -/
theorem C149_run_partial (r : Runtime A M F J T) (n : Nat) :
    run r n = if 0 < n then .error .thrown else .ok r := by
  unfold run
  by_cases h : n = 0
  · simp [h]
  · rw [if_neg h, if_pos (Nat.pos_of_ne_zero h)]

/-- C149: a successful step exists where `run(1)` fails -/
theorem C149_run_differs : ∃ r r' : Runtime (Nat × Nat) Unit Unit Unit Unit,
    step toy r = .ok r' ∧ run r 1 = .error .thrown := by
  refine ⟨(match reset toy () toyRuntime none with | .ok r => r | .error _ => toyRuntime), ?_⟩
  exact ⟨_, rfl, rfl⟩

/-- C149: `eval_runtime` leaves a runtime of any class and in any state as it is, whatever its `step` does: the full
claim (it steps the runtime) fails -/
theorem C149_eval_partial {S Act : Type} (stepF : S → Act → S) (s : S) (a : Act) : evalRuntime stepF s a = s := rfl

theorem C149_eval_differs : ∃ (stepF : Nat → Nat → Nat) (s a : Nat), evalRuntime stepF s a ≠ stepF s a :=
  ⟨fun s a => s + a, 0, 1, by decide⟩

/-! ### C150 -/

/-- C150: the map that is loaded comes from the named file if it exists, otherwise from the only file of that name below
the working directory; no such file or several raise -/
theorem C150_resolve (fs : Files F) (f p : F) :
    resolve fs f = .ok p ↔ (fs.isFile f = true ∧ p = f) ∨ (fs.isFile f = false ∧ fs.found f = [p]) := by
  unfold resolve
  by_cases h : fs.isFile f = true
  · rw [if_pos h]
    simp only [Except.ok.injEq, h, true_and, Bool.true_eq_false, false_and, or_false]
    exact ⟨fun e => e.symm, fun e => e.symm⟩
  · rw [if_neg h]
    have h' : fs.isFile f = false := by simpa using h
    simp only [h', Bool.false_eq_true, false_and, true_and, false_or]
    match fs.found f with
    | [] => simp
    | [x] => simp
    | x :: y :: l => simp

/-- C150: a `.xodr` file is opened as OpenDRIVE, a `.csv` file with both offsets; a file of another kind gives an empty
map interface without an error. The full claim (creation fails unless a map was loaded) fails for such files. -/
theorem C150_map {O : Type} (fs : Files F) (openXodr : F → M) (openCsv : F → O → M) (off : Option O) (f : F)
    (m : Option M) :
    createMap fs openXodr openCsv off f = .ok m ↔
      ∃ p, ((fs.isFile f = true ∧ p = f) ∨ (fs.isFile f = false ∧ fs.found f = [p])) ∧
        ((fs.kind p = .xodr ∧ m = some (openXodr p)) ∨
         (fs.kind p = .csv ∧ ∃ o, off = some o ∧ m = some (openCsv p o)) ∨ (fs.kind p = .other ∧ m = none)) := by
  unfold createMap
  cases hr : resolve fs f with
  | error e =>
    simp only [reduceCtorEq, false_iff, not_exists, not_and]
    intro p hp
    rw [← C150_resolve, hr] at hp
    cases hp
  | ok q =>
    have hq := (C150_resolve fs f q).1 hr
    have huniq : ∀ p, ((fs.isFile f = true ∧ p = f) ∨ (fs.isFile f = false ∧ fs.found f = [p])) → p = q := by
      intro p hp
      rw [← C150_resolve, hr] at hp
      simp only [Except.ok.injEq] at hp
      exact hp.symm
    simp only
    constructor
    · intro h
      refine ⟨q, hq, ?_⟩
      cases hk : fs.kind q with
      | xodr => rw [hk] at h; simp only [Except.ok.injEq] at h; exact Or.inl ⟨rfl, h.symm⟩
      | csv =>
        rw [hk] at h
        cases off with
        | none => cases h
        | some o => simp only [Except.ok.injEq] at h; exact Or.inr (Or.inl ⟨rfl, o, rfl, h.symm⟩)
      | other => rw [hk] at h; simp only [Except.ok.injEq] at h; exact Or.inr (Or.inr ⟨rfl, h.symm⟩)
    · rintro ⟨p, hp, h⟩
      have := huniq p hp
      subst this
      rcases h with ⟨hk, rfl⟩ | ⟨hk, o, rfl, rfl⟩ | ⟨hk, rfl⟩
      · simp only [hk]
      · simp only [hk]
      · simp only [hk]

/-- C150: the directory set for map files is put in front of the name -/
theorem C150_directory (fs : Files F) (dir : Option F) (f : F) :
    (∀ d, dir = some d → fullName fs dir f = fs.join d f) ∧ (dir = none → fullName fs dir f = f) := by
  constructor
  · rintro d rfl; rfl
  · rintro rfl; rfl

/-- C150: the description names the first evaluated agent and the track file, or is empty -/
theorem C150_description {V : Type} (s : Scenario M F J) (track : J → Option V) (i : Nat) (v : V) :
    describe s track = some (i, v) ↔ s.evalIds.head? = some i ∧ ∃ j, s.json = some j ∧ track j = some v := by
  unfold describe
  cases h1 : s.evalIds with
  | nil => simp
  | cons x xs =>
    cases h2 : s.json with
    | none => simp
    | some j =>
      simp only [List.head?_cons, Option.some.injEq, Option.map_eq_some_iff, Prod.mk.injEq]
      constructor
      · rintro ⟨a, h, rfl, rfl⟩; exact ⟨rfl, j, rfl, h⟩
      · rintro ⟨rfl, j', rfl, h⟩; exact ⟨v, h, rfl, rfl⟩

/-- a file system with a unique match -/
example : resolve (⟨fun f => f = 1, fun f => if f = 2 then [5] else if f = 3 then [6, 7] else [], fun _ => .xodr,
    fun a b => a + b⟩ : Files Nat) 2 = .ok 5 ∧
    resolve (⟨fun f => f = 1, fun f => if f = 2 then [5] else if f = 3 then [6, 7] else [], fun _ => .xodr,
    fun a b => a + b⟩ : Files Nat) 3 = .error .thrown := by decide

/-- pickling: a loaded list of scenarios has the same agents (as copies), ids, file and parameters; the map interface is
gone and will be made from the file again -/
theorem C150_reloaded (c : Code A M F J T) (ss : List (Scenario M F J)) :
    ∀ h : Heap A, (∀ s ∈ ss, ∀ r ∈ s.agents, r < h.next) →
      Frame h (reload c h ss).1 ∧ List.Forall₂ (fun s s' =>
        Spec.agentsOf (reload c h ss).1 s' = (Spec.agentsOf h s).map c.pickled ∧ s'.evalIds = s.evalIds ∧
        s'.file = s.file ∧ s'.json = s.json ∧ s'.map = none ∧ s'.observer = s.observer) ss (reload c h ss).2 := by
  induction ss with
  | nil => intro h _; exact ⟨Frame.refl h, List.Forall₂.nil⟩
  | cons s ss ih =>
    intro h hs
    obtain ⟨f1, f2, f3⟩ := deepcopy_spec c h.next s.agents h [] (Nat.le_refl _) (hs s (by simp))
      (by intro p hp; simp at hp)
    obtain ⟨g1, g2⟩ := ih (deepcopy c h [] s.agents).1
      (fun s' hs' r hr => Nat.lt_of_lt_of_le (hs s' (by simp [hs']) r hr) f1.1)
    simp only [reload]
    refine ⟨f1.trans g1, List.Forall₂.cons ⟨?_, rfl, rfl, rfl, rfl, rfl⟩ ?_⟩
    · unfold Spec.agentsOf
      rw [List.map_map]
      have : (deepcopy c h [] s.agents).2.map (reload c (deepcopy c h [] s.agents).1 ss).1.cell =
          (deepcopy c h [] s.agents).2.map (deepcopy c h [] s.agents).1.cell :=
        List.map_congr_left fun r hr => g1.2 r (f2 r hr).2
      rw [this, f3]
      rfl
    · have hl : ∀ x ∈ ss, ∀ r ∈ x.agents, r < h.next := fun x hx => hs x (by simp [hx])
      revert hl g2
      generalize (reload c (deepcopy c h [] s.agents).1 ss).1 = hf
      generalize (reload c (deepcopy c h [] s.agents).1 ss).2 = out
      intro g2 hl
      clear ih g1 hs
      induction g2 with
      | nil => exact List.Forall₂.nil
      | @cons a b l1 l2 hab _ ih2 =>
        refine List.Forall₂.cons ⟨?_, hab.2⟩ (ih2 fun x hx => hl x (by simp [hx]))
        rw [hab.1]
        congr 1
        unfold Spec.agentsOf
        exact List.map_congr_left fun r hr => f1.2 r (hl a (by simp) r hr)

end Bark.Run
