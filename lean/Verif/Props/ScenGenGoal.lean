import Verif.Props.ScenGen

/-!
C131, C132 – lane positions, goals and controlled agents of generated scenarios.
-/
set_option linter.unusedSectionVars false
namespace Bark.Gen
open Spec

section Lanes
variable {K : Type} [Field K] [LinearOrder K] [IsStrictOrderedRing K] {P : Type}

theorem placeAll_spec {len : K} {dist vel srange : K × K} {u : Nat → K} {fuel : Nat} (hd : dist.1 ≤ dist.2)
    (hv : vel.1 ≤ vel.2) (hu : ∀ n, 0 ≤ u n ∧ u n ≤ 1) : ∀ {ls : List (Lane K P × Nat)} {k : Nat} {as k'},
    placeAll len dist vel srange u fuel ls k = .ok (as, k') →
    (∀ a pos, (a, pos) ∈ as → ∃ l, (l, pos) ∈ ls ∧ a.pose = l.pose a.s ∧ a.s < srange.2 * l.length) ∧
    (∀ l pos, (l, pos) ∈ ls → srange.1 * l.length < srange.2 * l.length → ∃ a, (a, pos) ∈ as ∧
      a.pose = l.pose (srange.1 * l.length))
  | [], k, as, k', h => by
    simp only [placeAll, Except.ok.injEq, Prod.mk.injEq] at h
    obtain ⟨rfl, rfl⟩ := h
    simp
  | (l, pos) :: ls, k, as, k', h => by
    unfold placeAll at h
    cases ha : alongLane len dist vel srange u fuel l k with
    | error f => rw [ha] at h; cases h
    | ok q =>
      obtain ⟨a1, k1⟩ := q
      rw [ha] at h
      simp only at h
      cases hr : placeAll len dist vel srange u fuel ls k1 with
      | error f => rw [hr] at h; cases h
      | ok q2 =>
        obtain ⟨b, k2⟩ := q2
        rw [hr] at h
        simp only [Except.ok.injEq, Prod.mk.injEq] at h
        obtain ⟨rfl, rfl⟩ := h
        obtain ⟨r1, r2⟩ := placeAll_spec hd hv hu hr
        obtain ⟨p1, -, p3, p4, -⟩ := C130_placed hd hv hu ha
        constructor
        · intro a p hm
          rcases List.mem_append.1 hm with hm | hm
          · obtain ⟨x, hx, he⟩ := List.mem_map.1 hm
            simp only [Prod.mk.injEq] at he
            obtain ⟨rfl, rfl⟩ := he
            exact ⟨l, by simp, (p1 x hx).2.1, (p1 x hx).1⟩
          · obtain ⟨l', hl', hp⟩ := r1 a p hm
            exact ⟨l', by simp [hl'], hp⟩
        · intro l' p hm hlt
          rcases List.mem_cons.1 hm with he | hm
          · simp only [Prod.mk.injEq] at he
            obtain ⟨rfl, rfl⟩ := he
            cases a1 with
            | nil => exact absurd hlt (not_lt.2 (p4.1 rfl))
            | cons x xs =>
              refine ⟨x, by simp, ?_⟩
              rw [(p1 x (by simp)).2.1, p3 x rfl]
          · obtain ⟨a, ha', hp⟩ := r2 l' p hm hlt
            exact ⟨a, by simp [ha'], hp⟩

theorem selectLanes_some {L : Type} {lanes : List L} {p : Nat} {ps : List Nat} {sel}
    (h : selectLanes lanes (some (p :: ps)) = .ok sel) :
    sel.map Prod.snd = p :: ps ∧ ∀ l i, (l, i) ∈ sel → lanes[i]? = some l := by
  have key : ∀ (qs : List Nat) {sel : List (L × Nat)},
      (qs.mapM fun i => (index lanes i).map fun l => (l, i)) = .ok sel →
      sel.map Prod.snd = qs ∧ ∀ l i, (l, i) ∈ sel → lanes[i]? = some l := by
    intro qs
    induction qs with
    | nil =>
      intro sel h
      simp only [List.mapM_nil] at h
      cases h
      simp
    | cons q qs ih =>
      intro sel h
      cases hq : lanes[q]? with
      | none =>
        have e : (index lanes q).map (fun l => (l, q)) = .error .thrown := by unfold index; rw [hq]; rfl
        rw [List.mapM_cons, e] at h
        cases h
      | some l =>
        have e : (index lanes q).map (fun l => (l, q)) = .ok (l, q) := by unfold index; rw [hq]; rfl
        rw [List.mapM_cons, e] at h
        cases hm : (qs.mapM fun i => (index lanes i).map fun l => (l, i)) with
        | error f =>
          rw [hm] at h
          cases h
        | ok s' =>
          rw [hm] at h
          simp only [bind, Except.bind, pure, Except.pure, Except.ok.injEq] at h
          subst h
          obtain ⟨i1, i2⟩ := ih hm
          refine ⟨by simp [i1], ?_⟩
          intro l' i hmem
          rcases List.mem_cons.1 hmem with he | hmem
          · simp only [Prod.mk.injEq] at he
            obtain ⟨rfl, rfl⟩ := he
            exact hq
          · exact i2 l' i hmem
  exact key (p :: ps) h

/-- **C131, explicit lanes.** If lane positions are configured, every vehicle stands on the lane corridor whose position
is reported for it, and this is one of the configured ones; every configured lane gets a vehicle. -/
theorem C131_reported_position {len : K} {dist vel srange : K × K} {u : Nat → K} {fuel : Nat} (hd : dist.1 ≤ dist.2)
    (hv : vel.1 ≤ vel.2) (hu : ∀ n, 0 ≤ u n ∧ u n ≤ 1) {lanes : List (Lane K P)} {p : Nat} {ps : List Nat} {k : Nat}
    {as k'} (h : uniformVehicles len dist vel srange (some (p :: ps)) u fuel lanes k = .ok (as, k')) :
    (∀ a pos, (a, pos) ∈ as → pos ∈ p :: ps ∧ ∃ l, lanes[pos]? = some l ∧ a.pose = l.pose a.s) ∧
    (∀ pos ∈ p :: ps, ∃ l, lanes[pos]? = some l ∧ (srange.1 * l.length < srange.2 * l.length → ∃ a, (a, pos) ∈ as)) := by
  unfold uniformVehicles at h
  cases hs : selectLanes lanes (some (p :: ps)) with
  | error f => rw [hs] at h; cases h
  | ok sel =>
    rw [hs] at h
    simp only at h
    obtain ⟨s1, s2⟩ := selectLanes_some hs
    obtain ⟨r1, r2⟩ := placeAll_spec hd hv hu h
    constructor
    · intro a pos hm
      obtain ⟨l, hl, hp, -⟩ := r1 a pos hm
      exact ⟨by rw [← s1]; exact List.mem_map.2 ⟨_, hl, rfl⟩, l, s2 _ _ hl, hp⟩
    · intro pos hpos
      rw [← s1] at hpos
      obtain ⟨⟨l, i⟩, hm, rfl⟩ := List.mem_map.1 hpos
      refine ⟨l, s2 _ _ hm, fun hlt => ?_⟩
      obtain ⟨a, ha, -⟩ := r2 l i hm hlt
      exact ⟨a, ha⟩

/-- **C131, all lanes:** without configured positions the reported position of a vehicle on lane corridor `i` is `i+1`. -/
theorem C131_all_lanes_off_by_one {len : K} {dist vel srange : K × K} {u : Nat → K} {fuel : Nat} (hd : dist.1 ≤ dist.2)
    (hv : vel.1 ≤ vel.2) (hu : ∀ n, 0 ≤ u n ∧ u n ≤ 1) {lanes : List (Lane K P)} {k : Nat} {as k'} (o : Option (List Nat))
    (ho : o = none ∨ o = some [])
    (h : uniformVehicles len dist vel srange o u fuel lanes k = .ok (as, k')) :
    (∀ a pos, (a, pos) ∈ as → ∃ i l, pos = i + 1 ∧ lanes[i]? = some l ∧ a.pose = l.pose a.s) ∧
    (∀ (i : Nat) l, lanes[i]? = some l → srange.1 * l.length < srange.2 * l.length → ∃ a, (a, i + 1) ∈ as) := by
  have hs : selectLanes lanes o = .ok (lanes.zipIdx 1) := by rcases ho with rfl | rfl <;> rfl
  unfold uniformVehicles at h
  rw [hs] at h
  simp only at h
  obtain ⟨r1, r2⟩ := placeAll_spec hd hv hu h
  constructor
  · intro a pos hm
    obtain ⟨l, hl, hp, -⟩ := r1 a pos hm
    obtain ⟨h1, h2⟩ := List.mem_zipIdx_iff_le_and_getElem?_sub.1 hl
    exact ⟨pos - 1, l, by simp only at h1; omega, h2, hp⟩
  · intro i l hl hlt
    obtain ⟨a, ha, -⟩ := r2 l (i + 1) (List.mem_zipIdx_iff_le_and_getElem?_sub.2 ⟨by simp, by simpa using hl⟩) hlt
    exact ⟨a, ha⟩

end Lanes

/-! ### goals -/

theorem goalLane_iff (n pos : Nat) (t : GoalType) (g : Nat) : goalLane n pos t = .ok g ↔ Wanted n pos t g := by
  unfold goalLane Wanted
  cases t <;> simp only
  · by_cases h : pos < n
    · rw [if_pos h]
      simp only [Except.ok.injEq]
      omega
    · rw [if_neg h]
      simp only [reduceCtorEq, false_iff]
      omega
  · by_cases h : pos + 1 < n
    · rw [if_pos h]
      simp only [Except.ok.injEq]
      omega
    · rw [if_neg h]
      simp only [reduceCtorEq, false_iff]
      omega
  · by_cases h : 1 ≤ pos
    · rw [if_pos h]
      by_cases h2 : pos - 1 < n
      · rw [if_pos h2]
        simp only [Except.ok.injEq]
        omega
      · rw [if_neg h2]
        simp only [reduceCtorEq, false_iff]
        omega
    · rw [if_neg h]
      simp only [reduceCtorEq, false_iff]
      omega

theorem goalLane_error (n pos : Nat) (t : GoalType) (h : ∀ g, ¬ Wanted n pos t g) : goalLane n pos t = .error .thrown := by
  cases hg : goalLane n pos t with
  | ok g => exact absurd ((goalLane_iff n pos t g).1 hg) (h g)
  | error f =>
    unfold goalLane at hg
    cases t <;> simp only at hg <;> split_ifs at hg <;> cases hg <;> rfl

theorem getGoal_iff (n pos : Nat) (t : GoalType) (e : Bool) (g : Nat) :
    getGoal n pos t e = .ok g ↔ GoalOn n pos t e g := by
  unfold getGoal GoalOn
  cases hg : goalLane n pos t with
  | ok g' =>
    have hw := (goalLane_iff n pos t g').1 hg
    simp only [Except.ok.injEq]
    constructor
    · rintro rfl
      exact Or.inl hw
    · rintro (h | ⟨-, h, -⟩)
      · have := (goalLane_iff n pos t g).2 h
        rw [hg] at this
        simpa using this
      · exact absurd hw (h g')
  | error f =>
    have hno : ∀ g', ¬ Wanted n pos t g' := by
      intro g' hw
      have := (goalLane_iff n pos t g').2 hw
      rw [hg] at this
      cases this
    cases e with
    | true => simp [hno]
    | false => simp [hno, goalLane_iff]

/-- **C131, goals.** The goal of every agent lies on the lane its configuration asks for relative to its reported lane
position – the own lane, the next one to the right or to the left –, on the own lane if that lane does not exist and the
goal is not enforced; goals of controlled agents, and only they, are repeated if so configured. -/
theorem C131_goals {c : GoalConfig} {n : Nat} : ∀ {l : List (Nat × Bool)} {gs}, fixedGoals c n l = .ok gs →
    List.Forall₂ (fun a g => (a.2 = true → GoalOn n a.1 c.controlled c.enforceControlled g.1 ∧
        g.2 = if c.sequentialEgo then some c.steps else none) ∧
      (a.2 = false → GoalOn n a.1 c.others c.enforceOthers g.1 ∧ g.2 = none)) l gs
  | [], gs, h => by
    simp only [fixedGoals, Except.ok.injEq] at h
    subst h
    exact List.Forall₂.nil
  | (pos, ctrl) :: l, gs, h => by
    unfold fixedGoals at h
    cases hg : goalOf c n pos ctrl with
    | error f => rw [hg] at h; cases h
    | ok g =>
      rw [hg] at h
      simp only at h
      cases hr : fixedGoals c n l with
      | error f => rw [hr] at h; cases h
      | ok gs' =>
        rw [hr] at h
        simp only [Except.ok.injEq] at h
        subst h
        refine List.Forall₂.cons ?_ (C131_goals hr)
        unfold goalOf at hg
        cases ctrl with
        | true =>
          simp only [if_true] at hg
          cases hx : getGoal n pos c.controlled c.enforceControlled with
          | error f => rw [hx] at hg; cases hg
          | ok x =>
            rw [hx] at hg
            simp only [Except.map, Except.ok.injEq] at hg
            subst hg
            exact ⟨fun _ => ⟨(getGoal_iff _ _ _ _ _).1 hx, rfl⟩, fun h => (by cases h)⟩
        | false =>
          simp only [Bool.false_eq_true, if_false] at hg
          cases hx : getGoal n pos c.others c.enforceOthers with
          | error f => rw [hx] at hg; cases hg
          | ok x =>
            rw [hx] at hg
            simp only [Except.map, Except.ok.injEq] at hg
            subst hg
            exact ⟨fun h => (by cases h), fun _ => ⟨(getGoal_iff _ _ _ _ _).1 hx, rfl⟩⟩

theorem goalOf_end_error (c : GoalConfig) (hc : c.controlled = .endOfLane) (ho : c.others = .endOfLane) (n pos : Nat)
    (h : n ≤ pos) (ctrl : Bool) : goalOf c n pos ctrl = .error .thrown := by
  have hno : ∀ g, ¬ Wanted n pos .endOfLane g := by
    intro g hw
    have h1 : g < n := hw.1
    have h2 : g = pos := hw.2
    omega
  have he := goalLane_error n pos .endOfLane hno
  have hg : ∀ e, getGoal n pos .endOfLane e = .error .thrown := by
    intro e
    unfold getGoal
    rw [he]
    cases e <;> rfl
  unfold goalOf
  rw [hc, ho]
  cases ctrl <;> simp [hg, Except.map]

theorem fixedGoals_error {c : GoalConfig} {n : Nat} : ∀ {l : List (Nat × Bool)},
    (∀ x ∈ l, (∃ g, goalOf c n x.1 x.2 = .ok g) ∨ goalOf c n x.1 x.2 = .error .thrown) →
    (∃ x ∈ l, goalOf c n x.1 x.2 = .error .thrown) → fixedGoals c n l = .error .thrown
  | [], _, h => by simp at h
  | x :: l, ha, h => by
    unfold fixedGoals
    rcases ha x (by simp) with ⟨g, hg⟩ | hg
    · simp only [hg]
      have : fixedGoals c n l = .error .thrown := by
        refine fixedGoals_error (fun y hy => ha y (by simp [hy])) ?_
        obtain ⟨y, hy, he⟩ := h
        rcases List.mem_cons.1 hy with rfl | hy
        · rw [hg] at he
          cases he
        · exact ⟨y, hy, he⟩
      rw [this]
    · simp only [hg]

theorem goalOf_cases (c : GoalConfig) (n pos : Nat) (ctrl : Bool) :
    (∃ g, goalOf c n pos ctrl = .ok g) ∨ goalOf c n pos ctrl = .error .thrown := by
  have hl : ∀ t, (∃ g, goalLane n pos t = .ok g) ∨ goalLane n pos t = .error .thrown := by
    intro t
    by_cases h : ∃ g, Wanted n pos t g
    · obtain ⟨g, hg⟩ := h
      exact Or.inl ⟨g, (goalLane_iff _ _ _ _).2 hg⟩
    · exact Or.inr (goalLane_error _ _ _ (by push Not at h; exact h))
  have hg : ∀ t e, (∃ g, getGoal n pos t e = .ok g) ∨ getGoal n pos t e = .error .thrown := by
    intro t e
    unfold getGoal
    rcases hl t with ⟨g, h⟩ | h
    · rw [h]
      exact Or.inl ⟨g, rfl⟩
    · rw [h]
      cases e
      · exact hl .endOfLane
      · exact Or.inr rfl
  unfold goalOf
  cases ctrl
  · rcases hg c.others c.enforceOthers with ⟨g, h⟩ | h <;> simp [h, Except.map]
  · rcases hg c.controlled c.enforceControlled with ⟨g, h⟩ | h <;> simp [h, Except.map]

/-- **C131 violated:** with vehicles on all lanes (no positions configured) and goals at the end of the own lane,
generation fails for every road whose last lane gets a vehicle, whichever agents are controlled. -/
theorem C131_all_lanes_violated {len : ℚ} {dist vel srange : ℚ × ℚ} {u : Nat → ℚ} {fuel : Nat} (hd : dist.1 ≤ dist.2)
    (hv : vel.1 ≤ vel.2) (hu : ∀ n, 0 ≤ u n ∧ u n ≤ 1) {P : Type} {lanes : List (Lane ℚ P)} {last : Lane ℚ P}
    (hlast : lanes.getLast? = some last) (hlt : srange.1 * last.length < srange.2 * last.length) {k : Nat} {as k'}
    (h : uniformVehicles len dist vel srange none u fuel lanes k = .ok (as, k'))
    (c : GoalConfig) (hc : c.controlled = .endOfLane) (ho : c.others = .endOfLane) (ctrl : Placed ℚ P → Bool) :
    fixedGoals c lanes.length (as.map fun a => (a.2, ctrl a.1)) = .error .thrown := by
  obtain ⟨-, r2⟩ := C131_all_lanes_off_by_one hd hv hu none (Or.inl rfl) h
  have hne : 0 < lanes.length := by
    cases lanes with
    | nil => simp at hlast
    | cons x xs => simp
  obtain ⟨a, ha⟩ := r2 (lanes.length - 1) last (by rw [← List.getLast?_eq_getElem?]; exact hlast) hlt
  refine fixedGoals_error (fun x _ => goalOf_cases c _ _ _) ?_
  refine ⟨(lanes.length - 1 + 1, ctrl a), List.mem_map.2 ⟨_, ha, rfl⟩, ?_⟩
  exact goalOf_end_error c hc ho _ _ (by simp only; omega) _

/-- the premises hold: one vehicle on each of two lanes -/
example : ((uniformVehicles (K := ℚ) 5 (10, 20) (20, 30) (1 / 10, 1 / 5) none (fun _ => 1 / 2) 10
    [demoLane, demoLane] 0).map fun q => q.1.map fun a => (a.1.s, a.2)) = .ok [(10, 1), (10, 2)] := by decide +kernel

/-- with configured positions the goals exist -/
example : fixedGoals ⟨.laneChangeRight, true, .endOfLane, true, true, 4⟩ 2 [(0, true), (1, false)] =
    .ok [(1, some 4), (1, none)] := by decide

/-! ### C132 -/

theorem single_only {n i : Nat} {l} (h : single n i = .ok l) : Only l n i := by
  unfold single at h
  by_cases g : i < n
  · rw [if_pos g] at h
    simp only [Except.ok.injEq] at h
    subst h
    refine ⟨by simp, g, fun j => ?_⟩
    by_cases e : i = j
    · subst e
      simp [g]
    · rw [List.getElem?_set_ne e]
      simp only [List.getElem?_replicate]
      constructor
      · intro hh
        split_ifs at hh
        simp at hh
      · intro hh
        exact absurd hh.symm e
  · rw [if_neg g] at h
    cases h

theorem single_ok {n i : Nat} (h : i < n) : ∃ l, single n i = .ok l := by
  unfold single
  rw [if_pos h]
  exact ⟨_, rfl⟩

/-- **C132, nobody.** The reader "none" leaves every agent uncontrolled. -/
theorem C132_nobody {n draw : Nat} {lp : List Nat} {ai l} (h : selectControlled n draw lp ai .nobody = .ok l) :
    l.length = n ∧ ∀ b ∈ l, b = false := by
  simp only [selectControlled, Except.ok.injEq] at h
  subst h
  simp

/-- **C132, random.** For every sample there is exactly one controlled agent, the drawn one. -/
theorem C132_random {n draw : Nat} (hn : draw < n) (lp : List Nat) (ai) :
    ∃ l, selectControlled n draw lp ai .random = .ok l ∧ Only l n draw := by
  obtain ⟨l, hl⟩ := single_ok hn
  refine ⟨l, ?_, single_only hl⟩
  simp only [selectControlled]
  rw [if_neg (by omega), hl]

/-- **C132, by id.** Exactly the agents with the given ids are controlled. -/
theorem C132_ids {n draw : Nat} {lp : List Nat} {ids : List Nat} {want : List Nat} {l}
    (h : selectControlled n draw lp (some ids) (.ids want) = .ok l) :
    l.length = ids.length ∧ ∀ (j i : Nat), ids[j]? = some i → (l[j]? = some true ↔ i ∈ want) := by
  simp only [selectControlled, Except.ok.injEq] at h
  subst h
  refine ⟨by simp, fun j i hj => ?_⟩
  simp [hj]

/-- **C132, by position** (part): if all agents are on the wanted lane the chosen one is at the wanted place of it. -/
theorem C132_positioning_partial {n draw lane : Nat} {lp : List Nat} {ai} {w : Nat → Nat} (hl : lp.length = n)
    (hall : ∀ p ∈ lp, p = lane) (hw : w n < n) :
    ∃ l, selectControlled n draw lp ai (.positioning lane w) = .ok l ∧ Only l n (w n) := by
  have hf : lp.filter (· = lane) = lp := List.filter_eq_self.2 fun p hp => by simpa using hall p hp
  obtain ⟨l, h⟩ := single_ok hw
  refine ⟨l, ?_, single_only h⟩
  simp only [selectControlled]
  rw [hf, hl, h]

/-- in general: exactly one agent, the one whose number in the list of *all* agents is the wanted number on the lane -/
theorem C132_positioning_index {n draw lane : Nat} {lp : List Nat} {ai} {w : Nat → Nat} {l}
    (h : selectControlled n draw lp ai (.positioning lane w) = .ok l) :
    Only l n (w (lp.filter (· = lane)).length) := by
  simp only [selectControlled] at h
  exact single_only h

/-- **C132 violated:** with two vehicles on lane 1 placed before two on lane 0, asking for the middle one of lane 0 gives
a vehicle on lane 1. -/
theorem C132_positioning_violated : ∃ l, selectControlled 4 0 [1, 1, 0, 0] none (.positioning 0 (· / 2)) = .ok l ∧
    Only l 4 1 ∧ [1, 1, 0, 0][1]? = some 1 := by
  refine ⟨_, rfl, C132_positioning_index (lp := [1, 1, 0, 0]) (draw := 0) (ai := none) (lane := 0) (w := (· / 2)) rfl, rfl⟩

end Bark.Gen
