import Verif.Spec.Stochastic
import Mathlib.Tactic.Linarith
import Mathlib.Tactic.Ring
import Mathlib.Tactic.FieldSimp
import Mathlib.Data.List.Induction
import Mathlib.Logic.Function.Basic

/-! C47, C88-C91: the stochastic IDM and its distributions. -/
namespace Bark.Stoch
set_option linter.unusedSectionVars false

section
variable {R K : Type} [Field K] [LinearOrder K] [IsStrictOrderedRing K]
variable (g : Gen R K) (q : K → K → K → K)

theorem sampleAll_other (ps : List Nat) (h : Heap R K) (j : Nat) (hj : j ∉ ps) : (sampleAll g q ps h).2 j = h j := by
  induction ps generalizing h with
  | nil => rfl
  | cons i is ih =>
    simp only [List.mem_cons, not_or] at hj
    simp only [sampleAll]
    rw [ih _ hj.2]
    simp [sampleAt, hj.1]

theorem sampleAll_self (ps : List Nat) (nd : ps.Nodup) (h : Heap R K) (j : Nat) (hj : j ∈ ps) :
    (sampleAll g q ps h).2 j = (sample g q (h j)).2 := by
  induction ps generalizing h with
  | nil => cases hj
  | cons i is ih =>
    simp only [sampleAll]
    rw [List.nodup_cons] at nd
    rcases List.mem_cons.1 hj with e | e
    · subst e
      rw [sampleAll_other _ _ _ _ _ nd.1]
      simp [sampleAt]
    · rw [ih nd.2 _ e]
      have : j ≠ i := fun c => nd.1 (c ▸ e)
      simp [sampleAt, this]

theorem sampleAll_vals (ps : List Nat) (nd : ps.Nodup) (h : Heap R K) :
    (sampleAll g q ps h).1 = ps.map (fun i => (sample g q (h i)).1) := by
  induction ps generalizing h with
  | nil => rfl
  | cons i is ih =>
    rw [List.nodup_cons] at nd
    simp only [sampleAll, List.map_cons]
    congr 1
    rw [ih nd.2]
    apply List.map_congr_left
    intro j hj
    have : j ≠ i := fun c => nd.1 (c ▸ hj)
    simp [sampleAt, this]

theorem sample_kind (d : Dist R K) : (sample g q d).2.kind = d.kind := by
  unfold sample
  split <;> rfl

theorem drawn_succ (d : Dist R K) (n : Nat) : drawn g q d (n + 1) = (sample g q (drawn g q d n)).2 := rfl

theorem drawn_kind (d : Dist R K) (n : Nat) : (drawn g q d n).kind = d.kind := by
  induction n with
  | zero => rfl
  | succ n ih => rw [drawn_succ, sample_kind, ih]

/-- the pointers of an object are pairwise different -/
structure Distinct (o : Obj K) : Prop where
  nodup : o.ps.Nodup
  y : o.yPtr ∉ o.ps
  n : o.nPtr ∉ o.ps
  yn : o.yPtr ≠ o.nPtr

theorem handleIntent_ptrs (t : K) (s : Heap R K × Obj K) :
    (handleIntent g q t s).2.ps = s.2.ps ∧ (handleIntent g q t s).2.yPtr = s.2.yPtr ∧
    (handleIntent g q t s).2.nPtr = s.2.nPtr ∧ (handleIntent g q t s).2.useIntent = s.2.useIntent ∧
    (handleIntent g q t s).2.vals = s.2.vals := by
  unfold handleIntent
  simp only
  split_ifs <;> exact ⟨rfl, rfl, rfl, rfl, rfl⟩

theorem handleIntent_heap (t : K) (s : Heap R K × Obj K) (j : Nat) (h1 : j ≠ s.2.yPtr) (h2 : j ≠ s.2.nPtr) :
    (handleIntent g q t s).1 j = s.1 j := by
  unfold handleIntent
  simp only
  split_ifs <;> simp [sampleAt, h1, h2]

theorem plan_ptrs (t : K) (s : Heap R K × Obj K) :
    (plan g q t s).2.ps = s.2.ps ∧ (plan g q t s).2.yPtr = s.2.yPtr ∧ (plan g q t s).2.nPtr = s.2.nPtr ∧
    (plan g q t s).2.useIntent = s.2.useIntent := by
  unfold plan
  simp only
  by_cases u : s.2.useIntent = true
  · rw [if_pos u]
    obtain ⟨a, b, c, d, _⟩ := handleIntent_ptrs g q t ((sampleAll g q s.2.ps s.1).2, { s.2 with vals := (sampleAll g q s.2.ps s.1).1 })
    exact ⟨a, b, c, d⟩
  · rw [if_neg u]
    exact ⟨rfl, rfl, rfl, rfl⟩

theorem plan_vals (t : K) (s : Heap R K × Obj K) : (plan g q t s).2.vals = (sampleAll g q s.2.ps s.1).1 := by
  unfold plan
  simp only
  by_cases u : s.2.useIntent = true
  · rw [if_pos u]
    exact (handleIntent_ptrs g q t ((sampleAll g q s.2.ps s.1).2, { s.2 with vals := (sampleAll g q s.2.ps s.1).1 })).2.2.2.2
  · rw [if_neg u]

theorem plan_param_heap (t : K) (s : Heap R K × Obj K) (dd : Distinct s.2) (j : Nat) (hj : j ∈ s.2.ps) :
    (plan g q t s).1 j = (sample g q (s.1 j)).2 := by
  unfold plan
  simp only
  have e1 : j ≠ s.2.yPtr := fun c => dd.y (c ▸ hj)
  have e2 : j ≠ s.2.nPtr := fun c => dd.n (c ▸ hj)
  by_cases u : s.2.useIntent = true
  · rw [if_pos u]
    exact (handleIntent_heap g q t ((sampleAll g q s.2.ps s.1).2, { s.2 with vals := (sampleAll g q s.2.ps s.1).1 }) j e1 e2).trans
      (sampleAll_self _ _ _ dd.nodup _ _ hj)
  · rw [if_neg u]
    exact sampleAll_self _ _ _ dd.nodup _ _ hj

theorem plans_snoc (ts : List K) (t : K) (s : Heap R K × Obj K) : plans g q (ts ++ [t]) s = plan g q t (plans g q ts s) := by
  simp [plans]

theorem plans_append (ts us : List K) (s : Heap R K × Obj K) : plans g q (ts ++ us) s = plans g q us (plans g q ts s) := by
  simp [plans]

theorem plans_ptrs (ts : List K) (s : Heap R K × Obj K) :
    (plans g q ts s).2.ps = s.2.ps ∧ (plans g q ts s).2.yPtr = s.2.yPtr ∧ (plans g q ts s).2.nPtr = s.2.nPtr ∧
    (plans g q ts s).2.useIntent = s.2.useIntent := by
  induction ts using List.reverseRecOn with
  | nil => exact ⟨rfl, rfl, rfl, rfl⟩
  | append_singleton ts t ih =>
    rw [plans_snoc]
    obtain ⟨a, b, c, d⟩ := plan_ptrs g q t (plans g q ts s)
    exact ⟨a.trans ih.1, b.trans ih.2.1, c.trans ih.2.2.1, d.trans ih.2.2.2⟩

theorem plans_distinct (ts : List K) (s : Heap R K × Obj K) (dd : Distinct s.2) : Distinct (plans g q ts s).2 := by
  obtain ⟨a, b, c, _⟩ := plans_ptrs g q ts s
  exact ⟨a ▸ dd.nodup, by rw [a, b]; exact dd.y, by rw [a, c]; exact dd.n, by rw [b, c]; exact dd.yn⟩

theorem plans_param_heap (ts : List K) (s : Heap R K × Obj K) (dd : Distinct s.2) (j : Nat) (hj : j ∈ s.2.ps) :
    (plans g q ts s).1 j = drawn g q (s.1 j) ts.length := by
  induction ts using List.reverseRecOn with
  | nil => rfl
  | append_singleton ts t ih =>
    rw [plans_snoc, plan_param_heap _ _ _ _ (plans_distinct g q ts s dd) _ (by rw [(plans_ptrs g q ts s).1]; exact hj), ih]
    simp [drawn_succ]

/-- the parameters used by the `n`-th planning call are the `n`-th samples of their distributions -/
theorem plans_vals (ts : List K) (t : K) (s : Heap R K × Obj K) (dd : Distinct s.2) :
    (plans g q (ts ++ [t]) s).2.vals = s.2.ps.map (fun i => stream g q (s.1 i) ts.length) := by
  rw [plans_snoc, plan_vals, (plans_ptrs g q ts s).1, sampleAll_vals _ _ _ dd.nodup]
  apply List.map_congr_left
  intro i hi
  rw [plans_param_heap g q ts s dd i hi]
  rfl

/-! ### C47 -/

theorem plan_intent (t : K) (s : Heap R K × Obj K) (u : s.2.useIntent = true) :
    plan g q t s = handleIntent g q t ((sampleAll g q s.2.ps s.1).2, { s.2 with vals := (sampleAll g q s.2.ps s.1).1 }) := by
  unfold plan
  simp only
  rw [if_pos u]

/-- the state of the intention mechanism in episode `m` that began at `t0` -/
structure InEpisode (dy dn : Dist R K) (m : Nat) (t0 : K) (s : Heap R K × Obj K) : Prop where
  intent : s.2.intent = if m % 2 = 0 then .yielding else .noYield
  lat : s.2.lat = if m % 2 = 0 then 8 else 1
  since : s.2.lastChange = t0
  dur : s.2.duration = alternate (stream g q dy) (stream g q dn) m
  y : s.1 s.2.yPtr = drawn g q dy (m / 2 + 1)
  n : s.1 s.2.nPtr = drawn g q dn ((m + 1) / 2)

theorem inEpisode_init (t : K) (s : Heap R K × Obj K) (u : s.2.useIntent = true) (dd : Distinct s.2) (fr : s.2.intent = .notInit) :
    InEpisode g q (s.1 s.2.yPtr) (s.1 s.2.nPtr) 0 t (plan g q t s) := by
  have hy := sampleAll_other g q s.2.ps s.1 _ dd.y
  have hn := sampleAll_other g q s.2.ps s.1 _ dd.n
  rw [plan_intent g q t s u]
  unfold handleIntent
  simp only
  rw [if_pos fr]
  refine ⟨rfl, rfl, rfl, ?_, ?_, ?_⟩
  · simp [alternate, stream, drawn, sampleAt, hy]
  · simp [drawn, sampleAt, hy]
  · simp [drawn, sampleAt, hn, dd.yn.symm]

theorem inEpisode_step {dy dn : Dist R K} {m : Nat} {t0 : K} {s : Heap R K × Obj K} (t : K) (u : s.2.useIntent = true)
    (dd : Distinct s.2) (e : InEpisode g q dy dn m t0 s) :
    if alternate (stream g q dy) (stream g q dn) m ≤ t - t0 then InEpisode g q dy dn (m + 1) t (plan g q t s)
    else InEpisode g q dy dn m t0 (plan g q t s) := by
  have hy := sampleAll_other g q s.2.ps s.1 _ dd.y
  have hn := sampleAll_other g q s.2.ps s.1 _ dd.n
  rw [plan_intent g q t s u]
  unfold handleIntent
  simp only
  have ni : s.2.intent ≠ .notInit := by
    rw [e.intent]; split_ifs <;> simp
  rw [if_neg ni, e.dur, e.since]
  by_cases c : alternate (stream g q dy) (stream g q dn) m ≤ t - t0
  · rw [if_pos c, if_pos c]
    by_cases ev : m % 2 = 0
    · have h1 : (m + 1) % 2 = 1 := by omega
      have h2 : (m + 1) / 2 = m / 2 := by omega
      have h3 : (m + 1 + 1) / 2 = m / 2 + 1 := by omega
      rw [if_pos (by rw [e.intent, if_pos ev])]
      refine ⟨by simp [h1], by simp [h1], rfl, ?_, ?_, ?_⟩
      · simp only [alternate, h1, sampleAt, hn, e.n, h2]
        rfl
      · simp [sampleAt, dd.yn, hy, e.y, h2]
      · simp [sampleAt, hn, e.n, h3, h2, drawn_succ]
    · have h1 : (m + 1) % 2 = 0 := by omega
      have h2 : (m + 1) / 2 = m / 2 + 1 := by omega
      have h3 : (m + 1 + 1) / 2 = m / 2 + 1 := by omega
      rw [if_neg (by rw [e.intent, if_neg ev]; simp)]
      refine ⟨by simp [h1], by simp [h1], rfl, ?_, ?_, ?_⟩
      · simp only [alternate, h1, sampleAt, hy, e.y, h2]
        rfl
      · simp [sampleAt, hy, e.y, h2, drawn_succ]
      · simp [sampleAt, dd.yn.symm, hn, e.n, h3, h2]
  · rw [if_neg c, if_neg c]
    exact ⟨e.intent, e.lat, rfl, rfl, hy.trans e.y, hn.trans e.n⟩

theorem getD_snoc_lt (ts : List K) (t : K) (j : Nat) (h : j < ts.length) : (ts ++ [t]).getD j 0 = ts.getD j 0 := by
  simp [List.getD_eq_getElem?_getD, List.getElem?_append_left h]

theorem getD_snoc_len (ts : List K) (t : K) : (ts ++ [t]).getD ts.length 0 = t := by
  simp [List.getD_eq_getElem?_getD]

theorem Episodes.mono {dur : Nat → K} {ts : List K} {m : Nat} {p : Nat → Nat} (e : Episodes dur ts m p) (i j : Nat) (ij : i ≤ j)
    (jm : j ≤ m) : p i ≤ p j := by
  induction j with
  | zero => have : i = 0 := by omega
            rw [this]
  | succ j ih =>
    by_cases c : i = j + 1
    · rw [c]
    · exact le_trans (ih (by omega) (by omega)) (le_of_lt (e.inc j (by omega)))

theorem Episodes.lt_len {dur : Nat → K} {ts : List K} {m : Nat} {p : Nat → Nat} (e : Episodes dur ts m p) (i : Nat) (im : i ≤ m) :
    p i < ts.length := lt_of_le_of_lt (e.mono i m im (le_refl _)) e.last

theorem Episodes.stay_snoc {dur : Nat → K} {ts : List K} {m : Nat} {p : Nat → Nat} (e : Episodes dur ts m p) (t : K)
    (h : t - ts.getD (p m) 0 < dur m) : Episodes dur (ts ++ [t]) m p := by
  refine ⟨e.first, e.inc, by rw [List.length_append]; exact Nat.lt_add_right _ e.last, ?_, ?_⟩
  · intro i im j h1 h2 h3
    rw [getD_snoc_lt _ _ _ (e.lt_len i im)]
    by_cases c : j < ts.length
    · rw [getD_snoc_lt _ _ _ c]
      exact e.stay i im j h1 h2 c
    · have : j = ts.length := by simp at h3; omega
      have im' : i = m := by
        by_contra cc
        have := h2 (by omega)
        have := e.lt_len (i + 1) (by omega)
        omega
      rw [this, getD_snoc_len, im']
      exact h
  · intro i im
    rw [getD_snoc_lt _ _ _ (e.lt_len i (le_of_lt im)), getD_snoc_lt _ _ _ (e.lt_len (i + 1) im)]
    exact e.change i im

theorem Episodes.change_snoc {dur : Nat → K} {ts : List K} {m : Nat} {p : Nat → Nat} (e : Episodes dur ts m p) (t : K)
    (h : dur m ≤ t - ts.getD (p m) 0) : Episodes dur (ts ++ [t]) (m + 1) (Function.update p (m + 1) ts.length) := by
  have up : ∀ i, i ≤ m → Function.update p (m + 1) ts.length i = p i := by
    intro i im
    rw [Function.update_of_ne (by omega)]
  have us : Function.update p (m + 1) ts.length (m + 1) = ts.length := by simp
  refine ⟨by rw [up 0 (by omega)]; exact e.first, ?_, by rw [us]; simp, ?_, ?_⟩
  · intro i im
    rw [up i (by omega)]
    by_cases c : i = m
    · rw [c, us]; exact e.last
    · rw [up (i + 1) (by omega)]; exact e.inc i (by omega)
  · intro i im j h1 h2 h3
    by_cases c : i = m + 1
    · rw [c, us] at h1
      simp at h3; omega
    · rw [up i (by omega)] at h1 ⊢
      by_cases c2 : i = m
      · have h2' := h2 (by omega)
        rw [c2, us] at h2'
        rw [getD_snoc_lt _ _ _ h2', getD_snoc_lt _ _ _ (e.lt_len i (by omega))]
        exact e.stay i (by omega) j h1 (fun x => absurd x (by omega)) h2'
      · have h2' := h2 (by omega)
        rw [up (i + 1) (by omega)] at h2'
        have l := e.lt_len (i + 1) (by omega)
        rw [getD_snoc_lt _ _ _ (by omega), getD_snoc_lt _ _ _ (e.lt_len i (by omega))]
        exact e.stay i (by omega) j h1 (fun _ => h2') (by omega)
  · intro i im
    rw [up i (by omega), getD_snoc_lt _ _ _ (e.lt_len i (by omega))]
    by_cases c : i = m
    · rw [c, us, getD_snoc_len]; exact h
    · rw [up (i + 1) (by omega), getD_snoc_lt _ _ _ (e.lt_len (i + 1) (by omega))]
      exact e.change i (by omega)

/-- there is one way only to cut the planning times into episodes -/
theorem Episodes.unique {dur : Nat → K} {ts : List K} {m m' : Nat} {p p' : Nat → Nat} (e : Episodes dur ts m p)
    (e' : Episodes dur ts m' p') : m = m' ∧ ∀ i, i ≤ m → p i = p' i := by
  have key : ∀ i, i ≤ m → i ≤ m' → p i = p' i := by
    intro i
    induction i with
    | zero => intro _ _; rw [e.first, e'.first]
    | succ i ih =>
      intro h1 h2
      have eq := ih (by omega) (by omega)
      rcases lt_trichotomy (p (i + 1)) (p' (i + 1)) with l | l | l
      · have a := e'.stay i (by omega) (p (i + 1)) (eq ▸ e.inc i (by omega)) (fun _ => l) (e.lt_len _ h1)
        have b := e.change i (by omega)
        rw [eq] at b
        exact absurd b (not_le.2 a)
      · exact l
      · have a := e.stay i (by omega) (p' (i + 1)) (eq ▸ e'.inc i (by omega)) (fun _ => l) (e'.lt_len _ h2)
        have b := e'.change i (by omega)
        rw [← eq] at b
        exact absurd b (not_le.2 a)
  rcases lt_trichotomy m m' with l | l | l
  · exfalso
    have eq := key m (le_refl _) (by omega)
    have a := e.stay m (le_refl _) (p' (m + 1)) (eq ▸ e'.inc m l) (fun x => absurd x (by omega)) (e'.lt_len _ (by omega))
    have b := e'.change m l
    rw [← eq] at b
    exact absurd b (not_le.2 a)
  · exact ⟨l, fun i hi => key i hi (by omega)⟩
  · exfalso
    have eq := key m' (by omega) (le_refl _)
    have a := e'.stay m' (le_refl _) (p (m' + 1)) (eq ▸ e.inc m' l) (fun x => absurd x (by omega)) (e.lt_len _ (by omega))
    have b := e.change m' l
    rw [eq] at b
    exact absurd b (not_le.2 a)

theorem episodes_of_plans (ts : List K) (ne : ts ≠ []) (s : Heap R K × Obj K) (u : s.2.useIntent = true) (dd : Distinct s.2)
    (fr : s.2.intent = .notInit) : ∃ m p, Episodes (alternate (stream g q (s.1 s.2.yPtr)) (stream g q (s.1 s.2.nPtr))) ts m p ∧
      InEpisode g q (s.1 s.2.yPtr) (s.1 s.2.nPtr) m (ts.getD (p m) 0) (plans g q ts s) := by
  induction ts using List.reverseRecOn with
  | nil => exact absurd rfl ne
  | append_singleton ts t ih =>
    by_cases c : ts = []
    · subst c
      refine ⟨0, fun _ => 0, ⟨rfl, fun i hi => absurd hi (by omega), by simp, ?_, fun i hi => absurd hi (by omega)⟩, ?_⟩
      · intro i _ j h1 _ h3
        simp at h3
        omega
      · exact inEpisode_init g q t s u dd fr
    · obtain ⟨m, p, e, st⟩ := ih c
      have stp := inEpisode_step g q t (by rw [(plans_ptrs g q ts s).2.2.2]; exact u) (plans_distinct g q ts s dd) st
      rw [plans_snoc]
      by_cases c2 : alternate (stream g q (s.1 s.2.yPtr)) (stream g q (s.1 s.2.nPtr)) m ≤ t - ts.getD (p m) 0
      · rw [if_pos c2] at stp
        refine ⟨m + 1, _, e.change_snoc t c2, ?_⟩
        rw [Function.update_self, getD_snoc_len]
        exact stp
      · rw [if_neg c2] at stp
        refine ⟨m, p, e.stay_snoc t (not_le.1 c2), ?_⟩
        rw [getD_snoc_lt _ _ _ e.last]
        exact stp

/-- **C47**: with the intention mechanism switched on the planning calls of a fresh model fall into exactly one sequence of episodes,
alternately yielding (first) and not yielding; the `i`-th episode lasts until the first call that is at least its duration after its
first call; durations of yielding and not yielding episodes are the successive samples of their own distributions; while yielding a
vehicle counts as front vehicle with a lateral offset of up to 8 (m), otherwise 1. -/
theorem C47_intent_timeline (ts : List K) (ne : ts ≠ []) (h : Heap R K) (o : Obj K) (u : o.useIntent = true) (dd : Distinct o)
    (fr : o.intent = .notInit) : ∃ m p, Episodes (alternate (stream g q (h o.yPtr)) (stream g q (h o.nPtr))) ts m p ∧
      (∀ m' p', Episodes (alternate (stream g q (h o.yPtr)) (stream g q (h o.nPtr))) ts m' p' → m' = m ∧ ∀ i, i ≤ m → p' i = p i) ∧
      (plans g q ts (h, o)).2.intent = (if m % 2 = 0 then .yielding else .noYield) ∧
      (plans g q ts (h, o)).2.lat = (if m % 2 = 0 then 8 else 1) := by
  obtain ⟨m, p, e, st⟩ := episodes_of_plans g q ts ne (h, o) u dd fr
  refine ⟨m, p, e, ?_, st.intent, st.lat⟩
  intro m' p' e'
  obtain ⟨a, b⟩ := e.unique e'
  exact ⟨a.symm, fun i hi => (b i hi).symm⟩

/-- **C47**: without the mechanism the lateral offset and the intent are never touched -/
theorem C47_mechanism_off (ts : List K) (h : Heap R K) (o : Obj K) (u : o.useIntent = false) :
    (plans g q ts (h, o)).2.intent = o.intent ∧ (plans g q ts (h, o)).2.lat = o.lat := by
  induction ts using List.reverseRecOn with
  | nil => exact ⟨rfl, rfl⟩
  | append_singleton ts t ih =>
    rw [plans_snoc]
    unfold plan
    simp only
    rw [if_neg (by rw [(plans_ptrs g q ts (h, o)).2.2.2]; simp [u])]
    exact ih

/-! ### C88 -/

theorem sample_fixed (d : Dist R K) (v : K) (hk : d.kind = .fixed v) : sample g q d = (v, d) := by
  unfold sample
  rw [hk]

theorem sampleAt_fixed (h : Heap R K) (i : Nat) (v : K) (hk : (h i).kind = .fixed v) : (sampleAt g q i h).2 = h := by
  unfold sampleAt
  rw [sample_fixed g q _ v hk]
  funext j
  by_cases c : j = i
  · simp [c]
  · simp [c]

theorem sampleAll_fixed (ps : List Nat) (h : Heap R K) (fx : ∀ i ∈ ps, ∃ v, (h i).kind = .fixed v) : (sampleAll g q ps h).2 = h := by
  induction ps with
  | nil => rfl
  | cons i is ih =>
    obtain ⟨v, hv⟩ := fx i (List.mem_cons_self ..)
    simp only [sampleAll]
    rw [sampleAt_fixed g q h i v hv]
    exact ih (fun j hj => fx j (List.mem_cons_of_mem _ hj))

theorem handleIntent_fixed (t : K) (s : Heap R K × Obj K) (fy : ∃ v, (s.1 s.2.yPtr).kind = .fixed v)
    (fn : ∃ v, (s.1 s.2.nPtr).kind = .fixed v) : (handleIntent g q t s).1 = s.1 := by
  obtain ⟨v, hv⟩ := fy
  obtain ⟨w, hw⟩ := fn
  unfold handleIntent
  simp only
  split_ifs
  · exact sampleAt_fixed g q _ _ v hv
  · exact sampleAt_fixed g q _ _ w hw
  · exact sampleAt_fixed g q _ _ v hv
  · rfl

/-- all distributions of the object are fixed values -/
def AllFixed (h : Heap R K) (o : Obj K) : Prop := ∀ i, i ∈ o.ps ∨ i = o.yPtr ∨ i = o.nPtr → ∃ v, (h i).kind = .fixed v

theorem plans_fixed (ts : List K) (h : Heap R K) (o : Obj K) (fx : AllFixed h o) : (plans g q ts (h, o)).1 = h := by
  induction ts using List.reverseRecOn with
  | nil => rfl
  | append_singleton ts t ih =>
    obtain ⟨a, b, c, _⟩ := plans_ptrs g q ts (h, o)
    have e : (sampleAll g q (plans g q ts (h, o)).2.ps (plans g q ts (h, o)).1).2 = h := by
      rw [a, ih]
      exact sampleAll_fixed g q _ _ (fun i hi => fx i (Or.inl hi))
    rw [plans_snoc]
    unfold plan
    simp only
    by_cases u : (plans g q ts (h, o)).2.useIntent = true
    · rw [if_pos u, handleIntent_fixed]
      · exact e
      · simp only [e, b]; exact fx _ (Or.inr (Or.inl rfl))
      · simp only [e, c]; exact fx _ (Or.inr (Or.inr rfl))
    · rw [if_neg u]
      exact e

/-- **C88** (what holds): if all distributions are fixed values, planning with a clone never influences the original -/
theorem C88_fixed_independent_partial (ts us : List K) (h : Heap R K) (o : Obj K) (fx : AllFixed h o) :
    plans g q us ((plans g q ts (h, clone o)).1, o) = plans g q us (h, o) := by
  rw [show clone o = o from rfl, plans_fixed g q ts h o fx]

/-- **C88** violated: one planning call of the clone changes the parameters the original plans with next, whenever one of its
distributions is uniform over a proper interval and the engine's next two numbers differ -/
theorem C88_violated (t t' : K) (h : Heap R K) (o : Obj K) (dd : Distinct o) (i : Nat) (hi : i ∈ o.ps) (lo hi' : K)
    (hk : (h i).kind = .uniform lo hi') (lh : lo < hi') (dif : (g.next (h i).gen).1 ≠ (g.next (g.next (h i).gen).2).1) :
    (plan g q t' ((plan g q t (h, clone o)).1, o)).2.vals ≠ (plan g q t' (h, o)).2.vals := by
  rw [plan_vals, plan_vals, sampleAll_vals _ _ _ dd.nodup, sampleAll_vals _ _ _ dd.nodup]
  intro e
  rw [List.map_inj_left] at e
  have := e i hi
  rw [show (plan g q t (h, clone o)).1 i = (sample g q (h i)).2 from plan_param_heap g q t (h, o) dd i hi] at this
  simp only [sample, hk, quantile] at this
  apply dif
  have p : 0 < hi' - lo := by linarith
  have e2 := add_right_cancel this
  exact (mul_right_cancel₀ (ne_of_gt p) e2).symm

/-! ### C89 -/

theorem changeSeed_kind (seed : Nat) (d : Dist R K) : (changeSeed g seed d).kind = d.kind := by
  unfold changeSeed
  split <;> rfl

theorem changeSeed_idem (seed : Nat) (d : Dist R K) : changeSeed g seed (changeSeed g seed d) = changeSeed g seed d := by
  obtain ⟨k, r⟩ := d
  cases k <;> rfl

theorem reseed_heap (seed : Nat) (ps : List Nat) (h : Heap R K) (j : Nat) :
    (ps.foldl (fun h i => fun j => if j = i then changeSeed g seed (h i) else h j) h) j =
      if j ∈ ps then changeSeed g seed (h j) else h j := by
  induction ps generalizing h with
  | nil => rfl
  | cons i is ih =>
    rw [List.foldl_cons, ih]
    by_cases c : j = i
    · subst c
      by_cases d : j ∈ is
      · simp [d, changeSeed_idem]
      · simp [d]
    · by_cases d : j ∈ is <;> simp [c, d]

theorem changeSeed_congr (seed : Nat) (d d' : Dist R K) (hk : d.kind = d'.kind) (nf : ∀ v, d.kind ≠ .fixed v) :
    changeSeed g seed d = changeSeed g seed d' := by
  obtain ⟨k, r⟩ := d
  obtain ⟨k', r'⟩ := d'
  simp only at hk
  subst hk
  cases k with
  | fixed v => exact absurd rfl (nf v)
  | _ => rfl

theorem stream_fixed (d : Dist R K) (v : K) (hk : d.kind = .fixed v) (n : Nat) : stream g q d n = v := by
  unfold stream
  rw [sample_fixed g q _ v (by rw [drawn_kind, hk])]

theorem reseed_stream (seed : Nat) (d d' : Dist R K) (hk : d.kind = d'.kind) (n : Nat) :
    stream g q (changeSeed g seed d) n = stream g q (changeSeed g seed d') n := by
  by_cases c : ∃ v, d.kind = .fixed v
  · obtain ⟨v, hv⟩ := c
    rw [stream_fixed g q _ v (by rw [changeSeed_kind, hv]), stream_fixed g q _ v (by rw [changeSeed_kind, ← hk, hv])]
  · push Not at c
    rw [changeSeed_congr g seed d d' hk c]

/-- **C89** (what holds): after `ChangeSeed` with the same seed two models of the same configuration use the same IDM parameters in
every planning call, whatever they did before -/
theorem C89_parameters_partial (seed : Nat) (ts : List K) (t : K) (h h' : Heap R K) (o o' : Obj K) (dd : Distinct o) (dd' : Distinct o')
    (cfg : o.ps.map (fun i => (h i).kind) = o'.ps.map (fun i => (h' i).kind)) :
    (plans g q (ts ++ [t]) (reseed g seed (h, o))).2.vals = (plans g q (ts ++ [t]) (reseed g seed (h', o'))).2.vals := by
  rw [plans_vals g q ts t (reseed g seed (h, o)) dd, plans_vals g q ts t (reseed g seed (h', o')) dd']
  have e : ∀ (h : Heap R K) (o : Obj K), o.ps.map (fun i => stream g q ((reseed g seed (h, o)).1 i) ts.length) =
      (o.ps.map (fun i => (h i).kind)).map (fun k => stream g q (changeSeed g seed ⟨k, g.ofSeed seed⟩) ts.length) := by
    intro h o
    rw [List.map_map]
    apply List.map_congr_left
    intro i hi
    unfold reseed
    simp only
    rw [reseed_heap, if_pos hi]
    exact reseed_stream g q seed (h i) ⟨(h i).kind, g.ofSeed seed⟩ rfl _
  show o.ps.map _ = o'.ps.map _
  rw [e h o, e h' o', cfg]

/-- **C89** violated: `ChangeSeed` does not reach the distributions of the intent durations, so the same seed gives different
durations of the yielding intent if the engines of these distributions are in states with different next numbers -/
theorem C89_durations_violated (seed : Nat) (t : K) (h h' : Heap R K) (o : Obj K) (u : o.useIntent = true) (dd : Distinct o)
    (fr : o.intent = .notInit) (lo hi : K) (lh : lo < hi) (hk : (h o.yPtr).kind = .uniform lo hi)
    (hk' : (h' o.yPtr).kind = .uniform lo hi) (dif : (g.next (h o.yPtr).gen).1 ≠ (g.next (h' o.yPtr).gen).1) :
    (plan g q t (reseed g seed (h, o))).2.duration ≠ (plan g q t (reseed g seed (h', o))).2.duration := by
  have st : ∀ h : Heap R K, (plan g q t (reseed g seed (h, o))).2.duration = (sample g q (h o.yPtr)).1 := by
    intro h
    have := (inEpisode_init g q t (reseed g seed (h, o)) u dd fr).dur
    rw [this]
    simp only [alternate, stream, drawn, reseed, reseed_heap, Nat.zero_mod, Nat.zero_div, if_true]
    rw [if_neg dd.y]
  rw [st, st]
  simp only [sample, hk, hk', quantile]
  intro e
  apply dif
  exact mul_right_cancel₀ (ne_of_gt (by linarith : (0 : K) < hi - lo)) (add_right_cancel e)

/-! ### C90 -/

theorem lockstep_gen (d d' : Dist R K) (nf : ∀ v, d.kind ≠ .fixed v) (nf' : ∀ v, d'.kind ≠ .fixed v) (e : d.gen = d'.gen) (n : Nat) :
    (drawn g q d n).gen = (drawn g q d' n).gen := by
  have step : ∀ d : Dist R K, (∀ v, d.kind ≠ .fixed v) → (sample g q d).2.gen = (g.next d.gen).2 := by
    intro d nf
    obtain ⟨k, r⟩ := d
    cases k with
    | fixed v => exact absurd rfl (nf v)
    | _ => rfl
  induction n with
  | zero => exact e
  | succ n ih =>
    rw [drawn_succ, drawn_succ, step _ (by rw [drawn_kind]; exact nf), step _ (by rw [drawn_kind]; exact nf'), ih]

/-- **C90** violated: two uniformly distributed parameters whose engines are in the same state (as after construction with the
default seed and after `ChangeSeed`) take, in every planning call, the same relative position in their intervals -/
theorem C90_lockstep_violated (ts : List K) (t : K) (h : Heap R K) (o : Obj K) (dd : Distinct o) (a b : Nat) (i j : Nat)
    (ha : o.ps[a]? = some i) (hb : o.ps[b]? = some j) (lo hi lo' hi' : K) (ki : (h i).kind = .uniform lo hi)
    (kj : (h j).kind = .uniform lo' hi') (same : (h i).gen = (h j).gen) :
    ∃ v w, (plans g q (ts ++ [t]) (h, o)).2.vals[a]? = some v ∧ (plans g q (ts ++ [t]) (h, o)).2.vals[b]? = some w ∧
      (v - lo) * (hi' - lo') = (w - lo') * (hi - lo) := by
  rw [plans_vals g q ts t (h, o) dd]
  refine ⟨_, _, by rw [List.getElem?_map, ha]; rfl, by rw [List.getElem?_map, hb]; rfl, ?_⟩
  have s1 : ∀ (i : Nat) (lo hi : K), (h i).kind = .uniform lo hi →
      stream g q (h i) ts.length = (g.next (drawn g q (h i) ts.length).gen).1 * (hi - lo) + lo := by
    intro i lo hi ki
    unfold stream sample
    rw [drawn_kind, ki]
    rfl
  show (stream g q (h i) ts.length - lo) * (hi' - lo') = (stream g q (h j) ts.length - lo') * (hi - lo)
  rw [s1 i lo hi ki, s1 j lo' hi' kj,
    lockstep_gen g q (h i) (h j) (by rw [ki]; simp) (by rw [kj]; simp) same]
  ring

/-- **C90**: `ChangeSeed` brings all engines into the same state, whatever they did before -/
theorem C90_reseed_aligns (seed : Nat) (h : Heap R K) (o : Obj K) (i j : Nat) (hi : i ∈ o.ps) (hj : j ∈ o.ps)
    (ni : ∀ v, (h i).kind ≠ .fixed v) (nj : ∀ v, (h j).kind ≠ .fixed v) :
    ((reseed g seed (h, o)).1 i).gen = ((reseed g seed (h, o)).1 j).gen := by
  have step : ∀ d : Dist R K, (∀ v, d.kind ≠ .fixed v) → (changeSeed g seed d).gen = g.ofSeed seed := by
    intro d nf
    obtain ⟨k, r⟩ := d
    cases k with
    | fixed v => exact absurd rfl (nf v)
    | _ => rfl
  unfold reseed
  simp only
  rw [reseed_heap, reseed_heap, if_pos hi, if_pos hj, step _ ni, step _ nj]

/-! ### C91 -/

/-- parameters the constructors of the boost distributions accept -/
def Kind.Valid : Kind K → Prop
  | .uniform lo hi => lo < hi
  | .bernoulli p => 0 ≤ p ∧ p ≤ 1
  | _ => True

/-- membership in a support; `none` is the whole line -/
def InRange : Option (K × K) → K → Prop
  | none, _ => True
  | some r, x => r.1 ≤ x ∧ x ≤ r.2

theorem sample_inRange (unit : ∀ r, 0 ≤ (g.next r).1 ∧ (g.next r).1 < 1) (d : Dist R K) (va : d.kind.Valid) :
    InRange (support d.kind) (sample g q d).1 := by
  obtain ⟨k, r⟩ := d
  obtain ⟨u0, u1⟩ := unit r
  cases k with
  | fixed v => exact ⟨le_refl _, le_refl _⟩
  | uniform lo hi =>
    simp only [Kind.Valid] at va
    have p : 0 < hi - lo := by linarith
    constructor
    · show lo ≤ (g.next r).1 * (hi - lo) + lo
      have := mul_nonneg u0 p.le
      linarith
    · show (g.next r).1 * (hi - lo) + lo ≤ hi
      have := mul_le_mul_of_nonneg_right u1.le p.le
      linarith
  | normal m s => trivial
  | bernoulli p =>
    show (0 : K) ≤ (if (g.next r).1 ≤ 1 - p then 0 else 1) ∧ (if (g.next r).1 ≤ 1 - p then (0 : K) else 1) ≤ 1
    split_ifs <;> simp

/-- **C91**: in every planning call every parameter lies in the region `GetParameterRegions` reports for it (before or after) -/
theorem C91_in_regions (unit : ∀ r, 0 ≤ (g.next r).1 ∧ (g.next r).1 < 1) (ts : List K) (t : K) (h : Heap R K) (o : Obj K)
    (dd : Distinct o) (va : ∀ i ∈ o.ps, (h i).kind.Valid) :
    List.Forall₂ InRange (regions (h, o)) (plans g q (ts ++ [t]) (h, o)).2.vals ∧
    regions (plans g q (ts ++ [t]) (h, o)) = regions (h, o) := by
  constructor
  · rw [plans_vals g q ts t (h, o) dd]
    unfold regions
    simp only
    have key : ∀ ps : List Nat, (∀ i ∈ ps, (h i).kind.Valid) → List.Forall₂ InRange (ps.map (fun i => support (h i).kind))
        (ps.map (fun i => stream g q (h i) ts.length)) := by
      intro ps
      induction ps with
      | nil => intro _; exact List.Forall₂.nil
      | cons i is ih =>
        intro v
        refine List.Forall₂.cons ?_ (ih (fun j hj => v j (List.mem_cons_of_mem _ hj)))
        have := sample_inRange g q unit (drawn g q (h i) ts.length) (by rw [drawn_kind]; exact v i (List.mem_cons_self ..))
        rw [drawn_kind] at this
        exact this
    exact key o.ps va
  · unfold regions
    rw [(plans_ptrs g q (ts ++ [t]) (h, o)).1]
    apply List.map_congr_left
    intro i hi
    rw [plans_param_heap g q _ (h, o) dd i hi, drawn_kind]

/-- **C91**: the distribution function of a uniform distribution inverts the sampling: the value drawn for the number `u` has
cumulative probability `u` -/
theorem C91_uniform_cdf (cdfN : K → K → K → K) (lo hi u : K) (lh : lo < hi) (u0 : 0 ≤ u) (u1 : u < 1) :
    cdf cdfN (.uniform lo hi) (quantile q (.uniform lo hi) u) = u := by
  have p : 0 < hi - lo := by linarith
  unfold cdf quantile
  have h2 : ¬ hi ≤ u * (hi - lo) + lo := by
    have := mul_lt_mul_of_pos_right u1 p
    linarith
  by_cases c : u * (hi - lo) + lo ≤ lo
  · simp only
    rw [if_pos c]
    have : u * (hi - lo) ≤ 0 := by linarith
    by_contra ne
    have : 0 < u := lt_of_le_of_ne u0 ne
    have := mul_pos this p
    linarith
  · simp only
    rw [if_neg c, if_neg h2]
    field_simp
    ring

/-- **C91** violated by `FixedValue`: every sample is at most the fixed value, yet the reported cumulative probability of every value is 0 -/
theorem C91_fixed_cdf_violated (cdfN : K → K → K → K) (v : K) (r : R) :
    (∀ n, stream g q ⟨.fixed v, r⟩ n ≤ v) ∧ ∀ x, cdf cdfN (.fixed v) x = 0 :=
  ⟨fun n => by rw [stream_fixed g q _ v rfl], fun _ => rfl⟩

end

/-! ### a concrete case: engine counting 0, 1/4, 2/4, 3/4, 0, … -/

/-- a toy engine -/
def toy : Gen Nat ℚ := ⟨fun n => ((n % 4 : ℕ) / 4, n + 1), fun s => s⟩

/-- pointers 0,1 parameters; 2,3 durations -/
def toyHeap : Heap Nat ℚ := fun i => ⟨.uniform 1 (i + 2), 0⟩

/-- a fresh model -/
def toyObj : Obj ℚ := ⟨[0, 1], [], true, .notInit, 0, 0, 0, 2, 3⟩

theorem toy_distinct : Distinct toyObj := ⟨by decide, by decide, by decide, by decide⟩

/-- hypotheses of C47, C88, C90, C91 are met; the yielding episode of duration 1 began at time 0 and ended at the call at time 1, the not
yielding one of duration 1 at time 2, the second yielding episode lasts 7/4 -/
example : Distinct toyObj ∧ toyObj.useIntent = true ∧ toyObj.intent = .notInit ∧
    (plans toy (fun m _ _ => m) [0, 1/2, 1, 3/2, 2, 3] (toyHeap, toyObj)).2.intent = .yielding ∧
    (plans toy (fun m _ _ => m) [0, 1/2, 1, 3/2] (toyHeap, toyObj)).2.intent = .noYield ∧
    (plans toy (fun m _ _ => m) [0, 1/2, 1, 3/2, 2, 3] (toyHeap, toyObj)).2.duration = 7/4 ∧
    (toy.next (toyHeap 0).gen).1 ≠ (toy.next (toy.next (toyHeap 0).gen).2).1 ∧
    (plans toy (fun m _ _ => m) [0, 1] (toyHeap, toyObj)).2.vals = [5/4, 3/2] :=
  ⟨toy_distinct, rfl, rfl, by decide +kernel, by decide +kernel, by decide +kernel, by decide +kernel, by decide +kernel⟩

/-- the toy engine yields numbers in [0,1) and valid kinds -/
example : (∀ r, 0 ≤ (toy.next r).1 ∧ (toy.next r).1 < 1) ∧ ∀ i ∈ toyObj.ps, (toyHeap i).kind.Valid := by
  constructor
  · intro r
    have h : r % 4 < 4 := Nat.mod_lt _ (by decide)
    have h' : ((r % 4 : ℕ) : ℚ) < 4 := by exact_mod_cast h
    constructor
    · exact div_nonneg (Nat.cast_nonneg _) (by norm_num)
    · show ((r % 4 : ℕ) : ℚ) / 4 < 1
      rw [div_lt_one (by norm_num)]
      exact h'
  · intro i hi
    have : i = 0 ∨ i = 1 := by simpa [toyObj] using hi
    rcases this with e | e <;> subst e <;> simp [toyHeap, Kind.Valid]

/-- two heaps whose yielding-duration engines differ -/
example : (toy.next (toyHeap 2).gen).1 ≠ (toy.next ((⟨.uniform 1 4, 1⟩ : Dist Nat ℚ)).gen).1 := by decide +kernel

end Bark.Stoch
