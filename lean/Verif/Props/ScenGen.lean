import Verif.Spec.ScenGen
import Mathlib.Algebra.Order.Archimedean.Basic
import Mathlib.Algebra.Order.Field.Rat
import Mathlib.Tactic.Linarith
import Mathlib.Tactic.Ring
import Mathlib.Tactic.NormNum

/-!
C129–C132 – configurable scenario generation.
-/
set_option linter.unusedSectionVars false
namespace Bark.Gen
open Spec

variable {S G B E D O C : Type}

/-! ### C129 -/

theorem build_rows (corr : C) :
    ∀ (i : Nat) (l : List (Row S G B E D O C)), (∀ r ∈ l, r.corridor = corr) →
    List.Forall₂ (fun (a : Agent S G B E D O C) r => Made a.id a r)
      (buildAgents corr i (l.map Row.state) (l.map Row.geometry) (l.map Row.behavior) (l.map Row.execution)
        (l.map Row.dynamic) (l.map Row.goal)) l
  | _, [], _ => by simp [buildAgents]
  | i, r :: l, h => by
    simp only [List.map_cons, buildAgents]
    refine List.Forall₂.cons ⟨rfl, rfl, rfl, rfl, rfl, rfl, rfl, (h r (by simp)).symm⟩ ?_
    exact build_rows corr (i + 1) l fun r' hr => h r' (by simp [hr])

theorem rows_exist (corr : C) : ∀ (ss : List S) (gs : List G) (bs : List B) (es : List E) (ds : List D) (os : List O)
    (cs : List Bool), gs.length = ss.length → bs.length = ss.length → es.length = ss.length → ds.length = ss.length →
    os.length = ss.length → cs.length = ss.length →
    ∃ l : List (Row S G B E D O C), l.map Row.state = ss ∧ l.map Row.geometry = gs ∧ l.map Row.behavior = bs ∧
      l.map Row.execution = es ∧ l.map Row.dynamic = ds ∧ l.map Row.goal = os ∧ l.map Row.controlled = cs ∧
      ∀ r ∈ l, r.corridor = corr
  | [], [], [], [], [], [], [], _, _, _, _, _, _ => ⟨[], rfl, rfl, rfl, rfl, rfl, rfl, rfl, by simp⟩
  | s :: ss, g :: gs, b :: bs, e :: es, d :: ds, o :: os, c :: cs, h1, h2, h3, h4, h5, h6 => by
    obtain ⟨l, a1, a2, a3, a4, a5, a6, a7, a8⟩ := rows_exist corr ss gs bs es ds os cs (by simpa using h1)
      (by simpa using h2) (by simpa using h3) (by simpa using h4) (by simpa using h5) (by simpa using h6)
    refine ⟨⟨s, g, b, e, d, o, corr, c⟩ :: l, ?_⟩
    simp only [List.map_cons, a1, a2, a3, a4, a5, a6, a7, true_and, List.mem_cons, forall_eq_or_imp]
    exact a8

theorem sourceAgents_ok {x : Source S G B E D O C} (h : Complete x) :
    sourceAgents x = .ok (buildAgents x.corridor 0 x.states x.geometries x.behaviors x.executions x.dynamics x.goals) := by
  obtain ⟨h1, h2, h3, h4, h5, h6⟩ := h
  unfold sourceAgents
  simp [h1, h2, h3, h4, h5, h6]

theorem sourceAgents_complete {x : Source S G B E D O C} {as} (h : sourceAgents x = .ok as) : Complete x := by
  unfold sourceAgents at h
  by_cases g : x.geometries.length ≠ x.states.length ∨ x.behaviors.length ≠ x.states.length ∨
    x.executions.length ≠ x.states.length ∨ x.dynamics.length ≠ x.states.length ∨
      x.goals.length ≠ x.states.length ∨ x.controlled.length ≠ x.states.length
  · simp only [if_pos g] at h
    cases h
  · push Not at g
    exact g

theorem collect_spec : ∀ {xs : List (Source S G B E D O C)} {as cs}, collect xs = .ok (as, cs) →
    ∃ ls : List (List (Row S G B E D O C)), List.Forall₂ RowsOf (xs.filter fun x => !x.states.isEmpty) ls ∧
      List.Forall₂ (fun (a : Agent S G B E D O C) r => Made a.id a r) as ls.flatten ∧
      cs = ls.flatten.map Row.controlled
  | [], as, cs, h => by
    simp only [collect, Except.ok.injEq, Prod.mk.injEq] at h
    obtain ⟨rfl, rfl⟩ := h
    exact ⟨[], by simp, by simp, rfl⟩
  | x :: xs, as, cs, h => by
    unfold collect at h
    by_cases hx : x.states = []
    · rw [if_pos hx] at h
      obtain ⟨ls, h1, h2, h3⟩ := collect_spec h
      exact ⟨ls, by simpa [hx] using h1, h2, h3⟩
    · rw [if_neg hx] at h
      cases hs : sourceAgents x with
      | error f => rw [hs] at h; cases h
      | ok a1 =>
        rw [hs] at h
        simp only at h
        cases hc : collect xs with
        | error f => rw [hc] at h; cases h
        | ok q =>
          obtain ⟨bs, ds⟩ := q
          rw [hc] at h
          simp only [Except.ok.injEq, Prod.mk.injEq] at h
          obtain ⟨rfl, rfl⟩ := h
          obtain ⟨ls, h1, h2, h3⟩ := collect_spec hc
          have hcomp := sourceAgents_complete hs
          obtain ⟨g1, g2, g3, g4, g5, g6⟩ := hcomp
          obtain ⟨l, a1', a2, a3, a4, a5, a6, a7, a8⟩ := rows_exist x.corridor x.states x.geometries x.behaviors
            x.executions x.dynamics x.goals x.controlled g1 g2 g3 g4 g5 g6
          have hb := build_rows x.corridor 0 l a8
          rw [sourceAgents_ok ⟨g1, g2, g3, g4, g5, g6⟩] at hs
          simp only [Except.ok.injEq] at hs
          rw [a1', a2, a3, a4, a5, a6, hs] at hb
          refine ⟨l :: ls, ?_, ?_, ?_⟩
          · have : (!x.states.isEmpty) = true := by simpa using hx
            rw [List.filter_cons_of_pos (by simpa using this)]
            exact List.Forall₂.cons ⟨a1', a2, a3, a4, a5, a6, a7, a8⟩ h1
          · simp only [List.flatten_cons]
            exact List.rel_append hb h2
          · simp [h3, a7]

theorem collect_total : ∀ {xs : List (Source S G B E D O C)}, (∀ x ∈ xs, x.states ≠ [] → Complete x) →
    ∃ q, collect xs = .ok q
  | [], _ => ⟨_, rfl⟩
  | x :: xs, h => by
    obtain ⟨q, hq⟩ := collect_total (xs := xs) fun y hy => h y (by simp [hy])
    unfold collect
    by_cases hx : x.states = []
    · exact ⟨q, by rw [if_pos hx, hq]⟩
    · rw [if_neg hx, sourceAgents_ok (h x (by simp) hx), hq]
      exact ⟨_, rfl⟩

theorem evalIds_mem (cs : List Bool) (i : Nat) : i ∈ evalIds cs ↔ cs[i]? = some true := by
  unfold evalIds
  rw [List.mem_map]
  constructor
  · rintro ⟨⟨b, j⟩, h, rfl⟩
    obtain ⟨h1, h2⟩ := List.mem_filter.1 h
    rw [List.mem_zipIdx_iff_getElem?] at h1
    simp only at h1 h2 ⊢
    rw [h1, h2]
  · intro h
    exact ⟨(true, i), List.mem_filter.2 ⟨List.mem_zipIdx_iff_getElem?.2 h, rfl⟩, rfl⟩

theorem evalIds_sorted (cs : List Bool) : (evalIds cs).Pairwise (· < ·) := by
  unfold evalIds
  rw [List.pairwise_map]
  refine List.Pairwise.filter _ ?_
  rw [List.pairwise_iff_getElem]
  intro i j hi hj hij
  simpa using hij

/-- **C129.** In a generated scenario the agents are the agents of all sources one after the other, each made of its own
state, shape, models, goal and road corridor; agent `i` has id `i`; and the evaluated agents are exactly those their
source wants to be controlled, in increasing order. -/
theorem C129_agents {xs : List (Source S G B E D O C)} {sc} (h : scenario xs = .ok sc) :
    ∃ ls : List (List (Row S G B E D O C)), List.Forall₂ RowsOf (xs.filter fun x => !x.states.isEmpty) ls ∧
      sc.agents.length = ls.flatten.length ∧
      (∀ (i : Nat) a, sc.agents[i]? = some a → ∃ r, ls.flatten[i]? = some r ∧ Made i a r) ∧
      (∀ i : Nat, i ∈ sc.evalAgentIds ↔ ∃ r, ls.flatten[i]? = some r ∧ r.controlled = true) ∧
      sc.evalAgentIds.Pairwise (· < ·) := by
  unfold scenario at h
  cases hc : collect xs with
  | error f => rw [hc] at h; cases h
  | ok q =>
    obtain ⟨as, cs⟩ := q
    rw [hc] at h
    simp only [Except.ok.injEq] at h
    subst h
    obtain ⟨ls, h1, h2, h3⟩ := collect_spec hc
    refine ⟨ls, h1, ?_, ?_, ?_, evalIds_sorted cs⟩
    · simp [renumber, h2.length_eq]
    · intro i a ha
      simp only [renumber, List.getElem?_map, List.getElem?_zipIdx, Option.map_eq_some_iff, Nat.zero_add] at ha
      obtain ⟨p, ⟨a0, ha0, rfl⟩, rfl⟩ := ha
      obtain ⟨hi, he⟩ := List.getElem?_eq_some_iff.1 ha0
      have hi' : i < ls.flatten.length := h2.length_eq ▸ hi
      refine ⟨ls.flatten[i], List.getElem?_eq_getElem hi', ?_⟩
      have := h2.get hi hi'
      simp only [List.get_eq_getElem, he] at this
      exact ⟨rfl, this.2⟩
    · intro i
      rw [evalIds_mem, h3, List.getElem?_map, Option.map_eq_some_iff]

/-- **C129.** Generation succeeds exactly if every source with agents has one entry per agent in each list. -/
theorem C129_succeeds {xs : List (Source S G B E D O C)} :
    (∃ sc, scenario xs = .ok sc) ↔ ∀ x ∈ xs, x.states ≠ [] → Complete x := by
  constructor
  · rintro ⟨sc, h⟩
    obtain ⟨ls, h1, -⟩ := C129_agents h
    intro x hx hne
    have hm : x ∈ xs.filter fun x => !x.states.isEmpty := by
      rw [List.mem_filter]
      exact ⟨hx, by simpa using hne⟩
    obtain ⟨i, hi, he⟩ := List.getElem_of_mem hm
    have := h1.get hi (h1.length_eq ▸ hi)
    simp only [List.get_eq_getElem, he] at this
    obtain ⟨b1, b2, b3, b4, b5, b6, b7, -⟩ := this
    refine ⟨?_, ?_, ?_, ?_, ?_, ?_⟩ <;> simp [← b1, ← b2, ← b3, ← b4, ← b5, ← b6, ← b7]
  · intro h
    obtain ⟨q, hq⟩ := collect_total h
    exact ⟨⟨renumber q.1, evalIds q.2⟩, by unfold scenario; rw [hq]⟩

/-- two sources with two agents each (and an empty one between): ids 0–3, the second agent of the last source is
evaluated -/
def demoSources : List (Source Nat Nat Nat Nat Nat Nat Nat) :=
  [⟨[10, 11], [1, 1], [2, 2], [3, 3], [4, 4], [false, false], [5, 5], 7⟩,
   ⟨[], [], [], [], [], [true], [], 9⟩,
   ⟨[20, 21], [1, 1], [2, 2], [3, 3], [4, 4], [false, true], [6, 6], 8⟩]

example : ((scenario demoSources).map fun s => s.agents.map fun a => (a.id, a.state, a.corridor)) =
    .ok [(0, 10, 7), (1, 11, 7), (2, 20, 8), (3, 21, 8)] := by decide

example : ((scenario demoSources).map fun s => s.evalAgentIds) = .ok [3] := by decide

/-! ### C130 -/

section Place
variable {K : Type} [Field K] [LinearOrder K] [IsStrictOrderedRing K] {P : Type}

theorem uniform_bounds {r : K × K} {u : K} (h : r.1 ≤ r.2) (h0 : 0 ≤ u) (h1 : u ≤ 1) :
    r.1 ≤ uniform r u ∧ uniform r u ≤ r.2 := by
  unfold uniform
  have hd : 0 ≤ r.2 - r.1 := sub_nonneg.2 h
  constructor
  · have := mul_nonneg hd h0
    linarith
  · have := mul_le_mul_of_nonneg_left h1 hd
    linarith

theorem place_succ (len : K) (dist vel : K × K) (u : Nat → K) (pose : K → P) (hi : K) (fuel : Nat) (s : K) (k : Nat) :
    place len dist vel u pose hi (fuel + 1) s k = if s < hi then
      match place len dist vel u pose hi fuel (s + (len + uniform dist (u (k + 1)))) (k + 2) with
      | .ok (l, k') => .ok (⟨s, pose s, uniform vel (u k)⟩ :: l, k')
      | .error f => .error f
    else .ok ([], k) := rfl

theorem place_spec {len : K} {dist vel : K × K} {u : Nat → K} {pose : K → P} {hi : K} (hd : dist.1 ≤ dist.2)
    (hv : vel.1 ≤ vel.2) (hu : ∀ n, 0 ≤ u n ∧ u n ≤ 1) : ∀ {fuel : Nat} {s : K} {k : Nat} {l k'},
    place len dist vel u pose hi fuel s k = .ok (l, k') →
    (∀ a ∈ l, a.s < hi ∧ a.pose = pose a.s ∧ vel.1 ≤ a.velocity ∧ a.velocity ≤ vel.2) ∧
    l.IsChain (fun a b => len + dist.1 ≤ b.s - a.s ∧ b.s - a.s ≤ len + dist.2) ∧
    (∀ a, l.head? = some a → a.s = s) ∧ (l = [] ↔ hi ≤ s) ∧
    (∀ a, l.getLast? = some a → hi ≤ a.s + (len + dist.2))
  | 0, _, _, _, _, h => by cases h
  | fuel + 1, s, k, l, k', h => by
    rw [place_succ] at h
    by_cases g : s < hi
    · rw [if_pos g] at h
      cases hr : place len dist vel u pose hi fuel (s + (len + uniform dist (u (k + 1)))) (k + 2) with
      | error f => rw [hr] at h; cases h
      | ok q =>
        obtain ⟨l', k2⟩ := q
        rw [hr] at h
        simp only [Except.ok.injEq, Prod.mk.injEq] at h
        obtain ⟨rfl, rfl⟩ := h
        obtain ⟨h1, h2, h3, h4, h5⟩ := place_spec hd hv hu hr
        have hb := uniform_bounds hd (hu (k + 1)).1 (hu (k + 1)).2
        have hvb := uniform_bounds hv (hu k).1 (hu k).2
        refine ⟨?_, ?_, ?_, ?_, ?_⟩
        · intro a ha
          rcases List.mem_cons.1 ha with rfl | ha
          · exact ⟨g, rfl, hvb⟩
          · exact h1 a ha
        · cases l' with
          | nil => simp
          | cons b l2 =>
            refine List.isChain_cons_cons.2 ⟨?_, h2⟩
            rw [h3 b rfl]
            simp only
            constructor <;> linarith [hb.1, hb.2]
        · intro a ha
          simp only [List.head?_cons, Option.some.injEq] at ha
          rw [← ha]
        · exact ⟨fun e => by simp at e, fun e => absurd g (not_lt.2 e)⟩
        · intro a ha
          cases l' with
          | nil =>
            simp only [List.getLast?_singleton, Option.some.injEq] at ha
            rw [← ha]
            have := h4.1 rfl
            simp only
            linarith [hb.2]
          | cons b l2 =>
            rw [List.getLast?_cons_cons] at ha
            exact h5 a ha
    · rw [if_neg g] at h
      simp only [Except.ok.injEq, Prod.mk.injEq] at h
      obtain ⟨rfl, rfl⟩ := h
      exact ⟨by simp, by simp, by simp, by simpa using not_lt.1 g, by simp⟩

theorem place_terminates [Archimedean K] {len : K} {dist vel : K × K} {u : Nat → K} {pose : K → P} {hi : K}
    (hd : dist.1 ≤ dist.2) (hu : ∀ n, 0 ≤ u n ∧ u n ≤ 1) (hpos : 0 < len + dist.1) (s : K) (k : Nat) :
    ∃ n, ∀ fuel, n ≤ fuel → ∃ q, place len dist vel u pose hi fuel s k = .ok q := by
  obtain ⟨m, hm⟩ := Archimedean.arch (hi - s) hpos
  have key : ∀ (m : Nat) (s : K) (k : Nat), hi - s ≤ m • (len + dist.1) → ∀ fuel, m + 1 ≤ fuel →
      ∃ q, place len dist vel u pose hi fuel s k = .ok q := by
    intro m
    induction m with
    | zero =>
      intro s k h fuel hf
      obtain ⟨f', rfl⟩ := Nat.exists_eq_add_of_le' hf
      rw [place_succ, if_neg (by simpa using h)]
      exact ⟨_, rfl⟩
    | succ m ih =>
      intro s k h fuel hf
      obtain ⟨f', rfl⟩ := Nat.exists_eq_add_of_le' (show 1 ≤ fuel by omega)
      rw [place_succ]
      by_cases g : s < hi
      · rw [if_pos g]
        have hb := uniform_bounds hd (hu (k + 1)).1 (hu (k + 1)).2
        obtain ⟨q, hq⟩ := ih (s + (len + uniform dist (u (k + 1)))) (k + 2) (by
          rw [succ_nsmul] at h
          linarith [hb.1]) f' (by omega)
        rw [hq]
        exact ⟨_, rfl⟩
      · rw [if_neg g]
        exact ⟨_, rfl⟩
  exact ⟨m + 1, key m s k hm⟩

/-- **C130.** Vehicles placed along a lane: each stands in the configured part of the lane on the center line with a
velocity from the configured range; the first at its beginning; the distance between the reference points of neighbours
is the vehicle length plus a distance from the configured range; and the lane is filled up. -/
theorem C130_placed {len : K} {dist vel srange : K × K} {u : Nat → K} {fuel : Nat} {l : Lane K P} {k : Nat} {as k'}
    (hd : dist.1 ≤ dist.2) (hv : vel.1 ≤ vel.2) (hu : ∀ n, 0 ≤ u n ∧ u n ≤ 1)
    (h : alongLane len dist vel srange u fuel l k = .ok (as, k')) :
    (∀ a ∈ as, a.s < srange.2 * l.length ∧ a.pose = l.pose a.s ∧ vel.1 ≤ a.velocity ∧ a.velocity ≤ vel.2) ∧
    as.IsChain (fun a b => len + dist.1 ≤ b.s - a.s ∧ b.s - a.s ≤ len + dist.2) ∧
    (∀ a, as.head? = some a → a.s = srange.1 * l.length) ∧ (as = [] ↔ srange.2 * l.length ≤ srange.1 * l.length) ∧
    (∀ a, as.getLast? = some a → srange.2 * l.length ≤ a.s + (len + dist.2)) :=
  place_spec hd hv hu h

/-- **C130.** Any two vehicles on a lane are at least a vehicle length plus the smallest distance apart. -/
theorem C130_no_overlap {len : K} {dist vel srange : K × K} {u : Nat → K} {fuel : Nat} {l : Lane K P} {k : Nat} {as k'}
    (hd : dist.1 ≤ dist.2) (hv : vel.1 ≤ vel.2) (hu : ∀ n, 0 ≤ u n ∧ u n ≤ 1) (hpos : 0 ≤ len + dist.1)
    (h : alongLane len dist vel srange u fuel l k = .ok (as, k')) :
    as.Pairwise fun a b => len + dist.1 ≤ b.s - a.s := by
  have hc := (place_spec hd hv hu h).2.1
  have hc' : as.IsChain fun a b => len + dist.1 ≤ b.s - a.s := hc.imp fun a b hab => hab.1
  haveI : IsTrans (Placed K P) (fun a b => len + dist.1 ≤ b.s - a.s) := ⟨fun a b c h1 h2 => by linarith⟩
  exact hc'.pairwise

/-- **C130.** Placing ends for every sequence of samples if vehicle length plus smallest distance is positive. -/
theorem C130_terminates [Archimedean K] {len : K} {dist vel srange : K × K} {u : Nat → K} {l : Lane K P} {k : Nat}
    (hd : dist.1 ≤ dist.2) (hu : ∀ n, 0 ≤ u n ∧ u n ≤ 1) (hpos : 0 < len + dist.1) :
    ∃ n, ∀ fuel, n ≤ fuel → ∃ q, alongLane len dist vel srange u fuel l k = .ok q :=
  place_terminates hd hu hpos _ _

/-- **C130, not ending:** a distance range that takes back the vehicle length never ends. -/
theorem C130_diverges_violated (len : K) (vel srange : K × K) (u : Nat → K) (l : Lane K P) (k : Nat)
    (h : srange.1 * l.length < srange.2 * l.length) (fuel : Nat) :
    alongLane len (-len, -len) vel srange u fuel l k = .error .diverges := by
  unfold alongLane
  generalize srange.1 * l.length = s at h
  generalize srange.2 * l.length = hi at h
  induction fuel generalizing k with
  | zero => rfl
  | succ f ih =>
    rw [place_succ, if_pos h]
    have : s + (len + uniform (-len, -len) (u (k + 1))) = s := by
      unfold uniform
      simp
    rw [this, ih]

end Place

/-- a lane of 100 m -/
def demoLane : Lane ℚ ℚ := ⟨100, fun s => s⟩

/-- samples 1/2 throughout: two vehicles of 5 m, 15 m apart, between 10 m and 40 m -/
example : ((alongLane (K := ℚ) 5 (10, 20) (20, 30) (1 / 10, 2 / 5) (fun _ => 1 / 2) 10 demoLane 0).map fun q =>
    q.1.map fun a => (a.s, a.velocity)) = .ok [(10, 25), (30, 25)] := by decide +kernel

/-- **C130, unit violated:** the velocity range is documented in km/h but used as m/s: "36 km/h" becomes 36 m/s. -/
theorem C130_velocity_unit_violated : ∃ (as : List (Placed ℚ ℚ)) (k' : Nat),
    alongLane (K := ℚ) 5 (10, 20) (36, 36) (1 / 10, 2 / 5) (fun _ => 1 / 2) 10 demoLane 0 = .ok (as, k') ∧
    as ≠ [] ∧ ∀ a ∈ as, a.velocity = 36 := by
  have h : ∃ q, alongLane (K := ℚ) 5 (10, 20) (36, 36) (1 / 10, 2 / 5) (fun _ => 1 / 2) 10 demoLane 0 = .ok q :=
    ⟨([⟨10, 10, 36⟩, ⟨30, 30, 36⟩], 4), by decide +kernel⟩
  obtain ⟨⟨as, k'⟩, hq⟩ := h
  have hs := C130_placed (by norm_num) (by norm_num) (fun _ => by norm_num) hq
  refine ⟨as, k', hq, ?_, ?_⟩
  · intro e
    have := hs.2.2.2.1.1 e
    norm_num [demoLane] at this
  · intro a ha
    have := hs.1 a ha
    exact le_antisymm this.2.2.2 this.2.2.1

end Bark.Gen
