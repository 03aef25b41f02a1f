import Verif.Props.CorridorPart
import Verif.Props.CorridorLinks

/-!
C53: nearest lane corridor; C69: left and right lane corridors.
-/
set_option linter.unusedSectionVars false
namespace Bark.Cor
open Spec
variable {K : Type} [LinearOrder K]

theorem nearestLoop_spec (d : Nat → K) : ∀ (l : List Nat) (b : Option (K × Nat)),
    (∀ x, b = some x → x.1 = d x.2) →
    (nearestLoop d l b = none ↔ l = [] ∧ b = none) ∧
    ∀ x, nearestLoop d l b = some x → x.1 = d x.2 ∧ (x.2 ∈ l ∨ b = some x) ∧ (∀ c ∈ l, d x.2 ≤ d c) ∧
      ∀ y, b = some y → d x.2 ≤ d y.2 := by
  intro l
  induction l with
  | nil =>
    intro b hb
    simp only [nearestLoop, true_and]
    intro x hx
    refine ⟨hb x hx, .inr hx, by simp, fun y hy => ?_⟩
    rw [hx] at hy; cases hy; exact le_refl _
  | cons c l ih =>
    intro b hb
    cases b with
    | none =>
      simp only [nearestLoop]
      obtain ⟨h1, h2⟩ := ih (some (d c, c)) (by rintro x hx; cases hx; rfl)
      refine ⟨by rw [h1]; simp, fun x hx => ?_⟩
      obtain ⟨e1, e2, e3, e4⟩ := h2 x hx
      have e5 := e4 _ rfl
      refine ⟨e1, ?_, ?_, by simp⟩
      · rcases e2 with e2 | e2
        · exact .inl (List.mem_cons_of_mem _ e2)
        · cases e2; exact .inl (by simp)
      · intro y hy
        rcases List.mem_cons.1 hy with rfl | hy
        · exact e5
        · exact e3 y hy
    | some y =>
      have hy := hb y rfl
      simp only [nearestLoop]
      by_cases hc : d c < y.1
      · rw [if_pos hc]
        obtain ⟨h1, h2⟩ := ih (some (d c, c)) (by rintro x hx; cases hx; rfl)
        refine ⟨by rw [h1]; simp, fun x hx => ?_⟩
        obtain ⟨e1, e2, e3, e4⟩ := h2 x hx
        have e5 := e4 _ rfl
        simp only at e5
        refine ⟨e1, ?_, ?_, ?_⟩
        · rcases e2 with e2 | e2
          · exact .inl (List.mem_cons_of_mem _ e2)
          · cases e2; exact .inl (by simp)
        · intro z hz
          rcases List.mem_cons.1 hz with rfl | hz
          · exact e5
          · exact e3 z hz
        · intro z hz; cases hz
          exact le_trans e5 (hy ▸ hc.le)
      · rw [if_neg hc]
        obtain ⟨h1, h2⟩ := ih (some y) hb
        refine ⟨by rw [h1]; simp, fun x hx => ?_⟩
        obtain ⟨e1, e2, e3, e4⟩ := h2 x hx
        have e5 := e4 _ rfl
        refine ⟨e1, ?_, ?_, e4⟩
        · rcases e2 with e2 | e2
          · exact .inl (List.mem_cons_of_mem _ e2)
          · exact .inr e2
        · intro z hz
          rcases List.mem_cons.1 hz with rfl | hz
          · exact le_trans e5 (hy ▸ (not_lt.1 hc))
          · exact e3 z hz

/-- C53: there is no nearest lane corridor exactly when there is no lane corridor; if the point lies in corridors, the first of
them in the list is returned; otherwise one with the smallest lateral distance. -/
theorem C53_nearest (s : RC K) (hit : Nat → Bool) (d : Nat → K) :
    (nearestLC s hit d = none ↔ s.unique = []) ∧
    ∀ c, nearestLC s hit d = some c →
      (hit c = true ∧ ∃ pre post, s.unique = pre ++ c :: post ∧ ∀ x ∈ pre, hit x = false) ∨
      ((∀ x ∈ s.unique, hit x = false) ∧ c ∈ s.unique ∧ ∀ x ∈ s.unique, d c ≤ d x) := by
  unfold nearestLC currentLC
  cases hf : s.unique.find? hit with
  | some c =>
    obtain ⟨h1, pre, post, h2, h3⟩ := List.find?_eq_some_iff_append.1 hf
    refine ⟨by simp [h2], fun c' hc => ?_⟩
    cases hc
    exact .inl ⟨h1, pre, post, h2, fun x hx => by simpa using h3 x hx⟩
  | none =>
    have hno := List.find?_eq_none.1 hf
    obtain ⟨h1, h2⟩ := nearestLoop_spec d s.unique none (by simp)
    simp only
    constructor
    · rw [Option.map_eq_none_iff, h1]; simp
    · intro c hc
      right
      obtain ⟨x, hx, rfl⟩ := Option.map_eq_some_iff.1 hc
      obtain ⟨e1, e2, e3, -⟩ := h2 x hx
      refine ⟨fun y hy => by simpa using hno y hy, ?_, e3⟩
      rcases e2 with e2 | e2
      · exact e2
      · cases e2

theorem nearestIdxLoop_eq (d : Nat → K) : ∀ (l : List Nat) (i : Nat) (b : Option (K × Nat × Nat)),
    (nearestIdxLoop d l i b).map (fun x => (x.1, x.2.1)) = nearestLoop d l (b.map (fun x => (x.1, x.2.1))) ∧
    ∀ x, nearestIdxLoop d l i b = some x → b = some x ∨ (i ≤ x.2.2 ∧ l[x.2.2 - i]? = some x.2.1) := by
  intro l
  induction l with
  | nil => intro i b; simp [nearestIdxLoop, nearestLoop]
  | cons c l ih =>
    intro i b
    have step : ∀ (x y : K × Nat × Nat), some y = some x → y = (d c, c, i) → i ≤ x.2.2 ∧ (c :: l)[x.2.2 - i]? = some x.2.1 := by
      rintro x y h rfl; cases h; simp
    have later : ∀ x : K × Nat × Nat, (i + 1 ≤ x.2.2 ∧ l[x.2.2 - (i + 1)]? = some x.2.1) →
        i ≤ x.2.2 ∧ (c :: l)[x.2.2 - i]? = some x.2.1 := by
      rintro x ⟨h1, h2⟩
      refine ⟨by omega, ?_⟩
      obtain ⟨k, hk⟩ : ∃ k, x.2.2 - i = k + 1 := ⟨x.2.2 - i - 1, by omega⟩
      rw [hk, List.getElem?_cons_succ]
      rw [show x.2.2 - (i + 1) = k by omega] at h2
      exact h2
    cases b with
    | none =>
      simp only [nearestIdxLoop, Option.map_none, nearestLoop]
      obtain ⟨h1, h2⟩ := ih (i + 1) (some (d c, c, i))
      refine ⟨h1, fun x hx => .inr ?_⟩
      rcases h2 x hx with h | h
      · exact step x _ h rfl
      · exact later x h
    | some y =>
      simp only [nearestIdxLoop, Option.map_some, nearestLoop]
      by_cases hc : d c < y.1
      · rw [if_pos hc, if_pos hc]
        obtain ⟨h1, h2⟩ := ih (i + 1) (some (d c, c, i))
        refine ⟨h1, fun x hx => .inr ?_⟩
        rcases h2 x hx with h | h
        · exact step x _ h rfl
        · exact later x h
      · rw [if_neg hc, if_neg hc]
        obtain ⟨h1, h2⟩ := ih (i + 1) (some y)
        refine ⟨h1, fun x hx => ?_⟩
        rcases h2 x hx with h | h
        · exact .inl h
        · exact .inr (later x h)

/-- C53: the query with index returns the same corridor, and its position in the list. -/
theorem C53_index (s : RC K) (hit : Nat → Bool) (d : Nat → K) :
    (nearestLCIdx s hit d).map Prod.fst = nearestLC s hit d ∧
    ∀ c i, nearestLCIdx s hit d = some (c, i) → s.unique[i]? = some c := by
  unfold nearestLCIdx nearestLC currentLCIdx currentLC
  cases hf : s.unique.findIdx? hit with
  | none =>
    have : s.unique.find? hit = none := by
      rw [List.find?_eq_none]
      intro x hx
      rw [List.findIdx?_eq_none_iff] at hf
      simpa using hf x hx
    rw [this]
    simp only [Option.bind_none]
    obtain ⟨h1, h2⟩ := nearestIdxLoop_eq d s.unique 0 none
    simp only [Option.map_none] at h1
    rw [← h1]
    refine ⟨by simp [Option.map_map, Function.comp_def], ?_⟩
    intro c i h
    obtain ⟨x, hx, e⟩ := Option.map_eq_some_iff.1 h
    rcases h2 x hx with h | h
    · cases h
    · rw [e] at h; simpa using h.2
  | some i =>
    obtain ⟨hlt, h1, h2⟩ := List.findIdx?_eq_some_iff_getElem.1 hf
    have hget : s.unique[i]? = some s.unique[i] := List.getElem?_eq_getElem hlt
    have hfind : s.unique.find? hit = some s.unique[i] := by
      rw [List.find?_eq_some_iff_append]
      refine ⟨h1, s.unique.take i, s.unique.drop (i + 1), ?_, ?_⟩
      · rw [← List.drop_eq_getElem_cons hlt, List.take_append_drop]
      · intro a ha
        obtain ⟨j, hj, e⟩ := List.mem_iff_getElem.1 ha
        have hji : j < i := by simp at hj; omega
        have := h2 j hji
        rw [← e, List.getElem_take]
        simpa using this
    rw [hfind]
    simp only [Option.bind_some, hget, Option.map_some]
    refine ⟨trivial, ?_⟩
    intro c j h
    cases h
    exact hget

/-- C69: if the point lies in a lane of the first corridor around it, the neighbouring corridors are those of the lane's left and
right lane, and there is none on a side without lane (provided no lane has the id the code uses for "none"). -/
theorem C69_left_right (rs : CRoads) (s : RC K) (hit : Nat → Bool) (inLane : Ptr → Bool)
    (hid : laneCorridor s 10000000 = none) {c : Nat} (hc : s.unique.find? hit = some c) {p : Ptr} {l : CLane}
    (hp : (lanesOf s c).find? inLane = some p) (hl : laneAt rs p = some l) :
    (leftRightLC rs s hit inLane).1 = l.left.bind (laneCorridor s) ∧
    (leftRightLC rs s hit inLane).2 = l.right.bind (laneCorridor s) := by
  unfold leftRightLC currentLC currentLane
  unfold lanesOf at hp
  rw [hc]
  simp only
  rw [hp]
  simp only [Option.bind_some]
  rw [hl]
  simp only
  constructor
  · cases l.left with
    | none => exact hid
    | some j => rfl
  · cases l.right with
    | none => exact hid
    | some j => rfl

/-- C69: a point in no corridor has no neighbouring corridors. -/
theorem C69_outside (rs : CRoads) (s : RC K) (hit : Nat → Bool) (inLane : Ptr → Bool) (h : ∀ c ∈ s.unique, hit c = false) :
    leftRightLC rs s hit inLane = (none, none) := by
  unfold leftRightLC currentLC
  have : s.unique.find? hit = none := by
    rw [List.find?_eq_none]
    intro x hx
    rw [h x hx]; simp
  rw [this]

/-- C69 violation: a corridor that contains the point only on its border (the corridor is found by touching, its lane by strict
containment) has no neighbours, although the lane has a left lane with a corridor. -/
theorem C69_border_violated :
    ∃ (rs : CRoads) (s : RC Nat), Valid rs ∧ calcAll rs (fun l => l.length) 3 1 = .ok s ∧ laneCorridor s 11 = some 0 ∧
      (∃ l, IsLane rs (1, 11) l ∧ l.left = some 12) ∧ laneCorridor s 12 = some 1 ∧
      leftRightLC rs s (fun c => c == 0) (fun _ => false) = (none, none) := by
  let rs : CRoads := [(1, [(11, ⟨-2, true, .forward, some 12, none, none⟩), (12, ⟨-1, true, .forward, none, some 11, none⟩)])]
  have hv : Valid rs := by
    refine ⟨by simp [rs, OMap.Sorted], ?_, ?_, ?_⟩
    · intro r ls h
      simp only [rs, List.mem_singleton, Prod.mk.injEq] at h
      obtain ⟨-, rfl⟩ := h
      simp [OMap.Sorted]
    · rintro p q l l' ⟨ls, h1, -⟩ ⟨ls', h2, -⟩ e
      simp only [rs, List.mem_singleton, Prod.mk.injEq] at h1 h2
      exact Prod.ext (h1.1.trans h2.1.symm) e
    · rintro p l q ⟨ls, h1, h2⟩ hn
      simp only [rs, List.mem_singleton, Prod.mk.injEq] at h1
      obtain ⟨-, rfl⟩ := h1
      simp only [List.mem_cons, Prod.mk.injEq, List.not_mem_nil, or_false] at h2
      rcases h2 with ⟨-, rfl⟩ | ⟨-, rfl⟩ <;> cases hn
  exact ⟨rs, _, hv, rfl, rfl, ⟨_, ⟨_, List.mem_singleton.2 rfl, List.mem_cons_self⟩, rfl⟩, rfl, rfl⟩

/-- a route through the demo map meets the hypotheses of the C35 and C69 theorems; its corridors are the expected ones -/
example : ∃ g rs s, RG.generate (RG.demo 2) = .ok g ∧ corridorRoads (RG.demo 2) g [1, 2] = .ok rs ∧
    calcAll rs (fun l => l.length) 5 1 = .ok s ∧ s.unique = [0, 1, 2] ∧
    lanesOf s 0 = [(1, 1), (2, 5)] ∧ lanesOf s 1 = [(1, 3), (2, 7)] ∧ lanesOf s 2 = [(1, 4), (2, 8)] ∧
    laneCorridor s 8 = some 2 ∧ leftRightLC rs s (fun c => c == 1) (fun p => p.2 == 3) = (some 0, some 2) := by
  obtain ⟨g, hg⟩ := RG.C32_generation_succeeds (RG.demo_wellFormed (second := 2) (by omega)) (RG.demo_complete 2)
  have hcomp : (((RG.generate (RG.demo 2)).toOption.bind (fun g => (corridorRoads (RG.demo 2) g [1, 2]).toOption)).bind
      (fun rs => (calcAll rs (fun l => l.length) 5 1).toOption.map (fun s => (s.unique, lanesOf s 0, lanesOf s 1, lanesOf s 2,
        laneCorridor s 8, leftRightLC rs s (fun c => c == 1) (fun p => p.2 == 3))))) =
      some ([0, 1, 2], [(1, 1), (2, 5)], [(1, 3), (2, 7)], [(1, 4), (2, 8)], some 2, (some 0, some 2)) := by rfl
  rw [hg] at hcomp
  simp only [Except.toOption, Option.bind_some] at hcomp
  cases hr : corridorRoads (RG.demo 2) g [1, 2] with
  | error e => rw [hr] at hcomp; cases hcomp
  | ok rs =>
    rw [hr] at hcomp
    simp only [Option.bind_some] at hcomp
    cases hs : calcAll rs (fun l => l.length) 5 1 with
    | error e => rw [hs] at hcomp; exact absurd hcomp (by simp)
    | ok s =>
      rw [hs] at hcomp
      simp only [Option.map_some, Option.some.injEq, Prod.mk.injEq] at hcomp
      obtain ⟨h1, h2, h3, h4, h5, h6⟩ := hcomp
      exact ⟨g, rs, s, hg, hr, hs, h1, h2, h3, h4, h5, h6⟩

end Bark.Cor
