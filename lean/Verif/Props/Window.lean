import Verif.Spec.Window
import Mathlib.Data.List.Nodup
import Mathlib.Tactic.Linarith
import Mathlib.Data.List.Basic
import Batteries.Data.List.Perm
import Mathlib.Tactic.Ring
import Mathlib.Tactic.Positivity

/-!
C138 – searching scenarios in recorded data with a moving window.
-/
set_option linter.unusedSectionVars false
namespace Bark.Win
open Spec

section
variable {lanesAt : Nat → Int → Res (List Nat)} {within : Nat → Int → Bool} {c : Cfg}

theorem findIds_mem {trs : List Tr} {ws we : Int} {id : Nat} : id ∈ findIds trs ws we ↔ Covers trs ws we id := by
  unfold findIds Covers
  rw [List.mem_map]
  constructor
  · rintro ⟨t, ht, rfl⟩
    rw [List.mem_filter, decide_eq_true_eq] at ht
    exact ⟨t, ht.1, rfl, ht.2.2, ht.2.1⟩
  · rintro ⟨t, h1, h2, h3, h4⟩
    exact ⟨t, by rw [List.mem_filter, decide_eq_true_eq]; exact ⟨h1, h4, h3⟩, h2⟩

theorem findIds_nodup {trs : List Tr} (h : (trs.map Tr.id).Nodup) (ws we : Int) : (findIds trs ws we).Nodup :=
  (List.Sublist.map _ List.filter_sublist).nodup h

theorem laneOf_some {ws : Int} {id p : Nat} :
    laneOf lanesAt within c ws id = .ok (some p) ↔ CountsOn lanesAt within c ws id p := by
  unfold laneOf CountsOn
  cases h : lanesAt id ws with
  | error f => simp
  | ok l =>
    cases l with
    | nil => simp
    | cons q ps =>
      simp only
      by_cases g : (c.onlyOneLane && decide (ps ≠ [])) = true
      · rw [if_pos g]
        rw [Bool.and_eq_true, decide_eq_true_eq] at g
        constructor
        · intro h'
          cases h'
        · rintro ⟨-, ps', e, hone⟩
          cases e
          exact absurd (hone g.1) g.2
      · rw [if_neg g]
        by_cases g2 : within id ws = true
        · rw [if_pos g2]
          constructor
          · intro h'
            cases h'
            refine ⟨g2, ps, rfl, ?_⟩
            intro hone
            by_contra hne
            exact g (by rw [Bool.and_eq_true, decide_eq_true_eq]; exact ⟨hone, hne⟩)
          · rintro ⟨-, ps', e, -⟩
            cases e
            rfl
        · rw [if_neg g2]
          constructor
          · intro h'
            cases h'
          · rintro ⟨h', -⟩
            exact absurd h' g2

theorem perLane_spec {ws : Int} : ∀ {ids : List Nat} {l}, perLane lanesAt within c ws ids = .ok l →
    (l.map Prod.snd).Sublist ids ∧ ∀ p id, (p, id) ∈ l ↔ id ∈ ids ∧ CountsOn lanesAt within c ws id p
  | [], l, h => by
    simp only [perLane, Except.ok.injEq] at h
    subst h
    simp
  | x :: ids, l, h => by
    unfold perLane at h
    cases ho : laneOf lanesAt within c ws x with
    | error f => rw [ho] at h; cases h
    | ok o =>
      rw [ho] at h
      simp only at h
      cases hr : perLane lanesAt within c ws ids with
      | error f => rw [hr] at h; cases h
      | ok r =>
        rw [hr] at h
        simp only [Except.ok.injEq] at h
        subst h
        obtain ⟨h1, h2⟩ := perLane_spec hr
        cases o with
        | none =>
          simp only [Option.toList, List.map_nil, List.nil_append]
          refine ⟨h1.cons _, ?_⟩
          intro p id
          rw [h2, List.mem_cons]
          constructor
          · rintro ⟨a, b⟩
            exact ⟨Or.inr a, b⟩
          · rintro ⟨rfl | a, b⟩
            · have := laneOf_some.2 b
              rw [ho] at this
              cases this
            · exact ⟨a, b⟩
        | some q =>
          simp only [Option.toList, List.map_cons, List.map_nil, List.singleton_append]
          refine ⟨h1.cons₂ _, ?_⟩
          intro p id
          rw [List.mem_cons, h2, List.mem_cons]
          constructor
          · rintro (e | ⟨a, b⟩)
            · simp only [Prod.mk.injEq] at e
              rw [e.1, e.2]
              exact ⟨Or.inl rfl, laneOf_some.1 ho⟩
            · exact ⟨Or.inr a, b⟩
          · rintro ⟨rfl | a, b⟩
            · left
              have := laneOf_some.2 b
              rw [ho] at this
              cases this
              rfl
            · exact Or.inr ⟨a, b⟩

theorem onLane_mem {l : List (Nat × Nat)} {p id : Nat} : id ∈ onLane l p ↔ (p, id) ∈ l := by
  unfold onLane
  rw [List.mem_map]
  constructor
  · rintro ⟨⟨q, i⟩, h, rfl⟩
    rw [List.mem_filter, decide_eq_true_eq] at h
    rw [← h.2]
    exact h.1
  · intro h
    exact ⟨(p, id), by rw [List.mem_filter]; exact ⟨h, by simp⟩, rfl⟩

theorem onLane_nodup {l : List (Nat × Nat)} (h : (l.map Prod.snd).Nodup) (p : Nat) : (onLane l p).Nodup :=
  (List.Sublist.map _ List.filter_sublist).nodup h

theorem pick_some {l : List (Nat × Nat)} : ∀ {ms : List Nat} {p : Nat} {r}, pick l p ms = some r →
    (∀ id, id ∈ r ↔ ∃ j : Nat, j < ms.length ∧ (p + j, id) ∈ l) ∧
    (∀ (j m : Nat), ms[j]? = some m → m ≤ (onLane l (p + j)).length)
  | [], p, r, h => by
    cases h
    simp
  | m :: ms, p, r, h => by
    unfold pick at h
    by_cases g : (onLane l p).length < m
    · rw [if_pos g] at h; cases h
    · rw [if_neg g] at h
      obtain ⟨r', hr, rfl⟩ := Option.map_eq_some_iff.1 h
      obtain ⟨a1, a2⟩ := pick_some hr
      constructor
      · intro id
        rw [List.mem_append, onLane_mem, a1]
        constructor
        · rintro (h' | ⟨j, hj, h'⟩)
          · exact ⟨0, by simp, h'⟩
          · refine ⟨j + 1, by simp; omega, ?_⟩
            rw [show p + (j + 1) = p + 1 + j by omega]
            exact h'
        · rintro ⟨j, hj, h'⟩
          cases j with
          | zero => exact Or.inl h'
          | succ j =>
            refine Or.inr ⟨j, by simp at hj; omega, ?_⟩
            rw [show p + 1 + j = p + (j + 1) by omega]
            exact h'
      · intro j m' hj
        cases j with
        | zero =>
          simp only [List.getElem?_cons_zero, Option.some.injEq] at hj
          subst hj
          exact not_lt.1 g
        | succ j =>
          rw [show p + (j + 1) = p + 1 + j by omega]
          exact a2 j m' (by simpa using hj)

theorem pick_none {l : List (Nat × Nat)} : ∀ {ms : List Nat} {p : Nat}, pick l p ms = none →
    ∃ (j m : Nat), ms[j]? = some m ∧ (onLane l (p + j)).length < m
  | [], p, h => by cases h
  | m :: ms, p, h => by
    unfold pick at h
    by_cases g : (onLane l p).length < m
    · exact ⟨0, m, rfl, g⟩
    · rw [if_neg g, Option.map_eq_none_iff] at h
      obtain ⟨j, m', h1, h2⟩ := pick_none h
      exact ⟨j + 1, m', by simpa using h1, by rw [show p + (j + 1) = p + 1 + j by omega]; exact h2⟩

/-- what a successful look at a window means -/
theorem look_some {trs : List Tr} {ws : Int} {id : Nat} {ids : List Nat} {l r} (hn : (trs.map Tr.id).Nodup)
    (hi : findIds trs ws (ws + c.windowLength) = id :: ids) (hl : perLane lanesAt within c ws (id :: ids) = .ok l)
    (hp : pick l 0 c.minimum = some r) : Enough lanesAt within c trs ws ∧
    ∀ id, id ∈ r ↔ Covers trs ws (ws + c.windowLength) id ∧
      ∃ p, p < c.minimum.length ∧ CountsOn lanesAt within c ws id p := by
  obtain ⟨h1, h2⟩ := perLane_spec hl
  obtain ⟨a1, a2⟩ := pick_some hp
  have hnd : (l.map Prod.snd).Nodup := h1.nodup (hi ▸ findIds_nodup hn _ _)
  have hcov : ∀ x, x ∈ id :: ids ↔ Covers trs ws (ws + c.windowLength) x := fun x => by rw [← hi, findIds_mem]
  refine ⟨⟨⟨id, (hcov id).1 (by simp)⟩, ?_⟩, ?_⟩
  · intro p m hm
    have := a2 p m hm
    rw [Nat.zero_add] at this
    refine ⟨onLane l p, onLane_nodup hnd p, this, ?_⟩
    intro x hx
    have := (h2 p x).1 (onLane_mem.1 hx)
    exact ⟨(hcov x).1 this.1, this.2⟩
  · intro x
    rw [a1]
    constructor
    · rintro ⟨j, hj, h'⟩
      rw [Nat.zero_add] at h'
      have := (h2 j x).1 h'
      exact ⟨(hcov x).1 this.1, j, hj, this.2⟩
    · rintro ⟨hc', p, hp', ho⟩
      exact ⟨p, hp', by rw [Nat.zero_add]; exact (h2 p x).2 ⟨(hcov x).2 hc', ho⟩⟩

/-- what an unsuccessful look means -/
theorem look_none {trs : List Tr} {ws : Int} {l} (hl : perLane lanesAt within c ws (findIds trs ws (ws + c.windowLength)) = .ok l)
    (hp : pick l 0 c.minimum = none) : ¬ Enough lanesAt within c trs ws := by
  rintro ⟨-, h⟩
  obtain ⟨-, h2⟩ := perLane_spec hl
  obtain ⟨j, m, h3, h4⟩ := pick_none hp
  rw [Nat.zero_add] at h4
  obtain ⟨ids, hn, hm, hall⟩ := h j m h3
  have hsub : ids ⊆ onLane l j := by
    intro x hx
    obtain ⟨hc', ho⟩ := hall x hx
    exact onLane_mem.2 ((h2 j x).2 ⟨findIds_mem.2 hc', ho⟩)
  have := (List.subperm_of_subset hn hsub).length_le
  omega

theorem search_spec {trs : List Tr} (hn : (trs.map Tr.id).Nodup) : ∀ {n : Nat} {ws : Int} {r ws'},
    search lanesAt within c trs n ws = .ok (r, ws') → ∃ k : Nat, ws' = ws + (k + 1) * c.skipSearch ∧
      (∀ j : Nat, j < k → ¬ Enough lanesAt within c trs (ws + (j + 1) * c.skipSearch)) ∧
      ((r = [] ∧ c.maxTime < ws' + c.windowLength) ∨
       (ws' + c.windowLength ≤ c.maxTime ∧ Enough lanesAt within c trs ws' ∧
        ∀ id, id ∈ r ↔ Covers trs ws' (ws' + c.windowLength) id ∧
          ∃ p, p < c.minimum.length ∧ CountsOn lanesAt within c ws' id p))
  | 0, ws, r, ws', h => by cases h
  | n + 1, ws, r, ws', h => by
    unfold search at h
    have step : ¬ Enough lanesAt within c trs (ws + c.skipSearch) →
        search lanesAt within c trs n (ws + c.skipSearch) = .ok (r, ws') →
        ∃ k : Nat, ws' = ws + (k + 1) * c.skipSearch ∧
          (∀ j : Nat, j < k → ¬ Enough lanesAt within c trs (ws + (j + 1) * c.skipSearch)) ∧
          ((r = [] ∧ c.maxTime < ws' + c.windowLength) ∨
           (ws' + c.windowLength ≤ c.maxTime ∧ Enough lanesAt within c trs ws' ∧
            ∀ id, id ∈ r ↔ Covers trs ws' (ws' + c.windowLength) id ∧
              ∃ p, p < c.minimum.length ∧ CountsOn lanesAt within c ws' id p)) := by
      intro hno hs
      obtain ⟨k, h1, h2, h3⟩ := search_spec hn hs
      refine ⟨k + 1, by rw [h1]; push_cast; ring, ?_, h3⟩
      intro j hj
      cases j with
      | zero =>
        have : ws + ((0 : Nat) + 1 : Int) * c.skipSearch = ws + c.skipSearch := by push_cast; ring
        rw [this]
        exact hno
      | succ j =>
        have := h2 j (by omega)
        have e : ws + ((j + 1 : Nat) + 1 : Int) * c.skipSearch = ws + c.skipSearch + (j + 1 : Int) * c.skipSearch := by
          push_cast
          ring
        rw [e]
        exact this
    by_cases g : c.maxTime < ws + c.skipSearch + c.windowLength
    · rw [if_pos g] at h
      cases h
      exact ⟨0, by push_cast; ring, fun j hj => absurd hj (Nat.not_lt_zero j), Or.inl ⟨rfl, g⟩⟩
    · rw [if_neg g] at h
      cases hi : findIds trs (ws + c.skipSearch) (ws + c.skipSearch + c.windowLength) with
      | nil =>
        rw [hi] at h
        refine step ?_ h
        rintro ⟨⟨id, hc'⟩, -⟩
        have := findIds_mem.2 hc'
        rw [hi] at this
        simp at this
      | cons id ids =>
        rw [hi] at h
        simp only at h
        cases hl : perLane lanesAt within c (ws + c.skipSearch) (id :: ids) with
        | error f => rw [hl] at h; cases h
        | ok l =>
          rw [hl] at h
          simp only at h
          cases hp : pick l 0 c.minimum with
          | none =>
            rw [hp] at h
            exact step (look_none (hi ▸ hl) hp) h
          | some r' =>
            rw [hp] at h
            cases h
            obtain ⟨b1, b2⟩ := look_some hn hi hl hp
            exact ⟨0, by push_cast; ring, fun j hj => absurd hj (Nat.not_lt_zero j), Or.inr ⟨not_lt.1 g, b1, b2⟩⟩

theorem scan_spec {fuel : Nat} : ∀ {fs : List (List Tr)} {i : Nat} {ws : Int} {f : Found},
    (∀ trs ∈ fs, (trs.map Tr.id).Nodup) →
    scan lanesAt within c fuel i fs ws = .ok f → f.ids ≠ [] ∧ i ≤ f.file ∧ ∃ (trs : List Tr) (begin_ : Int) (k : Nat),
      fs[f.file - i]? = some trs ∧ begin_ = (if f.file = i then ws else c.minTime) ∧
      f.start = begin_ + (k + 1) * c.skipSearch ∧
      (∀ j : Nat, j < k → ¬ Enough lanesAt within c trs (begin_ + (j + 1) * c.skipSearch)) ∧
      f.start + c.windowLength ≤ c.maxTime ∧ Enough lanesAt within c trs f.start ∧
      ∀ id, id ∈ f.ids ↔ Covers trs f.start (f.start + c.windowLength) id ∧
          ∃ p, p < c.minimum.length ∧ CountsOn lanesAt within c f.start id p
  | [], i, ws, f, _, h => by cases h
  | trs :: fs, i, ws, f, hn, h => by
    unfold scan at h
    cases hs : search lanesAt within c trs fuel ws with
    | error e => rw [hs] at h; cases h
    | ok q =>
      obtain ⟨ids, ws'⟩ := q
      rw [hs] at h
      simp only at h
      by_cases g : ids ≠ []
      · rw [if_pos g] at h
        cases h
        obtain ⟨k, h1, h2, h3⟩ := search_spec (hn trs (by simp)) hs
        rcases h3 with ⟨h3, -⟩ | ⟨h3, h4, h5⟩
        · exact absurd h3 g
        · exact ⟨g, le_refl _, trs, ws, k, by simp, by simp, h1, h2, h3, h4, h5⟩
      · rw [if_neg g] at h
        obtain ⟨a1, a2, trs', b, k, a3, a4, a5⟩ := scan_spec (fun t ht => hn t (by simp [ht])) h
        refine ⟨a1, by omega, trs', b, k, ?_, ?_, a5⟩
        · have : f.file - i = (f.file - (i + 1)) + 1 := by omega
          rw [this]
          simpa using a3
        · rw [if_neg (by omega), a4]
          by_cases g2 : f.file = i + 1 <;> simp [g2]

/-- **C138** (which windows are looked at: see the violations below). The first scenario: its vehicles are exactly those
recorded during the whole window that are counted on one of the configured lanes, with the wanted number on every lane;
the window ends in time and begins a number of search steps after the configured time, and no window before it in the
file would do. -/
theorem C138_first_partial {fuel : Nat} {files : List (List Tr)} {f : Found} (hn : ∀ trs ∈ files, (trs.map Tr.id).Nodup)
    (h : nextScenario lanesAt within c fuel files none = .ok f) : f.ids ≠ [] ∧ ∃ (trs : List Tr) (k : Nat),
      files[f.file]? = some trs ∧ f.start = c.minTime + (k + 1) * c.skipSearch ∧
      (∀ j : Nat, j < k → ¬ Enough lanesAt within c trs (c.minTime + (j + 1) * c.skipSearch)) ∧
      f.start + c.windowLength ≤ c.maxTime ∧ Enough lanesAt within c trs f.start ∧
      ∀ id, id ∈ f.ids ↔ Covers trs f.start (f.start + c.windowLength) id ∧
        ∃ p, p < c.minimum.length ∧ CountsOn lanesAt within c f.start id p := by
  obtain ⟨a1, -, trs, b, k, a3, a4, a5⟩ := scan_spec hn h
  rw [ite_self] at a4
  subst a4
  exact ⟨a1, trs, k, by simpa using a3, a5⟩

/-- **C138, later scenarios** are in a later file, or in the same one in a later window (for positive search steps and
no negative step between scenarios); in the same file no window in between would do. -/
theorem C138_next_partial {fuel : Nat} {files : List (List Tr)} {i : Nat} {ws : Int} {f : Found}
    (hn : ∀ trs ∈ files, (trs.map Tr.id).Nodup) (hs : 0 < c.skipSearch) (hc : 0 ≤ c.skipScenarios)
    (h : nextScenario lanesAt within c fuel files (some (i, ws)) = .ok f) :
    f.ids ≠ [] ∧ (i < f.file ∨ (f.file = i ∧ ws + c.skipScenarios < f.start)) ∧
    ∃ trs, files[f.file]? = some trs ∧ Enough lanesAt within c trs f.start ∧
      (f.file = i → ∀ j : Nat, ws + c.skipScenarios + (j + 1) * c.skipSearch < f.start →
        ¬ Enough lanesAt within c trs (ws + c.skipScenarios + (j + 1) * c.skipSearch)) := by
  obtain ⟨a1, a2, trs, b, k, a3, a4, a5, a6, a7, a8, a9⟩ :=
    scan_spec (fs := files.drop i) (fun t ht => hn t (List.mem_of_mem_drop ht)) h
  rw [List.getElem?_drop] at a3
  have e : i + (f.file - i) = f.file := by omega
  rw [e] at a3
  refine ⟨a1, ?_, trs, a3, a8, ?_⟩
  · by_cases g : f.file = i
    · right
      rw [if_pos g] at a4
      subst a4
      refine ⟨g, ?_⟩
      rw [a5]
      have : 0 < ((k : Int) + 1) * c.skipSearch := by positivity
      omega
    · left
      omega
  · intro g j hj
    rw [if_pos g] at a4
    subst a4
    apply a6
    rw [a5] at hj
    have : ((j : Int) + 1) * c.skipSearch < ((k : Int) + 1) * c.skipSearch := by omega
    have := lt_of_mul_lt_mul_right this hs.le
    omega

/-- **C138 violated:** the window at the configured time itself is never looked at. -/
theorem C138_first_window_violated {fuel : Nat} {files : List (List Tr)} {f : Found}
    (hn : ∀ trs ∈ files, (trs.map Tr.id).Nodup) (hs : 0 < c.skipSearch)
    (h : nextScenario lanesAt within c fuel files none = .ok f) : c.minTime < f.start := by
  obtain ⟨-, trs, k, -, h1, -⟩ := C138_first_partial hn h
  rw [h1]
  have : 0 < ((k : Int) + 1) * c.skipSearch := by positivity
  omega

/-- **C138 violated:** a vehicle on a lane for which no minimum is configured is left out, although it is there. -/
theorem C138_further_lanes_violated {fuel : Nat} {files : List (List Tr)} {f : Found}
    (hn : ∀ trs ∈ files, (trs.map Tr.id).Nodup) (h : nextScenario lanesAt within c fuel files none = .ok f)
    {id p : Nat} (hp : c.minimum.length ≤ p) (hc : CountsOn lanesAt within c f.start id p) : id ∉ f.ids := by
  obtain ⟨-, trs, k, -, -, -, -, -, h5⟩ := C138_first_partial hn h
  intro hm
  obtain ⟨-, q, hq, -, ps, e, -⟩ := (h5 id).1 hm
  obtain ⟨-, ps', e', -⟩ := hc
  rw [e] at e'
  cases e'
  omega

/-- **C138 violated:** a window with vehicles none of which is counted is taken for the end of the file if no vehicles
are required: later windows are not looked at. -/
theorem C138_empty_window_violated {fuel : Nat} {trs : List Tr} (hmin : ∀ m ∈ c.minimum, m = 0)
    (hmax : c.minTime + c.skipSearch + c.windowLength ≤ c.maxTime)
    (hcov : ∃ id, Covers trs (c.minTime + c.skipSearch) (c.minTime + c.skipSearch + c.windowLength) id)
    (hoff : ∀ id, lanesAt id (c.minTime + c.skipSearch) = .ok []) :
    nextScenario lanesAt within c (fuel + 1) [trs] none = .error .thrown := by
  have hper : ∀ ids : List Nat, perLane lanesAt within c (c.minTime + c.skipSearch) ids = .ok [] := by
    intro ids
    induction ids with
    | nil => rfl
    | cons x ids ih =>
      unfold perLane
      have : laneOf lanesAt within c (c.minTime + c.skipSearch) x = .ok none := by
        unfold laneOf
        rw [hoff]
      rw [this]
      simp only [ih]
      rfl
  have hpick : ∀ (ms : List Nat) (p : Nat), (∀ m ∈ ms, m = 0) → pick [] p ms = some [] := by
    intro ms
    induction ms with
    | nil => exact fun _ _ => rfl
    | cons m ms ih =>
      intro p hm
      unfold pick
      rw [hm m (by simp), if_neg (Nat.not_lt_zero _), ih _ fun x hx => hm x (by simp [hx])]
      rfl
  have hsearch : search lanesAt within c trs (fuel + 1) c.minTime = .ok ([], c.minTime + c.skipSearch) := by
    unfold search
    rw [if_neg (not_lt.2 hmax)]
    obtain ⟨id, hid⟩ := hcov
    have := findIds_mem.2 hid
    cases hi : findIds trs (c.minTime + c.skipSearch) (c.minTime + c.skipSearch + c.windowLength) with
    | nil => rw [hi] at this; simp at this
    | cons x ids =>
      simp only [hper, hpick c.minimum 0 hmin]
  unfold nextScenario scan
  rw [hsearch]
  simp [scan]

/-- **C138, ending.** With positive search steps, and recorded states at the beginnings of the windows, the search ends. -/
theorem C138_terminates (hs : 0 < c.skipSearch) (hl : ∀ id t, ∃ l, lanesAt id t = .ok l) (trs : List Tr) (ws : Int) :
    ∃ n, ∀ fuel, n ≤ fuel → ∃ q, search lanesAt within c trs fuel ws = .ok q := by
  have hper : ∀ (w : Int) (ids : List Nat), ∃ l, perLane lanesAt within c w ids = .ok l := by
    intro w ids
    induction ids with
    | nil => exact ⟨[], rfl⟩
    | cons x ids ih =>
      obtain ⟨r, hr⟩ := ih
      obtain ⟨l, hl'⟩ := hl x w
      have : ∃ o, laneOf lanesAt within c w x = .ok o := by
        unfold laneOf
        rw [hl']
        cases l with
        | nil => exact ⟨_, rfl⟩
        | cons p ps =>
          simp only
          split
          · exact ⟨_, rfl⟩
          · split <;> exact ⟨_, rfl⟩
      obtain ⟨o, ho⟩ := this
      unfold perLane
      rw [ho]
      simp only [hr]
      exact ⟨_, rfl⟩
  have main : ∀ (n : Nat) (w : Int), c.maxTime < w + c.windowLength + n * c.skipSearch →
      ∀ fuel, n ≤ fuel → 0 < fuel → ∃ q, search lanesAt within c trs fuel w = .ok q := by
    intro n
    induction n with
    | zero =>
      intro w hw fuel _ hf
      cases fuel with
      | zero => omega
      | succ fuel =>
        refine ⟨([], w + c.skipSearch), ?_⟩
        unfold search
        rw [if_pos (by push_cast at hw; omega)]
    | succ n ih =>
      intro w hw fuel hf hf0
      cases fuel with
      | zero => omega
      | succ fuel =>
        unfold search
        by_cases g : c.maxTime < w + c.skipSearch + c.windowLength
        · rw [if_pos g]
          exact ⟨_, rfl⟩
        · rw [if_neg g]
          have hnext : ∃ q, search lanesAt within c trs fuel (w + c.skipSearch) = .ok q := by
            have hw' : c.maxTime < w + c.skipSearch + c.windowLength + n * c.skipSearch := by
              have e : ((n + 1 : Nat) : Int) * c.skipSearch = n * c.skipSearch + c.skipSearch := by push_cast; ring
              rw [e] at hw
              linarith
            cases fuel with
            | zero =>
              exfalso
              have : n = 0 := by omega
              subst this
              push_cast at hw'
              omega
            | succ fuel => exact ih _ hw' (fuel + 1) (by omega) (by omega)
          cases findIds trs (w + c.skipSearch) (w + c.skipSearch + c.windowLength) with
          | nil => exact hnext
          | cons x ids =>
            obtain ⟨l, hl'⟩ := hper (w + c.skipSearch) (x :: ids)
            simp only [hl']
            cases pick l 0 c.minimum with
            | none => exact hnext
            | some r => exact ⟨_, rfl⟩
  refine ⟨(c.maxTime - ws - c.windowLength).toNat + 1, fun fuel hf => main _ ws ?_ fuel hf (by omega)⟩
  push_cast
  have h1 : (c.maxTime - ws - c.windowLength) ≤ ((c.maxTime - ws - c.windowLength).toNat : Int) := Int.self_le_toNat _
  have h2 : ((c.maxTime - ws - c.windowLength).toNat : Int) * 1 ≤
      ((c.maxTime - ws - c.windowLength).toNat : Int) * c.skipSearch :=
    mul_le_mul_of_nonneg_left (by omega) (by omega)
  have e : (((c.maxTime - ws - c.windowLength).toNat : Int) + 1) * c.skipSearch =
      ((c.maxTime - ws - c.windowLength).toNat : Int) * c.skipSearch + c.skipSearch := by ring
  rw [e]
  omega

/-- **C138, not ending:** with a search step of 0 and a window without vehicles the search never ends. -/
theorem C138_diverges_violated (h0 : c.skipSearch = 0) {trs : List Tr} {ws : Int}
    (hmax : ws + c.windowLength ≤ c.maxTime) (hno : ∀ id, ¬ Covers trs ws (ws + c.windowLength) id) :
    ∀ fuel, search lanesAt within c trs fuel ws = .error .diverges := by
  intro fuel
  induction fuel with
  | zero => rfl
  | succ n ih =>
    have hi : findIds trs ws (ws + c.windowLength) = [] := by
      rw [List.eq_nil_iff_forall_not_mem]
      intro id hid
      exact hno id (findIds_mem.1 hid)
    unfold search
    rw [h0, Int.add_zero, if_neg (not_lt.2 hmax), hi]
    exact ih

/-- no scenario in the remaining files: an exception -/
theorem C138_raises (fuel : Nat) : nextScenario lanesAt within c fuel [] none = .error .thrown := rfl

end

/-! ### A small data set -/

/-- three vehicles, two lanes: vehicle 3 is between the lanes, vehicle 2 changes the lane at 300 -/
def demoLanes (id : Nat) (t : Int) : Res (List Nat) :=
  .ok (if id = 1 then [0] else if id = 2 then (if t < 300 then [0] else [1]) else [0, 1])

def demoTracks : List Tr := [⟨1, 0, 1000⟩, ⟨2, 0, 1000⟩, ⟨3, 0, 1000⟩]

def demoCfg : Cfg := ⟨200, 0, 100, 0, 100000, true, [1, 1]⟩

example : nextScenario demoLanes (fun _ _ => true) demoCfg 20 [demoTracks] none = .ok ⟨[1, 2], 0, 300⟩ := by
  decide +kernel

example : nextScenario demoLanes (fun _ _ => true) demoCfg 20 [demoTracks] (some (0, 300)) = .ok ⟨[1, 2], 0, 400⟩ := by
  decide +kernel

/-- **C138 violated:** "only on one lane" does not skip windows with a vehicle between lanes (vehicle 3 is on two), it
leaves the vehicle out. -/
theorem C138_between_lanes_violated : demoCfg.onlyOneLane = true ∧ demoLanes 3 300 = .ok [0, 1] ∧
    Covers demoTracks 300 500 3 ∧
    nextScenario demoLanes (fun _ _ => true) demoCfg 20 [demoTracks] none = .ok ⟨[1, 2], 0, 300⟩ := by
  refine ⟨rfl, by decide +kernel, ⟨⟨3, 0, 1000⟩, by simp [demoTracks], rfl, by decide, by decide⟩, by decide +kernel⟩

end Bark.Win
