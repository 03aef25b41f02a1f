import Verif.Spec.Bench
import Verif.Lemmas.World
import Mathlib.Data.List.Basic

/-!
Benchmark configs (C115), one benchmark run (C116), distribution over actors (C119), choice of evaluators (C121).
-/
set_option linter.unusedSectionVars false
namespace Bark.Bench

variable {B N S E W V : Type}

/-! ### C115 -/

theorem taken_eq (num : Option Nat) (scens : List S) : taken num scens = (Spec.within num scens).zipIdx.map (fun x => (x.2, x.1)) := by
  have base : ∀ (l : List S) (n : Nat), (List.range' n l.length).zip l = (l.zipIdx n).map (fun x => (x.2, x.1)) := by
    intro l
    induction l with
    | nil => intro n; rfl
    | cons a l ih => intro n; simp [List.range'_succ, ih (n + 1)]
  have tw : ∀ (l : List S) (n k : Nat), ((List.range' n l.length).zip l).takeWhile (fun x => !(decide (x.1 ≥ k))) =
      ((l.take (k - n)).zipIdx n).map (fun x => (x.2, x.1)) := by
    intro l
    induction l with
    | nil => intro n k; simp
    | cons a l ih =>
      intro n k
      simp only [List.length_cons, List.range'_succ, List.zip_cons_cons]
      by_cases hk : n ≥ k
      · have : k - n = 0 := by omega
        simp [hk, this]
      · have : k - n = (k - (n + 1)) + 1 := by omega
        rw [List.takeWhile_cons, if_pos (by simpa using hk), ih (n + 1) k, this]
        simp
  unfold taken Spec.within
  rw [List.range_eq_range']
  match num with
  | none => exact base scens 0
  | some 0 => simpa using base scens 0
  | some (k + 1) => simpa using tw scens 0 (k + 1)

theorem addOne_spec (b : B) (n : N) (l : List (Nat × S)) (acc : List (Config B N S)) (h : ∀ (i : Nat) c, acc[i]? = some c → c.idx = i) :
    (∀ (i : Nat) c, (l.foldl (fun acc x => acc ++ [⟨acc.length, b, n, x.1, x.2⟩]) acc)[i]? = some c → c.idx = i) ∧
    (l.foldl (fun acc x => acc ++ [⟨acc.length, b, n, x.1, x.2⟩]) acc).map (fun c => (c.beh, c.set, c.scen, c.scenario)) =
      acc.map (fun c => (c.beh, c.set, c.scen, c.scenario)) ++ l.map (fun x => (b, n, x.1, x.2)) := by
  induction l generalizing acc with
  | nil => exact ⟨h, by simp⟩
  | cons x l ih =>
    obtain ⟨h1, h2⟩ := ih (acc ++ [⟨acc.length, b, n, x.1, x.2⟩]) (by
      intro i c hc
      rcases Nat.lt_trichotomy i acc.length with g | g | g
      · rw [List.getElem?_append_left g] at hc; exact h i c hc
      · subst g; simp at hc; rw [← hc]
      · rw [List.getElem?_append_right (by omega)] at hc
        simp [List.getElem?_eq_none (show ([(⟨acc.length, b, n, x.1, x.2⟩ : Config B N S)].length ≤ i - acc.length) by simp; omega)] at hc)
    exact ⟨h1, by rw [List.foldl_cons, h2]; simp⟩

theorem sets_spec (num : Option Nat) (b : B) (db : List (N × List S)) (acc : List (Config B N S))
    (h : ∀ (i : Nat) c, acc[i]? = some c → c.idx = i) :
    (∀ (i : Nat) c, (db.foldl (addSet num b) acc)[i]? = some c → c.idx = i) ∧
    (db.foldl (addSet num b) acc).map (fun c => (c.beh, c.set, c.scen, c.scenario)) =
      acc.map (fun c => (c.beh, c.set, c.scen, c.scenario)) ++
        db.flatMap (fun g => ((Spec.within num g.2).zipIdx).map (fun x => (b, g.1, x.2, x.1))) := by
  induction db generalizing acc with
  | nil => exact ⟨h, by simp⟩
  | cons g db ih =>
    obtain ⟨h1, h2⟩ := addOne_spec b g.1 (taken num g.2) acc h
    obtain ⟨h3, h4⟩ := ih (addSet num b acc g) h1
    refine ⟨h3, ?_⟩
    rw [List.foldl_cons, h4]
    show _ ++ _ = _
    unfold addSet
    rw [h2, taken_eq]
    simp

/-- The configs are every behaviour with every scenario (below the limit) of every set, each exactly once and in this order, and the
index of a config is its position. -/
theorem C115_every_combination_once (num : Option Nat) (behs : List B) (db : List (N × List S)) :
    (configs num behs db).map (fun c => (c.beh, c.set, c.scen, c.scenario)) = Spec.product num behs db ∧
    ∀ (i : Nat) c, (configs num behs db)[i]? = some c → c.idx = i := by
  have key : ∀ (acc : List (Config B N S)), (∀ (i : Nat) c, acc[i]? = some c → c.idx = i) →
      (∀ (i : Nat) c, (behs.foldl (fun acc b => db.foldl (addSet num b) acc) acc)[i]? = some c → c.idx = i) ∧
      (behs.foldl (fun acc b => db.foldl (addSet num b) acc) acc).map (fun c => (c.beh, c.set, c.scen, c.scenario)) =
        acc.map (fun c => (c.beh, c.set, c.scen, c.scenario)) ++ Spec.product num behs db := by
    induction behs with
    | nil => intro acc h; exact ⟨h, by simp [Spec.product]⟩
    | cons b behs ih =>
      intro acc h
      obtain ⟨h1, h2⟩ := sets_spec num b db acc h
      obtain ⟨h3, h4⟩ := ih _ h1
      refine ⟨h3, ?_⟩
      rw [List.foldl_cons, h4, h2]
      simp [Spec.product]
  obtain ⟨h1, h2⟩ := key [] (by simp)
  exact ⟨by unfold configs; rw [h2]; simp, h1⟩

/-- two behaviours, two sets, at most two scenarios of each: seven configs -/
example : (configs (some 2) ["a", "b"] [("m", [10, 11, 12]), ("r", [20, 21]), ("x", [])]).map
    (fun c => (c.idx, c.beh, c.set, c.scen, c.scenario)) =
    [(0, "a", "m", 0, 10), (1, "a", "m", 1, 11), (2, "a", "r", 0, 20), (3, "a", "r", 1, 21), (4, "b", "m", 0, 10), (5, "b", "m", 1, 11),
      (6, "b", "r", 0, 20), (7, "b", "r", 1, 21)] := by decide

/-- a generator called `k` times: index given out last -/
def calls (n : Nat) : Nat → Nat → Res (List Nat × Nat)
  | 0, cur => .ok ([], cur)
  | k + 1, cur => do
    let r ← nextScenario n cur
    let rest ← calls n k r.2
    .ok (r.1 :: rest.1, rest.2)

/-- Asking a generator with `n > 0` scenarios `k` times for the next one gives them out in turn, starting again after the last. -/
theorem C115_round_robin {n : Nat} (hn : 0 < n) (k : Nat) :
    ∃ c, calls n k 0 = .ok ((List.range k).map (fun i => i % n), c) := by
  have key : ∀ (k cur start : Nat), cur ≤ n → start % n = cur % n →
      ∃ c, calls n k cur = .ok ((List.range' start k).map (fun i => i % n), c) := by
    intro k
    induction k with
    | zero => intro cur start _ _; exact ⟨cur, rfl⟩
    | succ k ih =>
      intro cur start hc hs
      by_cases g : cur ≥ n
      · have : cur = n := by omega
        subst this
        rw [Nat.mod_self] at hs
        obtain ⟨c, hc⟩ := ih 1 (start + 1) (by omega) (by rw [Nat.add_mod, hs]; simp)
        refine ⟨c, ?_⟩
        have h1 : nextScenario cur cur = .ok (0, 1) := by unfold nextScenario; simp [hn]
        unfold calls
        rw [h1, Res.ok_bind]
        simp only
        rw [hc, Res.ok_bind, List.range'_succ]
        simp [hs]
      · have hlt : cur < n := by omega
        obtain ⟨c, hc⟩ := ih (cur + 1) (start + 1) (by omega) (by rw [Nat.add_mod, hs, ← Nat.add_mod])
        refine ⟨c, ?_⟩
        have h1 : nextScenario n cur = .ok (cur, cur + 1) := by unfold nextScenario; simp [g, hlt]
        unfold calls
        rw [h1, Res.ok_bind]
        simp only
        rw [hc, Res.ok_bind, List.range'_succ, List.map_cons, hs, Nat.mod_eq_of_lt hlt]
  obtain ⟨c, hc⟩ := key k 0 0 (by omega) rfl
  exact ⟨c, by rw [hc, List.range_eq_range']⟩

/-- an empty generator raises -/
theorem C115_empty_generator (cur : Nat) : nextScenario 0 cur = .error .thrown := by
  unfold nextScenario; simp

/-! ### C121 -/

/-- With two or more scenario-specific evaluator dictionaries, a set is evaluated with the only one whose name occurs in the name of
the set, with the default if there is none, and the run fails if there are several. -/
theorem C121_selection (sub : N → N → Bool) (specific : List (N × E)) (dflt : Option E) (set : N) (h2 : 2 ≤ specific.length) :
    ((∀ x ∈ specific, sub x.1 set = false) → scenarioEvaluators sub specific dflt set = .ok dflt) ∧
    (∀ a x c, specific = a ++ x :: c → sub x.1 set = true → (∀ y ∈ a ++ c, sub y.1 set = false) →
      scenarioEvaluators sub specific dflt set = .ok (some x.2)) ∧
    (∀ x y, [x, y].Sublist specific → sub x.1 set = true → sub y.1 set = true →
      scenarioEvaluators sub specific dflt set = .error .thrown) := by
  have h2' : specific.length > 1 := by omega
  unfold scenarioEvaluators
  rw [if_pos h2']
  refine ⟨?_, ?_, ?_⟩
  · intro h
    have : specific.filter (fun x => sub x.1 set) = [] := List.filter_eq_nil_iff.2 (by intro x hx; simp [h x hx])
    rw [this]
  · rintro a x c rfl hx h
    have ha : a.filter (fun x => sub x.1 set) = [] := List.filter_eq_nil_iff.2 (by intro x hx; simp [h x (by simp [hx])])
    have hc : c.filter (fun x => sub x.1 set) = [] := List.filter_eq_nil_iff.2 (by intro x hx; simp [h x (by simp [hx])])
    have : (a ++ x :: c).filter (fun x => sub x.1 set) = [x] := by simp [ha, hc, hx]
    rw [this]
  · intro x y hs hx hy
    have h1 := (hs.filter (fun x => sub x.1 set)).length_le
    simp only [List.filter_cons, hx, hy, if_true, List.filter_nil] at h1
    generalize specific.filter (fun x => sub x.1 set) = m at h1
    match m, h1 with
    | _ :: _ :: _, _ => rfl
    | [_], h1 => simp at h1
    | [], h1 => simp at h1

/-- Violation: a single scenario-specific dictionary is never used, even for the set it is named after; without a default there are
then no evaluators. -/
theorem C121_single_specific_violated (sub : N → N → Bool) (x : N × E) (dflt : Option E) (set : N) :
    scenarioEvaluators sub [x] dflt set = .ok dflt := rfl

example : scenarioEvaluators (fun a b : String => a == b) [("merging", 1), ("highway", 2)] none "merging" = .ok (some 1) := by decide

section
variable [DecidableEq N]

theorem item_mem {ev : List (N × V)} {n : N} {v : V} (hd : (ev.map Prod.fst).Nodup) (h : (n, v) ∈ ev) : item ev n = .ok v := by
  unfold item
  induction ev with
  | nil => cases h
  | cons x ev ih =>
    simp only [List.map_cons, List.nodup_cons] at hd
    by_cases g : x.1 = n
    · rw [List.find?_cons_of_pos (by simpa using g)]
      rcases List.mem_cons.1 h with e | h'
      · rw [← e]
      · exact absurd (List.mem_map.2 ⟨(n, v), h', rfl⟩) (g ▸ hd.1)
    · rw [List.find?_cons_of_neg (by simpa using g)]
      rcases List.mem_cons.1 h with e | h'
      · exact absurd (by rw [← e]) g
      · exact ih hd.2 h'

theorem item_none {ev : List (N × V)} {n : N} (h : n ∉ ev.map Prod.fst) : item ev n = .error .thrown := by
  unfold item
  have : ev.find? (fun x => decide (x.1 = n)) = none := by
    rw [List.find?_eq_none]
    intro x hx
    simp only [decide_eq_true_eq]
    rintro rfl
    exact h (List.mem_map.2 ⟨x, hx, rfl⟩)
  rw [this]

theorem item_cases (ev : List (N × V)) (n : N) : (∃ v, (n, v) ∈ ev ∧ item ev n = .ok v) ∨ (n ∉ ev.map Prod.fst ∧ item ev n = .error .thrown) := by
  by_cases h : n ∈ ev.map Prod.fst
  · left
    unfold item
    cases hf : ev.find? (fun x => decide (x.1 = n)) with
    | none =>
      obtain ⟨x, hx, rfl⟩ := List.mem_map.1 h
      have := List.find?_eq_none.1 hf x hx
      simp at this
    | some x =>
      have h1 := List.mem_of_find?_eq_some hf
      have h2 := List.find?_some hf
      simp only [decide_eq_true_eq] at h2
      exact ⟨x.2, by rw [← h2]; exact h1, rfl⟩
  · exact .inr ⟨h, item_none h⟩

theorem met_spec {ev : List (N × V)} (hd : (ev.map Prod.fst).Nodup) (c : List (N × (V → Bool))) :
    ((∀ x ∈ c, x.1 ∈ ev.map Prod.fst) → ∃ l, metCriteria ev c = .ok l ∧ l.Sublist (c.map Prod.fst) ∧
      (∀ n, n ∈ l ↔ ∃ f v, (n, f) ∈ c ∧ (n, v) ∈ ev ∧ f v = true)) ∧
    (∀ x ∈ c, x.1 ∉ ev.map Prod.fst → metCriteria ev c = .error .thrown) := by
  induction c with
  | nil => exact ⟨fun _ => ⟨[], rfl, by simp, by simp⟩, by simp⟩
  | cons x c ih =>
    rcases item_cases ev x.1 with ⟨v, hv, hi⟩ | ⟨hn, hi⟩
    · constructor
      · intro h
        obtain ⟨l, h1, h2, h3⟩ := ih.1 (fun y hy => h y (by simp [hy]))
        by_cases hx : x.2 v = true
        · refine ⟨x.1 :: l, ?_, by simpa using h2, ?_⟩
          · unfold metCriteria; rw [hi, Res.ok_bind, h1, Res.ok_bind, if_pos hx]
          · intro n
            rw [List.mem_cons, h3]
            constructor
            · rintro (rfl | ⟨f, u, a1, a2, a3⟩)
              · exact ⟨x.2, v, by simp, hv, hx⟩
              · exact ⟨f, u, by simp [a1], a2, a3⟩
            · rintro ⟨f, u, a1, a2, a3⟩
              rcases List.mem_cons.1 a1 with e | a1
              · left; rw [← e]
              · exact .inr ⟨f, u, a1, a2, a3⟩
        · refine ⟨l, ?_, h2.trans (by simp), ?_⟩
          · unfold metCriteria; rw [hi, Res.ok_bind, h1, Res.ok_bind, if_neg hx]
          · intro n
            rw [h3]
            constructor
            · rintro ⟨f, u, a1, a2, a3⟩; exact ⟨f, u, by simp [a1], a2, a3⟩
            · rintro ⟨f, u, a1, a2, a3⟩
              rcases List.mem_cons.1 a1 with e | a1
              · exfalso
                have e1 : item ev n = .ok u := item_mem hd a2
                have e2 : n = x.1 := by rw [← e]
                rw [e2, hi] at e1
                injection e1 with e1
                subst e1
                exact hx (by rw [← e]; exact a3)
              · exact ⟨f, u, a1, a2, a3⟩
      · intro y hy hyn
        rcases List.mem_cons.1 hy with rfl | hy
        · exact absurd (List.mem_map.2 ⟨_, hv, rfl⟩) hyn
        · unfold metCriteria; rw [hi, Res.ok_bind, ih.2 y hy hyn]; rfl
    · constructor
      · intro h; exact absurd (h x (by simp)) hn
      · intro _ _ _; unfold metCriteria; rw [hi]; rfl

/-- Criteria for all sets: the criteria reported are exactly those whose function is true of the value of the evaluator of the same
name; the run fails if such an evaluator is missing (or there are no criteria at all). -/
theorem C121_criteria (sub : N → N → Bool) (c : List (N × (V → Bool))) (hc : c ≠ []) {ev : List (N × V)} (hd : (ev.map Prod.fst).Nodup) (set : N) :
    ((∀ x ∈ c, x.1 ∈ ev.map Prod.fst) → ∃ l, isTerminal sub (.flat c) ev set = .ok l ∧ l.Sublist (c.map Prod.fst) ∧
      (∀ n, n ∈ l ↔ ∃ f v, (n, f) ∈ c ∧ (n, v) ∈ ev ∧ f v = true)) ∧
    (∀ x ∈ c, x.1 ∉ ev.map Prod.fst → isTerminal sub (.flat c) ev set = .error .thrown) := by
  match c, hc with
  | x :: c, _ => exact met_spec hd (x :: c)

/-- Criteria by set: those of the only entry whose name occurs in the name of the set are used, in the same way; no such entry or
several make the run fail. -/
theorem C121_criteria_by_set (sub : N → N → Bool) (c : List (N × List (N × (V → Bool)))) (hc : c ≠ []) {ev : List (N × V)} (set : N) :
    (∀ a x b, c = a ++ x :: b → sub x.1 set = true → (∀ y ∈ a ++ b, sub y.1 set = false) → x.2 ≠ [] →
      isTerminal sub (.nested c) ev set = isTerminal sub (.flat x.2) ev set) ∧
    ((∀ x ∈ c, sub x.1 set = false) → isTerminal sub (.nested c) ev set = .error .thrown) ∧
    (∀ x y, [x, y].Sublist c → sub x.1 set = true → sub y.1 set = true → isTerminal sub (.nested c) ev set = .error .thrown) := by
  have hn : isTerminal sub (.nested c) ev set = (match c.filter (fun x => sub x.1 set) with
      | [x] => metCriteria ev x.2
      | _ => .error .thrown) := by
    match c, hc with
    | x :: c, _ => rfl
  rw [hn]
  refine ⟨?_, ?_, ?_⟩
  · rintro a x b rfl hx h hne
    have ha : a.filter (fun x => sub x.1 set) = [] := List.filter_eq_nil_iff.2 (by intro x hx; simp [h x (by simp [hx])])
    have hb : b.filter (fun x => sub x.1 set) = [] := List.filter_eq_nil_iff.2 (by intro x hx; simp [h x (by simp [hx])])
    have : (a ++ x :: b).filter (fun x => sub x.1 set) = [x] := by simp [ha, hb, hx]
    rw [this]
    simp only
    match hx2 : x.2, hne with
    | y :: l, _ => rfl
  · intro h
    have : c.filter (fun x => sub x.1 set) = [] := List.filter_eq_nil_iff.2 (by intro x hx; simp [h x hx])
    rw [this]
  · intro x y hs hx hy
    have h1 := (hs.filter (fun x => sub x.1 set)).length_le
    simp only [List.filter_cons, hx, hy, if_true, List.filter_nil] at h1
    generalize c.filter (fun x => sub x.1 set) = m at h1
    match m, h1 with
    | _ :: _ :: _, _ => rfl
    | [_], h1 => simp at h1
    | [], h1 => simp at h1

/-- no criteria: every run fails with an exception that is not caught -/
theorem C121_no_criteria_violated (sub : N → N → Bool) (ev : List (N × V)) (set : N) :
    isTerminal sub (.flat []) ev set = .error .thrown ∧ isTerminal sub (.nested []) ev set = .error .thrown := ⟨rfl, rfl⟩

example : isTerminal (fun a b : String => a == b) (.flat [("collision", id), ("steps", fun b => !b)]) [("steps", false), ("collision", true)] "s" =
    .ok ["collision", "steps"] := by decide

/-! ### C116 -/

variable {sim : Sim W N V} {terminal : List (N × V) → Res (List N)} {keep : Bool}

theorem loop_sound {n : Nat} {w : W} {step : Nat} {hist : List W} {o : Outcome W N V} (h : loop sim terminal keep n w step hist = .ok o) :
    ∃ ws w', Spec.Rounds sim terminal w ws w' ∧ Spec.Ends sim terminal w' o.ev o.why ∧ o.steps = step + ws.length ∧
      o.hist = hist ++ (if keep then ws else []) := by
  induction n generalizing w step hist with
  | zero => cases h
  | succ n ih =>
    unfold loop at h
    cases he : sim.eval w with
    | error f =>
      rw [he] at h
      cases f <;> simp only at h <;> cases h
      exact ⟨[], w, .nil w, .evalRaised he, rfl, by simp⟩
    | ok r =>
      rw [he] at h
      simp only at h
      cases ht : terminal r.2 with
      | error f => rw [ht] at h; cases h
      | ok l =>
        rw [ht] at h
        match l, ht with
        | x :: xs, ht =>
          simp only at h
          cases h
          exact ⟨[], w, .nil w, .met (w1 := r.1) (by rw [he]) ht (by simp), rfl, by simp⟩
        | [], ht =>
          simp only at h
          cases hp : sim.plan r.1 with
          | error f =>
            rw [hp] at h
            cases f <;> simp only at h <;> cases h
            exact ⟨[], w, .nil w, .planRaised (w1 := r.1) (by rw [he]) ht hp, rfl, by simp⟩
          | ok w2 =>
            rw [hp] at h
            simp only at h
            cases hx : sim.exec w2 with
            | error f =>
              rw [hx] at h
              cases f <;> simp only at h <;> cases h
              exact ⟨[], w, .nil w, .execRaised (w1 := r.1) (by rw [he]) ht hp hx, rfl, by simp⟩
            | ok w3 =>
              rw [hx] at h
              simp only at h
              obtain ⟨ws, w', h1, h2, h3, h4⟩ := ih h
              refine ⟨w3 :: ws, w', .cons (w1 := r.1) (by rw [he]) ht hp hx h1, h2, by simp [h3]; omega, ?_⟩
              rw [h4]
              cases keep <;> simp

theorem loop_complete {w w' : W} {ws : List W} {ev : List (N × V)} {why : Why N} (h1 : Spec.Rounds sim terminal w ws w')
    (h2 : Spec.Ends sim terminal w' ev why) (n step : Nat) (hist : List W) (hn : ws.length < n) :
    loop sim terminal keep n w step hist = .ok ⟨step + ws.length, ev, why, hist ++ (if keep then ws else [])⟩ := by
  induction h1 generalizing n step hist with
  | nil w =>
    obtain ⟨n, rfl⟩ : ∃ m, n = m + 1 := ⟨n - 1, by simp at hn; omega⟩
    unfold loop
    cases h2 with
    | met he ht hl =>
      rename_i l
      rw [he]
      simp only
      rw [ht]
      match l, hl with
      | x :: xs, _ => simp
    | evalRaised he => rw [he]; simp
    | planRaised he ht hp => rw [he]; simp only; rw [ht]; simp only; rw [hp]; simp
    | execRaised he ht hp hx => rw [he]; simp only; rw [ht]; simp only; rw [hp]; simp only; rw [hx]; simp
  | cons he ht hp hx _ ih =>
    obtain ⟨n, rfl⟩ : ∃ m, n = m + 1 := ⟨n - 1, by simp at hn; omega⟩
    unfold loop
    rw [he]
    simp only
    rw [ht]
    simp only
    rw [hp]
    simp only
    rw [hx]
    simp only
    rw [ih h2 n _ _ (by simp at hn; omega)]
    simp only [List.length_cons]
    congr 1
    cases keep <;> simp <;> omega

/-- A run that returns: it is the first world, after `step` full rounds, in which a criterion is met or something raises; what is
reported is the evaluation of that world and the criteria met in it; the history has the first world and the world after every round.
Conversely every such course of a run is the result, given enough time. -/
theorem C116_first_terminal_world (w : W) (w1 : W) (hw : sim.world = .ok w) (hr : sim.reset w = .ok w1) (o : Outcome W N V) :
    (∃ n, runConfig sim terminal keep n = .ok (.pair o)) ↔
      ∃ ws w', Spec.Rounds sim terminal w1 ws w' ∧ Spec.Ends sim terminal w' o.ev o.why ∧ o.steps = ws.length ∧
        o.hist = (if keep then w :: ws else []) := by
  have hrun : ∀ n, runConfig sim terminal keep n = (loop sim terminal keep n w1 0 (if keep then [w] else []) >>= fun o => .ok (.pair o)) := by
    intro n; unfold runConfig; rw [hw]; simp only; rw [hr]
  constructor
  · rintro ⟨n, h⟩
    rw [hrun] at h
    obtain ⟨o', h1, h2⟩ := Res.bind_ok h
    injection h2 with h2
    injection h2 with h2
    subst h2
    obtain ⟨ws, w', a, b, c, e⟩ := loop_sound h1
    refine ⟨ws, w', a, b, by omega, ?_⟩
    rw [e]; cases keep <;> simp
  · rintro ⟨ws, w', a, b, c, e⟩
    refine ⟨ws.length + 1, ?_⟩
    rw [hrun, loop_complete a b _ _ _ (Nat.lt_succ_self _), Res.ok_bind]
    obtain ⟨s, ev, why, hist⟩ := o
    simp only at c e
    subst c e
    cases keep <;> simp

/-- There is no limit on the number of steps: if the rounds never end (no criterion is ever met), the run does not return. -/
theorem C116_unbounded (w : W) (w1 : W) (hw : sim.world = .ok w) (hr : sim.reset w = .ok w1)
    (h : ∀ k, ∃ ws w', ws.length = k ∧ Spec.Rounds sim terminal w1 ws w') (n : Nat) : runConfig sim terminal keep n = .error .diverges := by
  have key : ∀ (n : Nat) (ws : List W) (w w' : W) (step : Nat) (hist : List W), ws.length = n → Spec.Rounds sim terminal w ws w' →
      loop sim terminal keep n w step hist = .error .diverges := by
    intro n
    induction n with
    | zero => intros; rfl
    | succ n ih =>
      intro ws w w' step hist hl hR
      cases hR with
      | nil => simp at hl
      | cons he ht hp hx hR =>
        unfold loop
        rw [he]; simp only; rw [ht]; simp only; rw [hp]; simp only; rw [hx]; simp only
        exact ih _ _ _ _ _ (by simpa using hl) hR
  obtain ⟨ws, w', hl, hR⟩ := h n
  unfold runConfig
  rw [hw]
  simp only
  rw [hr]
  simp only
  rw [key n ws w1 w' 0 _ hl hR]
  rfl

/-- Violation: a scenario whose world cannot be created should give a row "exception_raised", as the other failures do; the row is
returned without a history and the caller fails to unpack it. -/
theorem C116_world_exception_violated (hw : sim.world = .error .thrown) (n : Nat) :
    (runConfig sim terminal keep n >>= unpack) = .error .thrown := by
  unfold runConfig; rw [hw]; rfl

/-- every other outcome is unpacked as it is -/
theorem C116_unpacked (o : Outcome W N V) (n : Nat) (h : runConfig sim terminal keep n = .ok (.pair o)) :
    (runConfig sim terminal keep n >>= unpack) = .ok o := by
  rw [h]; rfl

/-- a counter that is stopped at 3 (or beyond), and one that raises when planned at 2 -/
example : (runConfig (N := String) (V := Nat) ⟨.ok 0, .ok, fun w => .ok (w, [("n", w)]), .ok, fun w => .ok (w + 1)⟩
    (fun ev => isTerminal (fun a b => a == b) (.flat [("n", fun v => decide (v ≥ 3))]) ev "s") true 10 >>= unpack).map
      (fun o => (o.steps, o.ev, o.why, o.hist)) = .ok (3, [("n", 3)], .names ["n"], [0, 1, 2, 3]) := by decide
example : (runConfig (N := String) (V := Nat) ⟨.ok 0, .ok, fun w => .ok (w, [("n", w)]), fun w => if w = 2 then .error .thrown else .ok w,
      fun w => .ok (w + 1)⟩
    (fun ev => isTerminal (fun a b => a == b) (.flat [("n", fun v => decide (v ≥ 3))]) ev "s") true 10 >>= unpack).map
      (fun o => (o.steps, o.ev, o.why, o.hist)) = .ok (2, [("n", 2)], .exception, [0, 1, 2]) := by decide

end

/-! ### C119 -/

theorem split_perm {α : Type} (f : α → Nat) (z : List α) (n : Nat) :
    ((List.range n).flatMap (fun i => z.filter (fun x => decide (f x = i)))).Perm (z.filter (fun x => decide (f x < n))) := by
  induction n with
  | zero => simp
  | succ n ih =>
    rw [List.range_succ, List.flatMap_append]
    have h := List.filter_append_perm (fun x => decide (f x < n)) (z.filter (fun x => decide (f x < n + 1)))
    rw [List.filter_filter, List.filter_filter] at h
    have e1 : z.filter (fun a => decide (f a < n) && decide (f a < n + 1)) = z.filter (fun x => decide (f x < n)) := by
      apply List.filter_congr; intro x _; by_cases g : f x < n <;> simp [g]; omega
    have e2 : z.filter (fun a => !(decide (f a < n)) && decide (f a < n + 1)) = z.filter (fun x => decide (f x = n)) := by
      apply List.filter_congr; intro x _
      rw [Bool.eq_iff_iff]; simp; omega
    rw [e1, e2] at h
    refine (List.Perm.append ih ?_).trans h
    simp

theorem stride_eq {α : Type} {n i : Nat} (hi : i < n) (l : List α) :
    stride n i l = ((((List.range l.length).zip l).filter (fun x => decide (x.1 % n = i))).map Prod.snd) := by
  unfold stride
  generalize (List.range l.length).zip l = z
  induction z with
  | nil => rfl
  | cons x z ih =>
    have hiff : (i ≤ x.1 ∧ (x.1 - i) % n = 0) ↔ x.1 % n = i := by
      constructor
      · rintro ⟨h1, h2⟩
        have h3 : x.1 = n * ((x.1 - i) / n) + i := by
          have := Nat.div_add_mod (x.1 - i) n; omega
        rw [h3, Nat.mul_add_mod, Nat.mod_eq_of_lt hi]
      · intro h
        have h3 := Nat.div_add_mod x.1 n
        refine ⟨by omega, ?_⟩
        have : x.1 - i = n * (x.1 / n) := by omega
        rw [this, Nat.mul_mod_right]
    by_cases h : x.1 % n = i
    · rw [List.filterMap_cons_some (b := x.2) (by rw [if_pos (hiff.2 h)]), List.filter_cons_of_pos (by simpa using h), ih]; rfl
    · rw [List.filterMap_cons_none (by rw [if_neg (fun g => h (hiff.1 g))]), List.filter_cons_of_neg (by simpa using h), ih]

/-- With at least one actor's worth of CPUs, every config goes to exactly one actor, and each actor gets its configs in order. -/
theorem C119_each_config_to_one_actor {α : Type} {cpus per : Nat} (hp : 0 < per) (h : per ≤ cpus) (l : List α) :
    (split cpus per l).flatten.Perm l ∧ (∀ a ∈ split cpus per l, a.Sublist l) ∧ (split cpus per l).length = cpus / per := by
  have hn : 0 < cpus / per := Nat.div_pos h hp
  unfold split
  generalize cpus / per = n at hn
  have hz : ((List.range l.length).zip l).map Prod.snd = l := by
    rw [List.map_snd_zip]; simp
  refine ⟨?_, ?_, by simp⟩
  · have e : (List.map (fun i => stride n i l) (List.range n)).flatten =
        ((List.range n).flatMap (fun i => ((List.range l.length).zip l).filter (fun x => decide (x.1 % n = i)))).map Prod.snd := by
      rw [← List.flatMap_def, List.map_flatMap]
      apply List.flatMap_congr
      intro i hi
      exact stride_eq (List.mem_range.1 hi) l
    rw [e]
    refine ((split_perm (fun x => x.1 % n) ((List.range l.length).zip l) n).map Prod.snd).trans ?_
    rw [List.filter_eq_self.2 (by intro x _; simpa using Nat.mod_lt _ hn), hz]
  · intro a ha
    obtain ⟨i, hi, rfl⟩ := List.mem_map.1 ha
    rw [stride_eq (List.mem_range.1 hi)]
    have := (List.filter_sublist (p := fun x => decide (x.1 % n = i)) (l := (List.range l.length).zip l)).map Prod.snd
    rw [hz] at this
    exact this

/-- Violation: with fewer CPUs than an actor needs there is no actor and no config is run, without any error. -/
theorem C119_no_actor_violated {α : Type} {cpus per : Nat} (h : cpus < per) (l : List α) : split cpus per l = [] := by
  unfold split; rw [Nat.div_eq_of_lt h]; rfl

example : split 4 2 [0, 1, 2, 3, 4] = [[0, 2, 4], [1, 3]] := by decide

end Bark.Bench
