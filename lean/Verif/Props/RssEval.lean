import Verif.Spec.RssEval
import Verif.Props.Angle
import Mathlib.Data.List.Forall2
import Mathlib.Tactic.Linarith
import Mathlib.Tactic.Positivity
import Mathlib.Tactic.Ring
import Mathlib.Tactic.NormNum
import Mathlib.Algebra.Order.Field.Rat
import Mathlib.Data.List.Induction

/-!
C139 (RSS verdicts), C140 (agents considered by RSS), C141 (route and turn rate handed to RSS).
-/
set_option linter.unusedSectionVars false
namespace Bark.RssEval
open Spec

section
variable {K P W : Type} {gen : W → Option (Check K P)}

theorem extractSafety_iff : ∀ {rs : List (Resp K)}, extractSafety rs = true ↔ ∀ r ∈ rs, r.dangerous = false
  | [] => by simp [extractSafety]
  | r :: rs => by
    unfold extractSafety
    rw [Bool.and_eq_true, extractSafety_iff (rs := rs)]
    simp

/-- the verdict of the interface -/
theorem safety_spec (s : Iface K P) (w : W) : ((safety gen s w).1 = none ↔ gen w = none) ∧
    ∀ c, gen w = some c → (safety gen s w).1 = some (extractSafety c.snapshot) := by
  unfold safety
  cases gen w with
  | none => simp
  | some c => simp

/-- **C139.** Evaluating an observed world gives no verdict exactly if the RSS world is not valid, and otherwise "safe" exactly
if none of the individual responses is dangerous. -/
theorem C139_verdict (e : Evaluator K P) (w : W) : ((evalObserved gen e w).1 = none ↔ gen w = none) ∧
    ∀ c, gen w = some c →
      ((evalObserved gen e w).1 = some true ↔ ∀ r ∈ c.snapshot, r.dangerous = false) ∧
      ((evalObserved gen e w).1 = some false ↔ ∃ r ∈ c.snapshot, r.dangerous = true) := by
  refine ⟨(safety_spec e.rss w).1, fun c hc => ?_⟩
  have h : (evalObserved gen e w).1 = some (extractSafety c.snapshot) := (safety_spec e.rss w).2 c hc
  rw [h]
  have hi := extractSafety_iff (rs := c.snapshot)
  constructor
  · rw [Option.some.injEq]; exact hi
  · rw [Option.some.injEq]
    constructor
    · intro hf
      by_contra hn
      push Not at hn
      rw [hi.2 (fun r hr => by simpa using hn r hr)] at hf
      cases hf
    · rintro ⟨r, hr, hd⟩
      cases hx : extractSafety c.snapshot with
      | false => rfl
      | true => rw [hi.1 hx r hr] at hd; cases hd

/-- On a world: the verdict of the observed world of its agent, which is taken from the same check. -/
theorem C139_verdict_world (e : Evaluator K P) (obs : Nat → Option W) {w : W} (h : obs e.agent = some w) :
    (evalWorld gen e obs).1 = (evalObserved gen e w).1 ∧ (evalWorld gen e obs).2.rss = (evalObserved gen e w).2.rss ∧
    (evalWorld gen e obs).2.polygons = e.polygons ∧ (evalWorld gen e obs).2.proper = e.proper := by
  unfold evalWorld
  rw [h]
  exact ⟨rfl, rfl, rfl, rfl⟩

/-- **C139 violated:** without its agent in the world – in particular for every evaluator made without an agent id – the
verdict is "unsafe" instead of none. -/
theorem C139_missing_agent_violated (e : Evaluator K P) (obs : Nat → Option W) (h : obs e.agent = none) :
    (evalWorld gen e obs).1 = some false := by
  unfold evalWorld
  rw [h]

theorem C139_no_agent_violated (maxId : Nat) (p0 : P) (obs : Nat → Option W) (h : obs maxId = none) :
    (evalWorld gen (freshNoAgent maxId p0 : Evaluator K P) obs).1 = some false :=
  C139_missing_agent_violated _ _ h

/-- … while the two pairwise evaluations then read the first element of an empty vector. -/
theorem C139_missing_agent_pairwise_violated (e : Evaluator K P) (obs : Nat → Option W) (h : obs e.agent = none) :
    pairWorld gen e obs = .error .ub ∧ dirWorld gen e obs = .error .ub := by
  unfold pairWorld dirWorld
  rw [h]
  exact ⟨rfl, rfl⟩

/-! ### Pairwise verdicts -/

theorem foldl_insert {V : Type} (f : Resp K → V) (rs : List (Resp K)) : ∀ id : Nat,
    OMap.Sorted (rs.foldl (fun m r => OMap.insert r.obj (f r) m) ([] : OMap Nat V)) ∧
    ((∀ r ∈ rs, r.obj ≠ id) → OMap.find id (rs.foldl (fun m r => OMap.insert r.obj (f r) m) ([] : OMap Nat V)) = none) ∧
    ∀ r, LastAbout rs id r → OMap.find id (rs.foldl (fun m r => OMap.insert r.obj (f r) m) ([] : OMap Nat V)) = some (f r) := by
  induction rs using List.reverseRecOn with
  | nil =>
    intro id
    refine ⟨OMap.sorted_nil, fun _ => rfl, ?_⟩
    rintro r ⟨a, b, h, -⟩
    cases a <;> cases h
  | append_singleton rs x ih =>
    intro id
    obtain ⟨hs, h1, h2⟩ := ih id
    rw [List.foldl_append]
    simp only [List.foldl_cons, List.foldl_nil]
    refine ⟨OMap.sorted_insert _ _ hs, ?_, ?_⟩
    · intro hne
      rw [OMap.find_insert, if_neg (fun e => hne x (by simp) e.symm)]
      exact h1 fun r hr => hne r (by simp [hr])
    · rintro r ⟨a, b, h, hid, hb⟩
      rw [OMap.find_insert]
      rcases List.eq_nil_or_concat b with rfl | ⟨b', y, rfl⟩
      · obtain ⟨-, e⟩ := List.append_inj' h rfl
        cases e
        rw [if_pos hid.symm]
      · have h' : rs ++ [x] = (a ++ r :: b') ++ [y] := by rw [h]; simp
        obtain ⟨e1, e2⟩ := List.append_inj' h' rfl
        cases e2
        rw [if_neg (fun e => hb x (by simp) e.symm)]
        exact h2 r ⟨a, b', e1, hid, fun z hz => hb z (by simp [hz])⟩

/-- **C139, pairwise** (`violated` below for several situations with one agent). The pairwise evaluations have an entry exactly
for every object with a response: the last one about it. -/
theorem C139_pairwise (e : Evaluator K P) (w : W) {c : Check K P} (hc : gen w = some c) (id : Nat) :
    ((∀ r ∈ c.snapshot, r.obj ≠ id) →
      OMap.find id (pairObserved gen e w).1 = none ∧ OMap.find id (dirObserved gen e w).1 = none) ∧
    ∀ r, LastAbout c.snapshot id r →
      OMap.find id (pairObserved gen e w).1 = some (!r.dangerous) ∧
      OMap.find id (dirObserved gen e w).1 = some (r.lonSafe, r.latSafe) := by
  unfold pairObserved dirObserved pairwise directional
  rw [hc]
  have h1 := foldl_insert (fun r : Resp K => !r.dangerous) c.snapshot id
  have h2 := foldl_insert (fun r : Resp K => (r.lonSafe, r.latSafe)) c.snapshot id
  exact ⟨fun h => ⟨h1.2.1 h, h2.2.1 h⟩, fun r hr => ⟨h1.2.2 r hr, h2.2.2 r hr⟩⟩

/-- Without a valid RSS world the maps are empty and nothing changes. -/
theorem C139_pairwise_none (e : Evaluator K P) (w : W) (hc : gen w = none) :
    (pairObserved gen e w).1 = [] ∧ (dirObserved gen e w).1 = [] ∧ (pairObserved gen e w).2 = e ∧
    (dirObserved gen e w).2 = e := by
  unfold pairObserved dirObserved pairwise directional
  rw [hc]
  exact ⟨rfl, rfl, rfl, rfl⟩

theorem C139_pairwise_world (e : Evaluator K P) (obs : Nat → Option W) {w : W} (h : obs e.agent = some w) :
    pairWorld gen e obs = .ok (pairObserved gen e w) ∧ dirWorld gen e obs = .ok (dirObserved gen e w) := by
  unfold pairWorld dirWorld
  rw [h]
  exact ⟨rfl, rfl⟩

/-- **C139, agreement** (at most one situation with every agent). The verdict is "safe" exactly if all pairwise verdicts are. -/
theorem C139_agree_partial (e e' : Evaluator K P) (w : W) {c : Check K P} (hc : gen w = some c)
    (hn : (c.snapshot.map Resp.obj).Nodup) : (evalObserved gen e w).1 = some true ↔
      ∀ id b, OMap.find id (pairObserved gen e' w).1 = some b → b = true := by
  rw [((C139_verdict e w).2 c hc).1]
  have key : ∀ r ∈ c.snapshot, LastAbout c.snapshot r.obj r := by
    intro r hr
    obtain ⟨a, b, hab⟩ := List.append_of_mem hr
    refine ⟨a, b, hab, rfl, fun x hx he => ?_⟩
    rw [hab, List.map_append, List.map_cons] at hn
    have := (List.nodup_append.1 hn).2.1
    rw [List.nodup_cons] at this
    exact this.1 (he ▸ List.mem_map_of_mem hx)
  constructor
  · intro h id b hb
    by_cases hx : ∀ r ∈ c.snapshot, r.obj ≠ id
    · rw [((C139_pairwise e' w hc id).1 hx).1] at hb
      cases hb
    · push Not at hx
      obtain ⟨r, hr, rfl⟩ := hx
      rw [((C139_pairwise e' w hc r.obj).2 r (key r hr)).1] at hb
      cases hb
      rw [h r hr]
      rfl
  · intro h r hr
    have := h r.obj _ ((C139_pairwise e' w hc r.obj).2 r (key r hr)).1
    simpa using this

/-- One direction always holds: a "safe" verdict makes all pairwise verdicts safe. -/
theorem C139_safe_pairwise (e e' : Evaluator K P) (w : W) (h : (evalObserved gen e w).1 = some true) (id : Nat) (b : Bool)
    (hb : OMap.find id (pairObserved gen e' w).1 = some b) : b = true := by
  cases hc : gen w with
  | none => rw [((C139_verdict e w).1).2 hc] at h; cases h
  | some c =>
    have h' := ((C139_verdict e w).2 c hc).1.1 h
    by_cases hx : ∃ r ∈ c.snapshot, r.obj = id
    · have : ∃ r, LastAbout c.snapshot id r := by
        clear h' hc hb
        obtain ⟨r, hr, rfl⟩ := hx
        generalize c.snapshot = l at *
        induction l using List.reverseRecOn with
        | nil => cases hr
        | append_singleton l x ih =>
          by_cases hxx : x.obj = r.obj
          · exact ⟨x, l, [], rfl, hxx, by simp⟩
          · rcases List.mem_append.1 hr with hr | hr
            · obtain ⟨r', a, b, e1, e2, e3⟩ := ih hr
              refine ⟨r', a, b ++ [x], by rw [e1]; simp, e2, ?_⟩
              intro z hz
              rcases List.mem_append.1 hz with hz | hz
              · exact e3 z hz
              · rw [List.mem_singleton.1 hz]; exact hxx
            · rw [List.mem_singleton.1 hr] at hxx
              exact absurd rfl hxx
      obtain ⟨r, hl⟩ := this
      rw [((C139_pairwise e' w hc id).2 r hl).1] at hb
      cases hb
      obtain ⟨a, b, e1, -, -⟩ := hl
      rw [h' r (by rw [e1]; simp)]
      rfl
    · push Not at hx
      rw [((C139_pairwise e' w hc id).1 hx).1] at hb
      cases hb

/-- **C139 violated:** with two situations with one agent, a dangerous and then a safe one, the verdict is "unsafe" although all
pairwise verdicts are "safe". -/
theorem C139_agree_violated : ∃ (gen : Unit → Option (Check ℚ Unit)) (e : Evaluator ℚ Unit),
    (evalObserved gen e ()).1 = some false ∧ (pairObserved gen e ()).1 = [(7, true)] :=
  ⟨fun _ => some ⟨true, [⟨7, true, false, false, 0, 0, 0, 0⟩, ⟨7, false, true, true, 0, 0, 0, 0⟩], ()⟩, fresh 1 (),
    by decide +kernel, by decide +kernel⟩

/-- **C139 violated:** a failed check that leaves no responses is reported as "safe", not as no verdict. -/
theorem C139_failed_check_violated (e : Evaluator K P) (w : W) {c : Check K P} (hc : gen w = some c) (_ : c.ok = false)
    (hs : c.snapshot = []) : (evalObserved gen e w).1 = some true :=
  ((C139_verdict e w).2 c hc).1.2 (by rw [hs]; simp)

/-! ### What is kept -/

theorem newest_snoc_some {α β : Type} {sel : α → Option β} {d : β} {l : List α} {x : α} {b : β} (h : sel x = some b) :
    Newest sel d (l ++ [x]) b := Or.inl ⟨l, x, [], rfl, h, by simp⟩

theorem newest_snoc_none {α β : Type} {sel : α → Option β} {d : β} {l : List α} {x : α} {b : β} (h : sel x = none)
    (hb : Newest sel d l b) : Newest sel d (l ++ [x]) b := by
  rcases hb with ⟨a, y, c, rfl, h1, h2⟩ | ⟨h1, h2⟩
  · refine Or.inl ⟨a, y, c ++ [x], by simp, h1, ?_⟩
    intro z hz
    rcases List.mem_append.1 hz with hz | hz
    · exact h2 z hz
    · rw [List.mem_singleton.1 hz]; exact h
  · refine Or.inr ⟨?_, h2⟩
    intro z hz
    rcases List.mem_append.1 hz with hz | hz
    · exact h1 z hz
    · rw [List.mem_singleton.1 hz]; exact h

theorem kept (agent : Nat) (p0 : P) (calls : List (Call W)) :
    Newest (properOf gen) p0 calls (calls.foldl (after gen) (fresh agent p0)).rss.proper ∧
    Newest (snapshotOf gen) [] calls (calls.foldl (after gen) (fresh agent p0)).rss.snapshot := by
  induction calls using List.reverseRecOn with
  | nil => exact ⟨Or.inr ⟨by simp, rfl⟩, Or.inr ⟨by simp, rfl⟩⟩
  | append_singleton calls x ih =>
    obtain ⟨h1, h2⟩ := ih
    rw [List.foldl_append]
    simp only [List.foldl_cons, List.foldl_nil]
    generalize calls.foldl (after gen) (fresh agent p0) = e at *
    cases x with
    | evaluate w =>
      cases hc : gen w with
      | none =>
        have : (after gen e (.evaluate w)).rss = e.rss := by
          simp only [after, evalObserved, safety, hc]
        rw [this]
        exact ⟨newest_snoc_none (by simp [properOf, hc]) h1, newest_snoc_none (by simp [snapshotOf, hc]) h2⟩
      | some c =>
        have : (after gen e (.evaluate w)).rss = ⟨c.proper, c.snapshot⟩ := by
          simp only [after, evalObserved, safety, hc]
        rw [this]
        exact ⟨newest_snoc_some (by simp [properOf, hc]), newest_snoc_some (by simp [snapshotOf, hc])⟩
    | pairwise w =>
      cases hc : gen w with
      | none =>
        have : (after gen e (.pairwise w)).rss = e.rss := by
          simp only [after, pairObserved, pairwise, hc]
        rw [this]
        exact ⟨newest_snoc_none (by simp [properOf, hc]) h1, newest_snoc_none (by simp [snapshotOf, hc]) h2⟩
      | some c =>
        have : (after gen e (.pairwise w)).rss = ⟨c.proper, c.snapshot⟩ := by
          simp only [after, pairObserved, pairwise, hc]
        rw [this]
        exact ⟨newest_snoc_some (by simp [properOf, hc]), newest_snoc_some (by simp [snapshotOf, hc])⟩
    | directional w =>
      cases hc : gen w with
      | none =>
        have : (after gen e (.directional w)).rss = e.rss := by
          simp only [after, dirObserved, directional, hc]
        rw [this]
        exact ⟨newest_snoc_none (by simp [properOf, hc]) h1, newest_snoc_none (by simp [snapshotOf]) h2⟩
      | some c =>
        have : (after gen e (.directional w)).rss = ⟨c.proper, e.rss.snapshot⟩ := by
          simp only [after, dirObserved, directional, hc]
        rw [this]
        exact ⟨newest_snoc_some (by simp [properOf, hc]), newest_snoc_none (by simp [snapshotOf]) h2⟩

/-- **C139, what an evaluator reports after evaluating.** For every history of calls: the proper response and the safety
polygons read after evaluating a world do not belong to this world but to the newest one before it. -/
theorem C139_reported (agent : Nat) (p0 : P) (calls : List (Call W)) (w : W) :
    ∃ rs, Newest (snapshotOf gen) [] calls rs ∧
      Newest (properOf gen) p0 calls ((calls ++ [Call.evaluate w]).foldl (after gen) (fresh agent p0 : Evaluator K P)).proper ∧
      List.Forall₂ PolyOf rs ((calls ++ [Call.evaluate w]).foldl (after gen) (fresh agent p0 : Evaluator K P)).polygons := by
  obtain ⟨h1, h2⟩ := kept (gen := gen) (K := K) agent p0 calls
  rw [List.foldl_append]
  refine ⟨_, h2, h1, ?_⟩
  show List.Forall₂ PolyOf _ (polygonsOf _)
  unfold polygonsOf
  rw [List.forall₂_map_right_iff, List.forall₂_same]
  intro r _
  exact ⟨rfl, rfl, rfl, rfl, rfl⟩

/-- **C139 violated:** the first evaluation reports the default response and no polygons, whatever the world; the second one
reports those of the first. -/
theorem C139_stale_violated (agent : Nat) (p0 : P) (w1 w2 : W) {c1 : Check K P} (h1 : gen w1 = some c1) :
    ((evalObserved gen (fresh agent p0 : Evaluator K P) w1).2.proper = p0 ∧
      (evalObserved gen (fresh agent p0 : Evaluator K P) w1).2.polygons = []) ∧
    (evalObserved gen (evalObserved gen (fresh agent p0 : Evaluator K P) w1).2 w2).2.proper = c1.proper ∧
    List.Forall₂ PolyOf c1.snapshot
      (evalObserved gen (evalObserved gen (fresh agent p0 : Evaluator K P) w1).2 w2).2.polygons := by
  refine ⟨⟨rfl, rfl⟩, ?_, ?_⟩
  · simp only [evalObserved, safety, h1]
  · simp only [evalObserved, safety, h1, polygonsOf]
    rw [List.forall₂_map_right_iff, List.forall₂_same]
    intro r _
    exact ⟨rfl, rfl, rfl, rfl, rfl⟩

end

/-- two evaluations with different responses -/
def demoGen (w : Nat) : Option (Check ℚ Nat) :=
  some ⟨true, [⟨7, decide (w = 2), true, true, 10, 1, 1, 30⟩], 100 + w⟩

example : (evalObserved demoGen (evalObserved demoGen (fresh 1 0) 1).2 2).1 = some false ∧
    (evalObserved demoGen (evalObserved demoGen (fresh 1 0) 1).2 2).2.proper = 101 := by decide +kernel

/-! ### Relevant agents -/

section
variable {K : Type} [Field K] [LinearOrder K] [IsStrictOrderedRing K]

theorem maxStop_right {ph : Physics K} (hp : RightPhysics ph) {d : Dynamics K} (hd : Sensible d) (v : K) :
    maxStop ph d v = stopping |v| (max d.accLonMax d.accLatMax) d.responseTime (-min d.brakeMin d.brakeMax) := by
  have ha : (if 0 ≤ v then v else -v) = |v| := by
    by_cases h : 0 ≤ v
    · rw [if_pos h, abs_of_nonneg h]
    · rw [if_neg h, abs_of_neg (not_le.1 h)]
  have h0 : 0 ≤ max d.accLonMax d.accLatMax := le_max_of_le_left hd.accLon
  unfold maxStop
  rw [ha, hp.accelerate _ _ _ (abs_nonneg v) h0 hd.time]
  simp only
  have hv : 0 ≤ |v| + max d.accLonMax d.accLatMax * d.responseTime :=
    add_nonneg (abs_nonneg v) (mul_nonneg h0 hd.time)
  rw [if_pos hv, hp.stop _ _ hv (min_lt_of_left_lt hd.min)]
  rfl

theorem mem_relevant {ph : Physics K} {others : Dynamics K} {scaling : K} {ego : Nat} {egoStop : K} {speed distance : Nat → K}
    {a : Nat} : ∀ {as : List Nat}, a ∈ relevant ph others scaling ego egoStop speed distance as ↔
      a ∈ as ∧ a ≠ ego ∧ distance a < (egoStop + maxStop ph others (speed a)) * scaling
  | [] => by simp [relevant]
  | x :: as => by
    unfold relevant
    by_cases h1 : x ≠ ego
    · rw [if_pos h1]
      by_cases h2 : distance x < (egoStop + maxStop ph others (speed x)) * scaling
      · rw [if_pos h2, List.mem_cons, mem_relevant (as := as), List.mem_cons]
        constructor
        · rintro (rfl | ⟨h3, h4⟩)
          · exact ⟨Or.inl rfl, h1, h2⟩
          · exact ⟨Or.inr h3, h4⟩
        · rintro ⟨rfl | h3, h4⟩
          · exact Or.inl rfl
          · exact Or.inr ⟨h3, h4⟩
      · rw [if_neg h2, mem_relevant (as := as), List.mem_cons]
        constructor
        · rintro ⟨h3, h4⟩
          exact ⟨Or.inr h3, h4⟩
        · rintro ⟨rfl | h3, h4⟩
          · exact absurd h4.2 h2
          · exact ⟨h3, h4⟩
    · rw [if_neg h1, mem_relevant (as := as), List.mem_cons]
      constructor
      · rintro ⟨h3, h4⟩
        exact ⟨Or.inr h3, h4⟩
      · rintro ⟨rfl | h3, h4⟩
        · exact absurd h4.1 h1
        · exact ⟨h3, h4⟩

/-- **C140.** The agents considered are exactly the other agents closer than the scaled sum of the two stopping distances, in
the order of the ids; the stopping distance is that with the largest acceleration during the response time – and the
*strongest* of the two decelerations. -/
theorem C140_considered {ph : Physics K} (hp : RightPhysics ph) {dEgo others : Dynamics K} (hE : Sensible dEgo)
    (hO : Sensible others) (scaling vEgo : K) (ego : Nat) (speed distance : Nat → K) (as : List Nat) :
    (relevant ph others scaling ego (maxStop ph dEgo vEgo) speed distance as).Sublist as ∧
    ∀ a, a ∈ relevant ph others scaling ego (maxStop ph dEgo vEgo) speed distance as ↔ a ∈ as ∧ a ≠ ego ∧
      distance a <
        (stopping |vEgo| (max dEgo.accLonMax dEgo.accLatMax) dEgo.responseTime (-min dEgo.brakeMin dEgo.brakeMax) +
          stopping |speed a| (max others.accLonMax others.accLatMax) others.responseTime
            (-min others.brakeMin others.brakeMax)) * scaling := by
  constructor
  · induction as with
    | nil => exact List.Sublist.refl _
    | cons x as ih =>
      unfold relevant
      split
      · split
        · exact ih.cons₂ x
        · exact ih.cons x
      · exact ih.cons x
  · intro a
    rw [mem_relevant, maxStop_right hp hE, maxStop_right hp hO]

theorem stopping_nonneg {v a t b : K} (hv : 0 ≤ v) (ha : 0 ≤ a) (ht : 0 ≤ t) (hb : 0 < b) : 0 ≤ stopping v a t b := by
  unfold stopping
  positivity

theorem stopping_anti {v a t b b' : K} (hb : 0 < b) (h : b ≤ b') :
    stopping v a t b' ≤ stopping v a t b := by
  unfold stopping
  have h1 : (v + a * t) * (v + a * t) / (2 * b') ≤ (v + a * t) * (v + a * t) / (2 * b) := by
    apply div_le_div_of_nonneg_left (mul_self_nonneg _) (by positivity) (by linarith)
  linarith

theorem stopping_acc {v a a' t b : K} (hv : 0 ≤ v) (ha : 0 ≤ a) (h : a ≤ a') (ht : 0 ≤ t) (hb : 0 < b) :
    stopping v a t b ≤ stopping v a' t b := by
  unfold stopping
  have h0 : a * t ≤ a' * t := mul_le_mul_of_nonneg_right h ht
  have h1 : a * t * t ≤ a' * t * t := mul_le_mul_of_nonneg_right h0 ht
  have h3 : 0 ≤ a * t := mul_nonneg ha ht
  have h2 : (v + a * t) * (v + a * t) / (2 * b) ≤ (v + a' * t) * (v + a' * t) / (2 * b) := by
    apply div_le_div_of_nonneg_right _ (by positivity)
    exact mul_self_le_mul_self (by linarith) (by linarith)
  have h4 : a * t * t / 2 ≤ a' * t * t / 2 := by linarith
  linarith

/-- **C140** (only if the weakest deceleration is not weaker than the strongest one, i.e. both are the same, and measured
between the reference points). Two vehicles closer than their RSS distance, whichever is in front, are considered. -/
theorem C140_covers {ph : Physics K} (hp : RightPhysics ph) {dEgo others : Dynamics K} (hE : Sensible dEgo)
    (hO : Sensible others) (hbE : dEgo.brakeMin ≤ dEgo.brakeMax) (hbO : others.brakeMin ≤ others.brakeMax)
    {scaling : K} (hs : 1 ≤ scaling) {vEgo : K} (hv : 0 ≤ vEgo) {ego : Nat} {speed distance : Nat → K} {as : List Nat} {a : Nat}
    (ha : a ∈ as) (hne : a ≠ ego) (hd0 : 0 ≤ distance a) (hva : 0 ≤ speed a)
    (h : distance a < followDistance vEgo dEgo.accLonMax dEgo.responseTime (-dEgo.brakeMin) (speed a) (-others.brakeMax) ∨
      distance a < followDistance (speed a) others.accLonMax others.responseTime (-others.brakeMin) vEgo (-dEgo.brakeMax)) :
    a ∈ relevant ph others scaling ego (maxStop ph dEgo vEgo) speed distance as := by
  have mE : min dEgo.brakeMin dEgo.brakeMax = dEgo.brakeMin := min_eq_left hbE
  have mO : min others.brakeMin others.brakeMax = others.brakeMin := min_eq_left hbO
  rw [mem_relevant, maxStop_right hp hE, maxStop_right hp hO, mE, mO, abs_of_nonneg hv, abs_of_nonneg hva]
  have pE : 0 < -dEgo.brakeMin := neg_pos.2 hE.min
  have pO : 0 < -others.brakeMin := neg_pos.2 hO.min
  have nE := stopping_acc hv hE.accLon (le_max_left dEgo.accLonMax dEgo.accLatMax) hE.time pE
  have nO := stopping_acc hva hO.accLon (le_max_left others.accLonMax others.accLatMax) hO.time pO
  have zE := stopping_nonneg hv hE.accLon hE.time pE
  have zO := stopping_nonneg hva hO.accLon hO.time pO
  have qE : 0 ≤ vEgo * vEgo / (2 * -dEgo.brakeMax) :=
    div_nonneg (mul_self_nonneg _) (by have := hE.max; linarith)
  have qO : 0 ≤ speed a * speed a / (2 * -others.brakeMax) :=
    div_nonneg (mul_self_nonneg _) (by have := hO.max; linarith)
  refine ⟨ha, hne, ?_⟩
  generalize stopping vEgo (max dEgo.accLonMax dEgo.accLatMax) dEgo.responseTime (-dEgo.brakeMin) = SE at *
  generalize stopping (speed a) (max others.accLonMax others.accLatMax) others.responseTime (-others.brakeMin) = SO at *
  have hsum : distance a < SE + SO := by
    rcases h with h | h
    · unfold followDistance at h
      rcases lt_max_iff.1 h with h | h
      · linarith
      · linarith
    · unfold followDistance at h
      rcases lt_max_iff.1 h with h | h
      · linarith
      · linarith
  have : (SE + SO) * 1 ≤ (SE + SO) * scaling := mul_le_mul_of_nonneg_left hs (by linarith)
  linarith

/-- **C140 violated:** whenever the weakest assumed braking is weaker than the strongest one, the "maximum stopping distance"
is smaller than the way until standstill with the weakest braking. -/
theorem C140_bound_violated {ph : Physics K} (hp : RightPhysics ph) {d : Dynamics K} (hd : Sensible d)
    (hb : d.brakeMax < d.brakeMin) {v : K} (hv : 0 < v) :
    maxStop ph d v < stopping v (max d.accLonMax d.accLatMax) d.responseTime (-d.brakeMin) := by
  rw [maxStop_right hp hd, min_eq_right hb.le, abs_of_pos hv]
  have h0 : 0 ≤ max d.accLonMax d.accLatMax := le_max_of_le_left hd.accLon
  have hx : 0 < v + max d.accLonMax d.accLatMax * d.responseTime := by
    have := mul_nonneg h0 hd.time
    linarith
  unfold stopping
  generalize v + max d.accLonMax d.accLatMax * d.responseTime = x at *
  have : x * x / (2 * -d.brakeMax) < x * x / (2 * -d.brakeMin) := by
    apply div_lt_div_of_pos_left (mul_pos hx hx)
    · have := hd.min; linarith
    · linarith
  linarith

/-- If the physics functions fail, fixed distances are used. -/
theorem C140_fallback (ph : Physics K) (d : Dynamics K) (v : K)
    (h : ∀ x, ph.accelerate x (max d.accLonMax d.accLatMax) d.responseTime = none) : maxStop ph d v = 100 := by
  unfold maxStop
  rw [h]
  norm_num

theorem C140_fallback_stop (ph : Physics K) (d : Dynamics K) (v : K) {v' s : K}
    (h : ph.accelerate |v| (max d.accLonMax d.accLatMax) d.responseTime = some (v', s))
    (h2 : ∀ x b, ph.stop x b = none) : maxStop ph d v = s + 50 := by
  have ha : (if 0 ≤ v then v else -v) = |v| := by
    by_cases g : 0 ≤ v
    · rw [if_pos g, abs_of_nonneg g]
    · rw [if_neg g, abs_of_neg (not_le.1 g)]
  unfold maxStop
  rw [ha, h]
  simp only [h2]

end

/-- the physics functions as they should be -/
def goodPhysics : Physics ℚ :=
  ⟨fun v a t => some (v + a * t, v * t + a * t * t / 2), fun v b => some (v * v / (2 * -b))⟩

theorem goodPhysics_right : RightPhysics goodPhysics := ⟨fun _ _ _ _ _ _ => rfl, fun _ _ _ _ => rfl⟩

/-- settings with an emergency braking stronger than the normal one -/
def demoDyn : Dynamics ℚ := ⟨2, 1, -8, -4, 0⟩

theorem demoDyn_sensible : Sensible demoDyn := by
  constructor <;> norm_num [demoDyn]

/-- **C140 violated:** a vehicle standing 40 m ahead of an ego with 20 m/s is not considered, although the RSS distance is
50 m. -/
theorem C140_covers_violated : RightPhysics goodPhysics ∧ Sensible demoDyn ∧
    followDistance (20 : ℚ) demoDyn.accLonMax demoDyn.responseTime (-demoDyn.brakeMin) 0 (-demoDyn.brakeMax) = 50 ∧
    relevant goodPhysics demoDyn 1 1 (maxStop goodPhysics demoDyn 20) (fun _ => 0) (fun _ => 40) [1, 2] = [] := by
  refine ⟨goodPhysics_right, demoDyn_sensible, by decide +kernel, by decide +kernel⟩

/-- the hypotheses of the positive theorem are met -/
example : 2 ∈ relevant goodPhysics ⟨2, 1, -4, -4, 0⟩ 1 1 (maxStop goodPhysics ⟨2, 1, -4, -4, 0⟩ 20) (fun _ => 0) (fun _ => 40)
    [1, 2] := by
  refine C140_covers (dEgo := ⟨2, 1, -4, -4, 0⟩) goodPhysics_right ?_ ?_ (le_refl _) (le_refl _) (le_refl _) (by norm_num)
    (by simp) (by decide) (by norm_num) (le_refl _) (Or.inl ?_)
  · constructor <;> norm_num
  · constructor <;> norm_num
  · decide +kernel

/-! ### Route and turn rate -/

section
variable {K : Type} [Field K] [LinearOrder K] [IsStrictOrderedRing K] {R : Type}

theorem maxElement_spec : ∀ {l : List (K × R)}, (maxElement l = none ↔ l = []) ∧
    ∀ {x}, maxElement l = some x → ∃ a b, l = a ++ x :: b ∧ (∀ y ∈ a, y.1 < x.1) ∧ ∀ y ∈ b, y.1 ≤ x.1
  | [] => by simp [maxElement]
  | z :: l => by
    have ih := maxElement_spec (l := l)
    unfold maxElement
    cases h : maxElement l with
    | none =>
      refine ⟨by simp, ?_⟩
      intro x hx
      cases hx
      rw [ih.1.1 h]
      exact ⟨[], [], rfl, by simp, by simp⟩
    | some y =>
      simp only
      obtain ⟨a, b, e1, e2, e3⟩ := ih.2 h
      by_cases g : z.1 < y.1
      · rw [if_pos g]
        refine ⟨by simp, ?_⟩
        intro x hx
        cases hx
        refine ⟨z :: a, b, by rw [e1]; rfl, ?_, e3⟩
        intro w hw
        rcases List.mem_cons.1 hw with rfl | hw
        · exact g
        · exact e2 w hw
      · rw [if_neg g]
        refine ⟨by simp, ?_⟩
        intro x hx
        cases hx
        have g' := not_lt.1 g
        refine ⟨[], l, rfl, by simp, ?_⟩
        intro w hw
        rw [e1] at hw
        rcases List.mem_append.1 hw with hw | hw
        · exact (e2 w hw).le.trans g'
        · rcases List.mem_cons.1 hw with rfl | hw
          · exact g'
          · exact (e3 w hw).trans g'

theorem collect_spec : ∀ {ps : List (Position K R)} {f : Bool} {rs : List (K × R)},
    ((collectRoutes ps f rs).1 = true ↔ f = true ∨ ∃ p ∈ ps, ∃ r, p.planned = some r) ∧
    (∀ p ∈ ps, ∀ r, p.planned = some r → (p.probability, r) ∈ (collectRoutes ps f rs).2) ∧
    (∀ x ∈ rs, x ∈ (collectRoutes ps f rs).2) ∧
    (∀ x ∈ (collectRoutes ps f rs).2, x ∈ rs ∨ (∃ p ∈ ps, p.planned = some x.2 ∧ x.1 = p.probability) ∨
      (x.1 = 0 ∧ f = false ∧ ∃ a p b, ps = a ++ p :: b ∧ (∀ q ∈ a, q.planned = none) ∧ p.planned = none ∧ x.2 ∈ p.predicted)) ∧
    ((∀ p ∈ ps, p.planned = none) → f = false → ∀ p ∈ ps, ∀ r ∈ p.predicted, ((0 : K), r) ∈ (collectRoutes ps f rs).2)
  | [], f, rs => by
    unfold collectRoutes
    simp
  | p :: ps, f, rs => by
    unfold collectRoutes
    cases hp : p.planned with
    | some r =>
      simp only
      obtain ⟨h1, h2, h3, h4, h5⟩ := collect_spec (ps := ps) (f := true) (rs := rs ++ [(p.probability, r)])
      refine ⟨?_, ?_, ?_, ?_, ?_⟩
      · rw [h1]
        simp only [true_or, true_iff]
        exact Or.inr ⟨p, by simp, r, hp⟩
      · intro q hq r' hr
        rcases List.mem_cons.1 hq with rfl | hq
        · rw [hp] at hr
          cases hr
          exact h3 _ (by simp)
        · exact h2 q hq r' hr
      · intro x hx
        exact h3 x (by simp [hx])
      · intro x hx
        rcases h4 x hx with h | ⟨q, hq, h⟩ | ⟨-, h, -⟩
        · rcases List.mem_append.1 h with h | h
          · exact Or.inl h
          · rw [List.mem_singleton.1 h]
            exact Or.inr (Or.inl ⟨p, by simp, hp, rfl⟩)
        · exact Or.inr (Or.inl ⟨q, by simp [hq], h⟩)
        · cases h
      · intro h
        have := h p (by simp)
        rw [hp] at this
        cases this
    | none =>
      simp only
      by_cases hf : f = false
      · rw [if_pos hf]
        obtain ⟨h1, h2, h3, h4, h5⟩ := collect_spec (ps := ps) (f := f) (rs := rs ++ p.predicted.map fun r => ((0 : K), r))
        refine ⟨?_, ?_, ?_, ?_, ?_⟩
        · rw [h1]
          constructor
          · rintro (h | ⟨q, hq, h⟩)
            · exact Or.inl h
            · exact Or.inr ⟨q, by simp [hq], h⟩
          · rintro (h | ⟨q, hq, r, h⟩)
            · exact Or.inl h
            · rcases List.mem_cons.1 hq with rfl | hq
              · rw [hp] at h; cases h
              · exact Or.inr ⟨q, hq, r, h⟩
        · intro q hq r' hr
          rcases List.mem_cons.1 hq with rfl | hq
          · rw [hp] at hr; cases hr
          · exact h2 q hq r' hr
        · intro x hx
          exact h3 x (by simp [hx])
        · intro x hx
          rcases h4 x hx with h | ⟨q, hq, h⟩ | ⟨h, h', a, q, b, e1, e2, e3⟩
          · rcases List.mem_append.1 h with h | h
            · exact Or.inl h
            · obtain ⟨r, hr, rfl⟩ := List.mem_map.1 h
              exact Or.inr (Or.inr ⟨rfl, hf, [], p, ps, rfl, by simp, hp, hr⟩)
          · exact Or.inr (Or.inl ⟨q, by simp [hq], h⟩)
          · refine Or.inr (Or.inr ⟨h, h', p :: a, q, b, by rw [e1]; rfl, ?_, e3⟩)
            intro z hz
            rcases List.mem_cons.1 hz with rfl | hz
            · exact hp
            · exact e2 z hz
        · intro h h' q hq r hr
          rcases List.mem_cons.1 hq with rfl | hq
          · exact h3 _ (by simp [hr])
          · exact h5 (fun z hz => h z (by simp [hz])) h' q hq r hr
      · rw [if_neg hf]
        obtain ⟨h1, h2, h3, h4, h5⟩ := collect_spec (ps := ps) (f := f) (rs := rs)
        refine ⟨?_, ?_, h3, ?_, ?_⟩
        · rw [h1]
          constructor
          · rintro (h | ⟨q, hq, h⟩)
            · exact Or.inl h
            · exact Or.inr ⟨q, by simp [hq], h⟩
          · rintro (h | ⟨q, hq, r, h⟩)
            · exact Or.inl h
            · rcases List.mem_cons.1 hq with rfl | hq
              · rw [hp] at h; cases h
              · exact Or.inr ⟨q, hq, r, h⟩
        · intro q hq r' hr
          rcases List.mem_cons.1 hq with rfl | hq
          · rw [hp] at hr; cases hr
          · exact h2 q hq r' hr
        · intro x hx
          rcases h4 x hx with h | ⟨q, hq, h⟩ | ⟨h, h', -⟩
          · exact Or.inl h
          · exact Or.inr (Or.inl ⟨q, by simp [hq], h⟩)
          · exact absurd h' hf
        · intro _ h'
          exact absurd h' hf

/-- **C141.** The flag says whether a route to the goal was planned from some matched position. If it was, from a position
with positive probability, the route handed to RSS is one planned from a position of largest probability among these; if none
was, it is one of the predicted routes, if there is one. -/
theorem C141_route (ps : List (Position K R)) :
    ((generateRoute ps).2 = true ↔ ∃ p ∈ ps, ∃ r, p.planned = some r) ∧
    ((∃ p ∈ ps, 0 < p.probability ∧ ∃ r, p.planned = some r) →
      ∃ p ∈ ps, ∃ r, p.planned = some r ∧ (generateRoute ps).1 = some r ∧
        ∀ q ∈ ps, (∃ r, q.planned = some r) → q.probability ≤ p.probability) ∧
    ((∀ p ∈ ps, p.planned = none) → (∀ r, (generateRoute ps).1 = some r → ∃ p ∈ ps, r ∈ p.predicted) ∧
      ((generateRoute ps).1 = none ↔ ∀ p ∈ ps, p.predicted = [])) := by
  obtain ⟨h1, h2, h3, h4, h5⟩ := collect_spec (ps := ps) (f := false) (rs := [])
  obtain ⟨m1, m2⟩ := maxElement_spec (l := (collectRoutes ps false []).2)
  unfold generateRoute
  refine ⟨by simpa using h1, ?_, ?_⟩
  · rintro ⟨p, hp, hpos, r, hr⟩
    have hm := h2 p hp r hr
    cases hx : maxElement (collectRoutes ps false []).2 with
    | none => rw [m1.1 hx] at hm; cases hm
    | some x =>
      obtain ⟨a, b, e1, e2, e3⟩ := m2 hx
      have hbig : ∀ y ∈ (collectRoutes ps false []).2, y.1 ≤ x.1 := by
        intro y hy
        rw [e1] at hy
        rcases List.mem_append.1 hy with hy | hy
        · exact (e2 y hy).le
        · rcases List.mem_cons.1 hy with rfl | hy
          · exact le_refl _
          · exact e3 y hy
      rcases h4 x (by rw [e1]; simp) with h | ⟨q, hq, hq1, hq2⟩ | ⟨h, -⟩
      · cases h
      · refine ⟨q, hq, x.2, hq1, rfl, ?_⟩
        rintro z hz ⟨r', hr'⟩
        rw [← hq2]
        exact hbig _ (h2 z hz r' hr')
      · have := hbig _ hm
        simp only at this
        rw [h] at this
        exact absurd hpos (not_lt.2 this)
  · intro hn
    constructor
    · intro r hr
      obtain ⟨x, hx, rfl⟩ := Option.map_eq_some_iff.1 hr
      obtain ⟨a, b, e1, -, -⟩ := m2 hx
      rcases h4 x (by rw [e1]; simp) with h | ⟨q, hq, hq1, -⟩ | ⟨-, -, a, p, b, e1, -, -, h⟩
      · cases h
      · rw [hn q hq] at hq1; cases hq1
      · exact ⟨p, by rw [e1]; simp, h⟩
    · rw [Option.map_eq_none_iff, m1]
      constructor
      · intro h p hp
        cases hpr : p.predicted with
        | nil => rfl
        | cons r rs =>
          have := h5 hn rfl p hp r (by rw [hpr]; simp)
          rw [h] at this
          cases this
      · intro h
        cases hc : (collectRoutes ps false []).2 with
        | nil => rfl
        | cons x xs =>
          rcases h4 x (by rw [hc]; simp) with h' | ⟨q, hq, hq1, -⟩ | ⟨-, -, a, p, b, e1, -, -, h'⟩
          · cases h'
          · rw [hn q hq] at hq1; cases hq1
          · rw [h p (by rw [e1]; simp)] at h'
            cases h'

/-- **C141 violated:** the flag may be true although the route handed to RSS does not lead to the goal: a predicted route found
before a planned one of probability 0 wins. -/
theorem C141_guess_violated : ∃ ps : List (Position ℚ String), (generateRoute ps) = (some "guess", true) ∧
    ∀ p ∈ ps, p.planned ≠ some "guess" :=
  ⟨[⟨1, none, ["guess"]⟩, ⟨0, some "goal", []⟩], by decide +kernel, by decide +kernel⟩

example : generateRoute (K := ℚ) [⟨1/2, none, ["guess"]⟩, ⟨1/4, some "a", []⟩, ⟨1/3, some "b", []⟩] = (some "b", true) := by
  decide +kernel

end

/-- **C141, turn rate.** 0 with fewer than two states, otherwise the shortest rotation between the last two states over the
time between them; two states of the same time give no number. -/
theorem C141_turn_rate (history : List (ℝ × ℝ)) (prev cur : ℝ × ℝ) :
    (history.length < 2 → angularVelocity id history = .ok 0) ∧
    (cur.1 = prev.1 → angularVelocity id (history ++ [prev, cur]) = .error .nan) ∧
    (cur.1 ≠ prev.1 → ∃ ω, angularVelocity id (history ++ [prev, cur]) = .ok ω ∧
      Angle.Spec.SameDir (ω * (cur.1 - prev.1)) (cur.2 - prev.2) ∧
      ∀ r, Angle.Spec.SameDir r (cur.2 - prev.2) → |ω * (cur.1 - prev.1)| ≤ |r|) := by
  have e : (history ++ [prev, cur]).reverse = cur :: prev :: history.reverse := by simp
  refine ⟨?_, ?_, ?_⟩
  · intro h
    unfold angularVelocity
    match history, h with
    | [], _ => rfl
    | [x], _ => rfl
  · intro h
    unfold angularVelocity
    rw [e]
    simp only
    rw [if_pos (by rw [h]; ring)]
  · intro h
    have h' : cur.1 - prev.1 ≠ 0 := sub_ne_zero.2 h
    obtain ⟨-, -, h1, h2⟩ := Angle.C31_signed_difference cur.2 prev.2
    refine ⟨_, by unfold angularVelocity; rw [e]; simp only; rw [if_neg h'], ?_, ?_⟩
    · rw [div_mul_cancel₀ _ h']
      exact h1
    · rw [div_mul_cancel₀ _ h']
      exact h2

end Bark.RssEval
