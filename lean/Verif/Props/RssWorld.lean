import Verif.Spec.RssWorld
import Verif.Props.RssEval
import Mathlib.Tactic.LinearCombination

/-! C209: what the RSS library is told. -/
namespace Bark.RssEval
open Bark Spec
set_option linter.unusedSectionVars false

theorem turn_of {h : List RSt} {w : ℝ} (e : angularVelocity id (h.map fun q => (q.t, q.th)) = .ok w) : TurnRate h w := by
  refine ⟨fun hl => ?_, fun h' p c hh => ?_⟩
  · have := (C141_turn_rate (h.map fun q => (q.t, q.th)) (0, 0) (0, 0)).1 (by simpa using hl)
    rw [e] at this
    cases this
    rfl
  · subst hh
    rw [List.map_append, List.map_cons, List.map_cons, List.map_nil] at e
    obtain ⟨_, h2, h3⟩ := C141_turn_rate (h'.map fun q => (q.t, q.th)) (p.t, p.th) (c.t, c.th)
    by_cases ht : c.t = p.t
    · rw [h2 ht] at e
      cases e
    · obtain ⟨ω, e', h4, h5⟩ := h3 ht
      rw [e] at e'
      cases e'
      exact ⟨ht, h4, h5⟩

theorem cur_ok {a : RAgent} {s : RSt} (h : curState a = .ok s) : a.history.getLast? = some s := by
  unfold curState at h
  split at h
  · next q hq => cases h; exact hq
  · cases h

theorem objData_tells {ego : Bool} {d : Dynamics ℝ} {a : RAgent} {o : ObjData (Dynamics ℝ)} (h : objData id ego d a = .ok o) :
    Tells ego d a o := by
  unfold objData at h
  split at h
  · cases h
  · next s hs =>
    split at h
    · cases h
    · next w hw =>
      cases h
      exact ⟨s, cur_ok hs, rfl, rfl, rfl, rfl, rfl, turn_of hw, rfl⟩

theorem scenes_spec {R S : Type} {append : ObjData (Dynamics ℝ) → Option R → ObjData (Dynamics ℝ) → List S} {eo : ObjData (Dynamics ℝ)}
    {route : Option R} {d : Dynamics ℝ} : ∀ {as : List RAgent} {ss : List S}, scenesOf id append eo route d as = .ok ss →
      ∃ os, List.Forall₂ (Tells false d) as os ∧ ss = os.flatMap (append eo route)
  | [], ss, h => by
    unfold scenesOf at h
    cases h
    exact ⟨[], .nil, rfl⟩
  | a :: as, ss, h => by
    unfold scenesOf at h
    split at h
    · cases h
    · next o ho =>
      split at h
      · cases h
      · next ts ht =>
        cases h
        obtain ⟨os, h1, rfl⟩ := scenes_spec ht
        exact ⟨o :: os, .cons (objData_tells ho) h1, by rw [List.flatMap_cons]⟩

open Classical in
theorem relevant_spec {R S : Type} {c : RssSet R S} {ego : Nat} {s : RSt} : ∀ {as rs : List RAgent}, relevantAgents c ego s as = .ok rs →
    rs = as.filter (fun a => decide (Near (maxStop c.ph c.dEgo s.v) (maxStop c.ph c.dOthers) c.scaling ego s a))
  | [], rs, h => by
    unfold relevantAgents at h
    cases h
    rfl
  | a :: as, rs, h => by
    unfold relevantAgents at h
    split_ifs at h with h1
    · split at h
      · cases h
      · next q hq =>
        have hl := cur_ok hq
        split at h
        · cases h
        · next ts ht =>
          have ih := relevant_spec ht
          split_ifs at h with h2
          · cases h
            have hn : Near (maxStop c.ph c.dEgo s.v) (maxStop c.ph c.dOthers) c.scaling ego s a :=
              ⟨h1, q, hl, by simpa only [pow_two] using h2⟩
            rw [List.filter_cons_of_pos (by simpa using hn), ← ih]
          · cases h
            have hn : ¬ Near (maxStop c.ph c.dEgo s.v) (maxStop c.ph c.dOthers) c.scaling ego s a := by
              rintro ⟨_, q', hq', h3⟩
              rw [hl] at hq'
              cases hq'
              exact h2 (by simpa only [pow_two] using h3)
            rw [List.filter_cons_of_neg (by simpa using hn), ← ih]
    · have hn : ¬ Near (maxStop c.ph c.dEgo s.v) (maxStop c.ph c.dOthers) c.scaling ego s a := fun h' => h1 h'.1
      rw [List.filter_cons_of_neg (by simpa using hn)]
      exact relevant_spec h

open Classical in
/-- **C209: what RSS is told.** If a world is handed to the library, its time is one more than that of the ego vehicle's state, and its scenes
are, in the order of the agents, those of the ego vehicle along its route to the goal with each other agent that is closer than the scaled sum
of the stopping distances, and with no others. Of each vehicle the current speed, orientation, angular velocity, position and size are told. -/
theorem C209_told {R S : Type} {c : RssSet R S} (hr : c.rnd = id) {agents : OMap Nat RAgent} {ego : Nat} {goal : Option (ℝ × ℝ)} {b : Bool}
    {t : ℝ} {ss : List S} (h : rssWorld c agents ego goal = .ok (b, t, ss)) :
    ∃ e s g eo os, (ego, e) ∈ agents ∧ e.history.getLast? = some s ∧ goal = some g ∧ Tells true c.dEgo e eo ∧ t = s.t + 1 ∧
      b = c.valid t ss ∧ ss = os.flatMap (c.append eo (c.route eo.box g)) ∧
      List.Forall₂ (Tells false c.dOthers)
        ((agents.map Prod.snd).filter (fun a => decide (Near (maxStop c.ph c.dEgo s.v) (maxStop c.ph c.dOthers) c.scaling ego s a))) os := by
  unfold rssWorld at h
  rw [hr] at h
  split at h
  · cases h
  · next e he =>
    split at h
    · cases h
    · next g =>
      split at h
      · next eo s heo hs =>
        split at h
        · cases h
        · next rs hrs =>
          split at h
          · cases h
          · next ts hts =>
            simp only [Except.ok.injEq, Prod.mk.injEq] at h
            obtain ⟨rfl, rfl, rfl⟩ := h
            obtain ⟨os, h1, h2⟩ := scenes_spec hts
            refine ⟨e, s, g, eo, os, OMap.find_some_mem he, cur_ok hs, rfl, objData_tells heo, rfl, rfl, h2, ?_⟩
            rw [← relevant_spec hrs]
            exact h1
      · cases h
      · cases h

/-- **C209: when asking is undefined.** Without the ego vehicle in the world, or without a goal of it, a null pointer is dereferenced. -/
theorem C209_undefined {R S : Type} (c : RssSet R S) (agents : OMap Nat RAgent) (ego : Nat) (goal : Option (ℝ × ℝ)) :
    ((∀ e, (ego, e) ∉ agents) → rssWorld c agents ego goal = .error .ub) ∧ (goal = none → rssWorld c agents ego goal = .error .ub) := by
  constructor
  · intro hn
    unfold rssWorld
    cases he : OMap.find ego agents with
    | none => rfl
    | some e => exact absurd (OMap.find_some_mem he) (hn e)
  · rintro rfl
    unfold rssWorld
    cases OMap.find ego agents <;> rfl

theorem objData_ok {ego : Bool} {d : Dynamics ℝ} {a : RAgent} (h1 : a.history ≠ [])
    (h2 : ∀ h' p c, a.history = h' ++ [p, c] → c.t ≠ p.t) : ∃ o, objData id ego d a = .ok o := by
  have hs : ∃ s, curState a = .ok s := by
    unfold curState
    cases hl : a.history.getLast? with
    | none => exact absurd (List.getLast?_eq_none_iff.1 hl) h1
    | some s => exact ⟨s, rfl⟩
  obtain ⟨s, hs⟩ := hs
  have hw : ∃ w, angularVelocity id (a.history.map fun q => (q.t, q.th)) = .ok w := by
    rcases List.eq_nil_or_concat a.history with e | ⟨l, x, e⟩
    · exact absurd e h1
    · rcases List.eq_nil_or_concat l with rfl | ⟨l', y, rfl⟩
      · exact ⟨0, (C141_turn_rate (a.history.map fun q => (q.t, q.th)) (0, 0) (0, 0)).1 (by rw [e]; simp)⟩
      · have e' : a.history = l' ++ [y, x] := by rw [e]; simp
        have ht := h2 l' y x e'
        obtain ⟨ω, hω, _⟩ := (C141_turn_rate (l'.map fun q => (q.t, q.th)) (y.t, y.th) (x.t, x.th)).2.2 ht
        refine ⟨ω, ?_⟩
        rw [e', List.map_append, List.map_cons, List.map_cons, List.map_nil]
        exact hω
  obtain ⟨w, hw⟩ := hw
  refine ⟨⟨a.id, ego, matchObject s a.shape, s.v, w, s.th, d⟩, ?_⟩
  unfold objData
  rw [hs]
  simp only [hw]

/-- **C209: an answer.** If all agents have a state and no agent's last two states are of the same time, a world is handed over. -/
theorem C209_defined {R S : Type} (c : RssSet R S) (hr : c.rnd = id) (agents : OMap Nat RAgent) {ego : Nat} {e : RAgent} {g : ℝ × ℝ}
    (he : OMap.find ego agents = some e) (h1 : ∀ p ∈ agents, p.2.history ≠ [])
    (h2 : ∀ p ∈ agents, ∀ h' q k, p.2.history = h' ++ [q, k] → k.t ≠ q.t) :
    ∃ r, rssWorld c agents ego (some g) = .ok r := by
  have hcur : ∀ a ∈ agents.map Prod.snd, ∃ s, curState a = .ok s := by
    intro a ha
    obtain ⟨p, hp, rfl⟩ := List.mem_map.1 ha
    unfold curState
    cases hl : p.2.history.getLast? with
    | none => exact absurd (List.getLast?_eq_none_iff.1 hl) (h1 p hp)
    | some s => exact ⟨s, rfl⟩
  have hobj : ∀ a ∈ agents.map Prod.snd, ∀ ego (d : Dynamics ℝ), ∃ o, objData id ego d a = .ok o := by
    intro a ha eg d
    obtain ⟨p, hp, rfl⟩ := List.mem_map.1 ha
    exact objData_ok (h1 p hp) (h2 p hp)
  have hem : e ∈ agents.map Prod.snd := List.mem_map.2 ⟨_, OMap.find_some_mem he, rfl⟩
  obtain ⟨s, hs⟩ := hcur e hem
  obtain ⟨eo, heo⟩ := hobj e hem true c.dEgo
  have hrel : ∀ as : List RAgent, (∀ a ∈ as, ∃ s, curState a = .ok s) → ∃ rs, relevantAgents c ego s as = .ok rs ∧ ∀ a ∈ rs, a ∈ as := by
    intro as
    induction as with
    | nil => intro _; exact ⟨[], by unfold relevantAgents; rfl, fun a h => h⟩
    | cons a as ih =>
      intro hh
      obtain ⟨rs, hrs, hsub⟩ := ih (fun x hx => hh x (List.mem_cons_of_mem _ hx))
      obtain ⟨q, hq⟩ := hh a List.mem_cons_self
      unfold relevantAgents
      simp only [hq, hrs]
      split_ifs
      · exact ⟨_, rfl, fun x hx => (List.mem_cons.1 hx).elim (fun e => e ▸ List.mem_cons_self) (fun h => List.mem_cons_of_mem _ (hsub x h))⟩
      · exact ⟨_, rfl, fun x hx => List.mem_cons_of_mem _ (hsub x hx)⟩
      · exact ⟨_, rfl, fun x hx => List.mem_cons_of_mem _ (hsub x hx)⟩
  obtain ⟨rs, hrs, hsub⟩ := hrel _ hcur
  have hsc : ∀ as : List RAgent, (∀ a ∈ as, ∀ ego (d : Dynamics ℝ), ∃ o, objData id ego d a = .ok o) →
      ∃ ss, scenesOf id c.append eo (c.route eo.box g) c.dOthers as = .ok ss := by
    intro as
    induction as with
    | nil => intro _; exact ⟨[], by unfold scenesOf; rfl⟩
    | cons a as ih =>
      intro hh
      obtain ⟨ss, hss⟩ := ih (fun x hx => hh x (List.mem_cons_of_mem _ hx))
      obtain ⟨o, ho⟩ := hh a List.mem_cons_self false c.dOthers
      unfold scenesOf
      simp only [ho, hss]
      exact ⟨_, rfl⟩
  obtain ⟨ss, hss⟩ := hsc rs (fun a ha => hobj a (hsub a ha))
  refine ⟨(c.valid (s.t + 1) ss, s.t + 1, ss), ?_⟩
  unfold rssWorld
  simp only [he, hr, heo, hs, hrs, hss]

/-- **C209: the box of a vehicle**, where the state's position is the middle of the vehicle: the box told is the vehicle's rectangle. -/
theorem C209_box_partial (s : RSt) (e : Ext) (hf : e.front = e.rear) (hl : e.left = e.right) :
    boxPoints (matchObject s e) = vehiclePoints s e := by
  have h1 : (e.front + e.front) / 2 = e.front := by ring
  have h2 : (e.left + e.left) / 2 = e.left := by ring
  ext p
  simp only [boxPoints, vehiclePoints, matchObject, Set.mem_setOf_eq, ← hf, ← hl, h1, h2, abs_le, and_assoc]

theorem rotated_inj {x y th u v u' v' : ℝ}
    (h1 : x + u * Real.cos th - v * Real.sin th = x + u' * Real.cos th - v' * Real.sin th)
    (h2 : y + u * Real.sin th + v * Real.cos th = y + u' * Real.sin th + v' * Real.cos th) : u = u' ∧ v = v' := by
  have h := Real.sin_sq_add_cos_sq th
  constructor
  · linear_combination (u' - u) * h + Real.cos th * h1 + Real.sin th * h2
  · linear_combination (v' - v) * h - Real.sin th * h1 + Real.cos th * h2

/-- **C209 is violated** for vehicles whose state is not their middle (such as the standard shapes, whose state is the rear axle): the box
told is around the state's position, so that part of the vehicle is outside of it. -/
theorem C209_box_violated (s : RSt) (e : Ext) (h1 : -e.rear ≤ e.front) (h2 : -e.right ≤ e.left) :
    vehiclePoints s e ⊆ boxPoints (matchObject s e) ↔ e.front = e.rear ∧ e.left = e.right := by
  constructor
  · intro h
    have key : ∀ u v, -e.rear ≤ u → u ≤ e.front → -e.right ≤ v → v ≤ e.left → |u| ≤ (e.front + e.rear) / 2 ∧ |v| ≤ (e.left + e.right) / 2 := by
      intro u v a1 a2 a3 a4
      obtain ⟨u', v', b1, b2, b3⟩ := h ⟨u, v, a1, a2, a3, a4, rfl⟩
      rw [Prod.mk.injEq] at b3
      obtain ⟨rfl, rfl⟩ := rotated_inj b3.1 b3.2
      exact ⟨b1, b2⟩
    obtain ⟨c1, c2⟩ := key e.front e.left h1 le_rfl h2 le_rfl
    obtain ⟨d1, d2⟩ := key (-e.rear) (-e.right) le_rfl h1 le_rfl h2
    have c1' := (abs_le.1 c1).2
    have c2' := (abs_le.1 c2).2
    have d1' := (abs_le.1 d1).1
    have d2' := (abs_le.1 d2).1
    constructor <;> linarith
  · rintro ⟨hf, hl⟩
    rw [C209_box_partial s e hf hl]

/-- **C209: default settings.** Without other parameters the accelerations are 1.7 and 0.2, the decelerations -1.7 and -1.69 and the response
time is 0.2 s: the weakest braking is weaker than the strongest. Each parameter is read under its name. -/
theorem C209_settings (get : String → ℝ → ℝ) :
    (fillDynamics get).accLonMax = get "AccLonMax" 1.7 ∧ (fillDynamics get).accLatMax = get "AccLatBrakeMax" 0.2 ∧
    (fillDynamics get).brakeMax = get "BrakeLonMax" (-1.7) ∧ (fillDynamics get).brakeMin = get "BrakeLonMin" (-1.69) ∧
    (fillDynamics get).responseTime = get "TimeResponse" 0.2 := by
  unfold fillDynamics
  norm_num

/-! ### non-vacuity -/

/-- two vehicles 10 m apart, 3 m and 1 m of each in front of and behind the state -/
def pairAgents : OMap Nat RAgent :=
  [(1, ⟨1, [⟨0, 0, 0, 0, 5⟩, ⟨1, 5, 0, 0, 5⟩], ⟨3, 1, 1, 1⟩⟩), (2, ⟨2, [⟨1, 15, 0, 0, 4⟩], ⟨3, 1, 1, 1⟩⟩)]

/-- a library that records the pairs of ids -/
def recorder : RssSet Unit (Nat × Nat) :=
  ⟨id, ⟨fun _ _ _ => none, fun _ _ => none⟩, ⟨1, 1, -1, -1, 1⟩, ⟨1, 1, -1, -1, 1⟩, 1, fun _ _ => none, fun e _ o => [(e.id, o.id)], fun _ _ => true⟩

example : ∃ r, rssWorld recorder pairAgents 1 (some (100, 0)) = .ok r := by
  refine C209_defined recorder rfl pairAgents (e := ⟨1, [⟨0, 0, 0, 0, 5⟩, ⟨1, 5, 0, 0, 5⟩], ⟨3, 1, 1, 1⟩⟩) rfl ?_ ?_
  · intro p hp
    simp only [pairAgents, List.mem_cons, List.not_mem_nil, or_false] at hp
    rcases hp with rfl | rfl <;> simp
  · intro p hp h' q k e
    simp only [pairAgents, List.mem_cons, List.not_mem_nil, or_false] at hp
    rcases hp with rfl | rfl
    · have : h' = [] := by
        have := congrArg List.length e
        simp at this
        exact this
      subst this
      simp only [List.nil_append, List.cons.injEq] at e
      rw [← e.1, ← e.2.1]
      norm_num
    · have := congrArg List.length e
      simp at this

/-- the standard car is not in the box told -/
example : ¬ vehiclePoints ⟨1, 5, 0, 0, 5⟩ ⟨3, 1, 1, 1⟩ ⊆ boxPoints (matchObject ⟨1, 5, 0, 0, 5⟩ ⟨3, 1, 1, 1⟩) := by
  rw [C209_box_violated _ _ (by norm_num) (by norm_num)]
  norm_num

end Bark.RssEval
