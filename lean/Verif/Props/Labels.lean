import Verif.Spec.Labels
import Verif.Props.CorridorQuery
import Verif.Props.World
import Mathlib.Data.List.Forall2
import Mathlib.Tactic.Linarith
import Mathlib.Algebra.Order.Field.Rat

/-!
C104–C107: label functions.
-/
namespace Bark.Labels
open Bark
set_option linter.unusedSectionVars false

section
variable {K Pos Ln : Type} [Field K] [LinearOrder K] [IsStrictOrderedRing K] [DecidableEq Ln]

theorem current_iff (R : Road K Pos Ln) (p : Pos) (c : Nat) :
    R.current p = some c ↔ Spec.OnCorridor R p c := by
  unfold Road.current Cor.currentLC Spec.OnCorridor
  rw [List.find?_eq_some_iff_append]
  constructor
  · rintro ⟨h1, pre, post, h2, h3⟩
    exact ⟨pre, post, h2, h1, fun x hx => by simpa using h3 x hx⟩
  · rintro ⟨pre, post, h2, h1, h3⟩
    exact ⟨h1, pre, post, h2, fun x hx => by simpa using h3 x hx⟩

theorem current_none (R : Road K Pos Ln) (p : Pos) :
    R.current p = none ↔ ∀ c ∈ R.rc.unique, R.hit c p = false := by
  unfold Road.current Cor.currentLC
  rw [List.find?_eq_none]
  exact ⟨fun h x hx => by simpa using h x hx, fun h x hx => by simpa using h x hx⟩

theorem nearest_of_current {R : Road K Pos Ln} {p : Pos} {c : Nat} (h : R.current p = some c) :
    R.nearest p = some c := by
  unfold Road.nearest Cor.nearestLC
  unfold Road.current at h
  rw [h]

theorem sameCorr_iff (R R' : Road K Pos Ln) (c c' : Nat) :
    sameCorr R c R' c' = true ↔ Spec.SameLanes R R' c c' := by
  unfold sameCorr Road.compared Spec.SameLanes
  rw [decide_eq_true_iff]
  generalize (R.rc.store[c]?).getD [] = l
  generalize (R'.rc.store[c']?).getD [] = l'
  induction l generalizing l' with
  | nil => cases l' <;> simp
  | cons x l ih =>
    cases l' with
    | nil => simp
    | cons y l' =>
      rw [List.map_cons, List.map_cons, List.forall₂_cons, ← ih]
      simp [Prod.ext_iff]

/-! ### C104: in front of, behind, beyond -/

/-- **C104** (meaning).  `front_of` holds exactly if the other agent is on a lane corridor and, measured
along the centre line of that corridor, its front has not passed the ego's rear; `behind_of` exactly if
the ego's front has not passed the other's rear (and the ego's road corridor has lane corridors). -/
theorem C104_meaning (e o : Veh K Pos Ln) (R : Road K Pos Ln) (ho : o.road = some R) :
    (frontOf e o = .ok true ↔
      ∃ c, Spec.OnCorridor R o.cur.pos c ∧ R.s c o.cur.pos + o.front ≤ R.s c e.cur.pos - e.rear) ∧
    (∀ R', e.road = some R' → R'.rc.unique ≠ [] → (behindOf e o = .ok true ↔
      ∃ c, Spec.OnCorridor R o.cur.pos c ∧ R.s c e.cur.pos + e.front ≤ R.s c o.cur.pos - o.rear)) ∧
    (∃ a b, frontOf e o = .ok a ∧ behindOf e o = .ok b) := by
  have hc : o.corr = .ok R := by unfold Veh.corr; rw [ho]
  refine ⟨?_, fun R' hR hu => ?_, ?_⟩
  · unfold frontOf
    rw [hc, Res.ok_bind]
    cases h : R.current o.cur.pos with
    | none =>
      simp only [Except.ok.injEq, Bool.false_eq_true, false_iff]
      rintro ⟨c, h1, -⟩
      rw [(current_iff R _ c).mpr h1] at h
      cases h
    | some c =>
      simp only [Except.ok.injEq, decide_eq_true_eq]
      constructor
      · exact fun h1 => ⟨c, (current_iff R _ c).mp h, h1⟩
      · rintro ⟨c', h1, h2⟩
        rw [(current_iff R _ c').mpr h1] at h
        cases h
        exact h2
  · have hl : ∃ x, egoLane e = some x := by
      unfold egoLane
      rw [hR]
      simp only [Option.bind_some]
      cases hn : R'.nearest e.cur.pos with
      | some c => exact ⟨_, rfl⟩
      | none => exact absurd ((Cor.C53_nearest R'.rc _ _).1.mp hn) hu
    obtain ⟨x, hx⟩ := hl
    unfold behindOf
    rw [hc, Res.ok_bind, hx]
    cases h : R.current o.cur.pos with
    | none =>
      simp only [Except.ok.injEq, Bool.false_eq_true, false_iff]
      rintro ⟨c, h1, -⟩
      rw [(current_iff R _ c).mpr h1] at h
      cases h
    | some c =>
      simp only [Except.ok.injEq, decide_eq_true_eq]
      constructor
      · exact fun h1 => ⟨c, (current_iff R _ c).mp h, h1⟩
      · rintro ⟨c', h1, h2⟩
        rw [(current_iff R _ c').mpr h1] at h
        cases h
        exact h2
  · unfold frontOf behindOf
    rw [hc, Res.ok_bind, Res.ok_bind]
    cases R.current o.cur.pos <;> cases egoLane e <;> exact ⟨_, _, rfl, rfl⟩

/-- **C104** (exclusion).  For vehicles of positive total length an ego is never both in front of and
behind the same agent. -/
theorem C104_exclusive (e o : Veh K Pos Ln) (hl : 0 < e.front + e.rear + o.front + o.rear) :
    ¬ (frontOf e o = .ok true ∧ behindOf e o = .ok true) := by
  rintro ⟨h1, h2⟩
  unfold frontOf at h1
  unfold behindOf at h2
  cases hr : o.corr with
  | error f => rw [hr] at h1; cases h1
  | ok R =>
    rw [hr, Res.ok_bind] at h1 h2
    cases hc : R.current o.cur.pos with
    | none => rw [hc] at h1; simp at h1
    | some c =>
      rw [hc] at h1 h2
      cases he : egoLane e with
      | none => rw [he] at h2; simp at h2
      | some x =>
        rw [he] at h2
        simp only [Except.ok.injEq, decide_eq_true_eq] at h1 h2
        linarith

/-- **C104** (symmetry), the part that holds.  Two agents with the same road corridor, on the same lane
corridor: one is in front of the other exactly if the other is behind the one. -/
theorem C104_dual (e o : Veh K Pos Ln) (R : Road K Pos Ln) (he : e.road = some R) (ho : o.road = some R)
    (c : Nat) (h1 : Spec.OnCorridor R e.cur.pos c) (h2 : Spec.OnCorridor R o.cur.pos c) :
    frontOf e o = behindOf o e := by
  have e1 := (current_iff R _ c).mpr h1
  have e2 := (current_iff R _ c).mpr h2
  have hl : egoLane o = some (R, c) := by
    unfold egoLane
    rw [ho]
    simp [nearest_of_current e2]
  unfold frontOf behindOf Veh.corr
  rw [he, ho, Res.ok_bind, Res.ok_bind, e1, e2, hl]

end

/-- Two straight corridors side by side, the second one twice as long (the outer lane of a bend);
positions are (corridor, arc length on the first one). -/
def bend : Road ℚ (Nat × ℚ) Nat where
  roads := [(1, [(1, ⟨-2, true, .forward, some 2, none, none⟩), (2, ⟨-1, true, .forward, none, some 1, none⟩)])]
  rc := ⟨[[(10, (1, 1))], [(20, (1, 2))]], [0, 1], [(1, 0), (2, 1)]⟩
  hit := fun c p => p.1 == c
  inLane := fun l p => p.1 + 1 == l.2
  lat := fun c p => |(p.1 : ℚ) - c|
  s := fun c p => if c = 0 then p.2 else 2 * p.2
  len := fun c => if c = 0 then 10 else 20
  line := fun l => l.2

/-- an agent on `bend` -/
def bendVeh (c : Nat) (x : ℚ) : Veh ℚ (Nat × ℚ) Nat := ⟨some bend, 2, 2, [], ⟨0, 5, (c, x)⟩⟩

/-- The hypotheses of the symmetry theorem are met, and the label is true. -/
example : Spec.OnCorridor bend (bendVeh 0 5).cur.pos 0 ∧ Spec.OnCorridor bend (bendVeh 0 1).cur.pos 0 ∧
    frontOf (bendVeh 0 5) (bendVeh 0 1) = .ok true ∧ frontOf (bendVeh 0 1) (bendVeh 0 5) = .ok false := by
  refine ⟨⟨[], [1], rfl, rfl, by simp⟩, ⟨[], [1], rfl, rfl, by simp⟩, by decide +kernel, by decide +kernel⟩

/-- **C104** (symmetry) is violated across lanes: in a bend an ego on the outer lane is not in front of
an agent on the inner lane, which is nevertheless behind it, because the two labels measure along
different lanes; and an agent off the lanes is behind nobody although others are in front of it. -/
theorem C104_dual_violated :
    (frontOf (bendVeh 1 3) (bendVeh 0 0) = .ok false ∧ behindOf (bendVeh 0 0) (bendVeh 1 3) = .ok true) ∧
    (frontOf (bendVeh 5 5) (bendVeh 0 0) = .ok true ∧ behindOf (bendVeh 0 0) (bendVeh 5 5) = .ok false) := by
  decide +kernel

section
variable {K Pos Ln : Type} [Field K] [LinearOrder K] [IsStrictOrderedRing K] [DecidableEq Ln]

/-- **C104** (beyond a point).  An agent is beyond a point exactly if it is on a lane corridor and its arc
length there is larger than the point's; so nobody is ever beyond a point that projects to the end of
the lane. -/
theorem C104_beyond (pt : Pos) (o : Veh K Pos Ln) (R : Road K Pos Ln) (ho : o.road = some R) :
    (agentBeyond pt o = .ok true ↔ ∃ c, Spec.OnCorridor R o.cur.pos c ∧ R.s c pt < R.s c o.cur.pos) ∧
    ((∀ c, R.s c o.cur.pos ≤ R.len c) → (∀ c, R.s c pt = R.len c) → agentBeyond pt o = .ok false) := by
  have hc : o.corr = .ok R := by unfold Veh.corr; rw [ho]
  have key : agentBeyond pt o = .ok true ↔ ∃ c, Spec.OnCorridor R o.cur.pos c ∧ R.s c pt < R.s c o.cur.pos := by
    unfold agentBeyond
    rw [hc, Res.ok_bind]
    cases h : R.current o.cur.pos with
    | none =>
      simp only [Except.ok.injEq, Bool.false_eq_true, false_iff]
      rintro ⟨c, h1, -⟩
      rw [(current_iff R _ c).mpr h1] at h
      cases h
    | some c =>
      simp only [Except.ok.injEq, decide_eq_true_eq, sub_pos]
      constructor
      · exact fun h1 => ⟨c, (current_iff R _ c).mp h, h1⟩
      · rintro ⟨c', h1, h2⟩
        rw [(current_iff R _ c').mpr h1] at h
        cases h
        exact h2
  refine ⟨key, fun h1 h2 => ?_⟩
  have ht : ∃ b, agentBeyond pt o = .ok b := by
    unfold agentBeyond
    rw [hc, Res.ok_bind]
    cases R.current o.cur.pos <;> exact ⟨_, rfl⟩
  obtain ⟨b, hb⟩ := ht
  cases b with
  | false => exact hb
  | true =>
    obtain ⟨c, -, h3⟩ := key.mp hb
    rw [h2 c] at h3
    exact absurd h3 (not_lt.mpr (h1 c))

/-- **C104** (ego beyond a point).  On a lane corridor the ego is beyond a point exactly if its arc length
there is larger than the point's.  Next to the lanes the same holds for a corridor with the smallest
lateral offset.  Without road corridor, or with one without lanes, the label is false. -/
theorem C104_ego_beyond (pt : Pos) (e : Veh K Pos Ln) :
    (e.road = none → egoBeyond pt e = false) ∧
    ∀ R, e.road = some R →
      (R.rc.unique = [] → egoBeyond pt e = false) ∧
      (∀ c, Spec.OnCorridor R e.cur.pos c → (egoBeyond pt e = true ↔ R.s c pt < R.s c e.cur.pos)) ∧
      ((∀ c ∈ R.rc.unique, R.hit c e.cur.pos = false) → R.rc.unique ≠ [] →
        ∃ c ∈ R.rc.unique, (∀ c' ∈ R.rc.unique, R.lat c e.cur.pos ≤ R.lat c' e.cur.pos) ∧
          (egoBeyond pt e = true ↔ R.s c pt < R.s c e.cur.pos)) := by
  refine ⟨fun h => by unfold egoBeyond egoLane; rw [h]; rfl, fun R hR => ?_⟩
  have some_case : ∀ c, R.nearest e.cur.pos = some c → (egoBeyond pt e = true ↔ R.s c pt < R.s c e.cur.pos) := by
    intro c hc
    have : egoLane e = some (R, c) := by unfold egoLane; rw [hR, Option.bind_some, hc]; rfl
    unfold egoBeyond
    rw [this]
    simp only [decide_eq_true_eq, sub_pos]
  obtain ⟨hn, hs⟩ := Cor.C53_nearest R.rc (fun c => R.hit c e.cur.pos) (fun c => R.lat c e.cur.pos)
  refine ⟨fun h => ?_, fun c hc => some_case c (nearest_of_current ((current_iff R _ c).mpr hc)), fun h hne => ?_⟩
  · have h1 : R.nearest e.cur.pos = none := hn.mpr h
    unfold egoBeyond egoLane
    rw [hR, Option.bind_some, h1]; rfl
  · cases hc : R.nearest e.cur.pos with
    | none => exact absurd (hn.mp hc) hne
    | some c =>
      rcases hs c hc with ⟨h1, pre, post, h2, -⟩ | ⟨-, h1, h2⟩
      · exact absurd h1 (by simp [h c (by rw [h2]; simp)])
      · exact ⟨c, h1, h2, some_case c hc⟩

/-! ### C106: lane labels -/

/-- **C106** (on road).  The label holds exactly if the position touches some lane corridor of the agent's
road corridor. -/
theorem C106_on_road (o : Veh K Pos Ln) (R : Road K Pos Ln) (ho : o.road = some R) :
    ∃ b, onRoad o = .ok b ∧ (b = true ↔ ∃ c ∈ R.rc.unique, R.hit c o.cur.pos = true) := by
  have hc : o.corr = .ok R := by unfold Veh.corr; rw [ho]
  unfold onRoad
  rw [hc, Res.ok_bind]
  obtain ⟨n1, n2⟩ := Cor.C53_nearest R.rc (fun c => R.hit c o.cur.pos) (fun c => R.lat c o.cur.pos)
  cases h : R.nearest o.cur.pos with
  | none =>
    refine ⟨false, rfl, ?_⟩
    have := n1.mp h
    simp [this]
  | some c =>
    refine ⟨_, rfl, fun hh => ⟨c, ?_, hh⟩, ?_⟩
    · rcases n2 c h with ⟨-, pre, post, e, -⟩ | ⟨-, e, -⟩
      · rw [e]; simp
      · exact e
    · rintro ⟨x, hx, hh⟩
      rcases n2 c h with ⟨e, -⟩ | ⟨e, -⟩
      · exact e
      · rw [e x hx] at hh; cases hh

theorem sides_of {R : Road K Pos Ln} {p : Pos} {c : Nat} {l : Cor.Ptr} {d : Cor.CLane}
    (hid : Cor.laneCorridor R.rc 10000000 = none) (h : Spec.OnLane R p c l d) :
    R.sides p = (d.left.bind (Cor.laneCorridor R.rc), d.right.bind (Cor.laneCorridor R.rc)) := by
  obtain ⟨h1, ⟨lanes, pre, post, x, h2, h3, h4, h5⟩, road, h6, h7⟩ := h
  have e1 := (current_iff R p c).mpr h1
  have e2 : (Cor.Spec.lanesOf R.rc c).find? (fun l => R.inLane l p) = some l := by
    unfold Cor.Spec.lanesOf
    rw [h2, Option.getD_some, List.find?_eq_some_iff_append, h3]
    refine ⟨h4, pre.map Prod.snd, post.map Prod.snd, by simp, ?_⟩
    intro a ha
    obtain ⟨y, hy, rfl⟩ := List.mem_map.mp ha
    simpa using h5 y hy
  have e3 : Cor.laneAt R.roads l = some d := by
    unfold Cor.laneAt
    rw [h6]
    exact h7
  have := Cor.C69_left_right R.roads R.rc (fun c => R.hit c p) (fun l => R.inLane l p) hid e1 e2 e3
  exact Prod.ext this.1 this.2

/-- **C106** (left of, right of), the part that holds.  Let the other agent be in a lane.  If ego and other
have the same road corridor, whose lane corridors have different lanes, then the ego is left (right) of
the other exactly if the lane corridor of the lane left (right) of the other's is the ego's lane
corridor. -/
theorem C106_side_partial (e o : Veh K Pos Ln) (R : Road K Pos Ln) (he : e.road = some R) (ho : o.road = some R)
    (hid : OMap.find 10000000 R.rc.byLane = none) {c : Nat} {l : Cor.Ptr} {d : Cor.CLane}
    (h : Spec.OnLane R o.cur.pos c l d) (hd : ∀ x y, Spec.SameLanes R R x y → x = y)
    {ce : Nat} (hce : Spec.OnCorridor R e.cur.pos ce) :
    (leftOf e o = .ok true ↔ ∃ j, d.left = some j ∧ OMap.find j R.rc.byLane = some ce) ∧
    (rightOf e o = .ok true ↔ ∃ j, d.right = some j ∧ OMap.find j R.rc.byLane = some ce) := by
  have hc : o.corr = .ok R := by unfold Veh.corr; rw [ho]
  have hl : egoLane e = some (R, ce) := by
    unfold egoLane
    rw [he]
    simp [nearest_of_current ((current_iff R _ ce).mpr hce)]
  have hs := sides_of (R := R) (p := o.cur.pos) hid h
  have refl : ∀ x, Spec.SameLanes R R x x := fun x => List.forall₂_same.mpr (fun _ _ => ⟨rfl, rfl⟩)
  have key : ∀ side : Option Nat, bothSame R (side.bind (Cor.laneCorridor R.rc)) (some (R, ce)) = true ↔
      ∃ j, side = some j ∧ OMap.find j R.rc.byLane = some ce := by
    intro side
    cases side with
    | none => simp [bothSame]
    | some j =>
      simp only [Option.bind_some, Option.some.injEq, exists_eq_left']
      unfold Cor.laneCorridor
      cases hf : OMap.find j R.rc.byLane with
      | none => simp [bothSame]
      | some x =>
        simp only [bothSame, sameCorr_iff, Option.some.injEq]
        exact ⟨fun h => hd _ _ h, fun h => h ▸ refl _⟩
  unfold leftOf rightOf
  rw [hc, Res.ok_bind, Res.ok_bind, hl, hs]
  simp only [Except.ok.injEq]
  exact ⟨key _, key _⟩

theorem outermost_some (R : Road K Pos Ln) (c : Nat) (thr : K) (v : Veh K Pos Ln) :
    outermost R (some c) thr v = true ↔ R.len c - R.s c v.cur.pos - v.front ≤ thr := by
  unfold outermost Road.untilEnd
  by_cases g : thr < R.len c - R.s c v.cur.pos - v.front
  · have : ¬ (R.len c - R.s c v.cur.pos - v.front ≤ thr) := not_le.mpr g
    simp [g, this]
  · have := not_lt.mp g
    simp [g, this]

/-- **C106** (outermost lane).  For an agent in a lane, the rightmost-lane label holds exactly if there is
no lane corridor on the right, or it ends within the threshold ahead of the vehicle's front; likewise on
the left. -/
theorem C106_outermost (thr : K) (v : Veh K Pos Ln) (R : Road K Pos Ln) (hv : v.road = some R)
    (hid : OMap.find 10000000 R.rc.byLane = none) {c : Nat} {l : Cor.Ptr} {d : Cor.CLane}
    (h : Spec.OnLane R v.cur.pos c l d) :
    (rightmost thr v = .ok true ↔ ∀ j x, d.right = some j → OMap.find j R.rc.byLane = some x →
      R.len x - R.s x v.cur.pos - v.front ≤ thr) ∧
    (leftmost thr v = .ok true ↔ ∀ j x, d.left = some j → OMap.find j R.rc.byLane = some x →
      R.len x - R.s x v.cur.pos - v.front ≤ thr) := by
  have hc : v.corr = .ok R := by unfold Veh.corr; rw [hv]
  have hs := sides_of (R := R) (p := v.cur.pos) hid h
  have key : ∀ side : Option Nat, outermost R (side.bind (Cor.laneCorridor R.rc)) thr v = true ↔
      ∀ j x, side = some j → OMap.find j R.rc.byLane = some x → R.len x - R.s x v.cur.pos - v.front ≤ thr := by
    intro side
    cases side with
    | none => simp [outermost]
    | some j =>
      have e : (∀ j' x, some j = some j' → OMap.find j' R.rc.byLane = some x →
          R.len x - R.s x v.cur.pos - v.front ≤ thr) ↔
          ∀ x, OMap.find j R.rc.byLane = some x → R.len x - R.s x v.cur.pos - v.front ≤ thr :=
        ⟨fun h x hx => h j x rfl hx, fun h j' x hj hx => by cases hj; exact h x hx⟩
      rw [e]
      simp only [Option.bind_some]
      unfold Cor.laneCorridor
      cases hf : OMap.find j R.rc.byLane with
      | none => simp [outermost]
      | some x =>
        simp only [Option.some.injEq, forall_eq', outermost_some]
  unfold rightmost leftmost
  rw [hc, Res.ok_bind, Res.ok_bind, hs]
  simp only [Except.ok.injEq]
  exact ⟨key _, key _⟩

/-- **C106** is violated off the lanes: an agent that is on no lane at all is reported to be on the
rightmost and on the leftmost lane. -/
theorem C106_off_road_violated (thr : K) (v : Veh K Pos Ln) (R : Road K Pos Ln) (hv : v.road = some R)
    (h : ∀ c ∈ R.rc.unique, R.hit c v.cur.pos = false) :
    onRoad v = .ok false ∧ rightmost thr v = .ok true ∧ leftmost thr v = .ok true := by
  have hc : v.corr = .ok R := by unfold Veh.corr; rw [hv]
  have hs : R.sides v.cur.pos = (none, none) := Cor.C69_outside _ _ _ _ h
  refine ⟨?_, ?_, ?_⟩
  · obtain ⟨b, h1, h2⟩ := C106_on_road v R hv
    cases b with
    | false => exact h1
    | true =>
      obtain ⟨c, h3, h4⟩ := h2.mp rfl
      rw [h c h3] at h4
      cases h4
  · unfold rightmost
    rw [hc, Res.ok_bind, hs]
    rfl
  · unfold leftmost
    rw [hc, Res.ok_bind, hs]
    rfl

/-- **C106** (lane end), the part that holds.  With a threshold larger than the front extent the label
holds exactly if the vehicle's front is less than the threshold away from the end of its lane
corridor. -/
theorem C106_lane_end_partial (thr : K) (o : Veh K Pos Ln) (R : Road K Pos Ln) (ho : o.road = some R) {c : Nat}
    (h : Spec.OnCorridor R o.cur.pos c) (hs : R.s c o.cur.pos ≤ R.len c) (ht : o.front < thr) :
    ∃ b, atLaneEnd thr o = .ok b ∧ (b = true ↔ R.len c - (R.s c o.cur.pos + o.front) < thr) := by
  have hc : o.corr = .ok R := by unfold Veh.corr; rw [ho]
  unfold atLaneEnd
  rw [hc, Res.ok_bind, nearest_of_current ((current_iff R _ c).mpr h)]
  refine ⟨_, rfl, ?_⟩
  rw [decide_eq_true_iff, abs_lt]
  unfold Road.untilEnd
  constructor
  · rintro ⟨-, h2⟩
    linarith
  · intro h2
    exact ⟨by linarith, by linarith⟩

/-- **C106** (lane end) is violated for thresholds up to the front extent: a vehicle at the very end of its
lane is not reported. -/
theorem C106_lane_end_violated (thr : K) (o : Veh K Pos Ln) (R : Road K Pos Ln) (ho : o.road = some R) {c : Nat}
    (h : Spec.OnCorridor R o.cur.pos c) (hs : R.s c o.cur.pos = R.len c) (ht : thr ≤ o.front) :
    atLaneEnd thr o = .ok false := by
  have hc : o.corr = .ok R := by unfold Veh.corr; rw [ho]
  unfold atLaneEnd
  rw [hc, Res.ok_bind, nearest_of_current ((current_iff R _ c).mpr h)]
  simp only [Except.ok.injEq, decide_eq_false_iff_not, not_lt]
  unfold Road.untilEnd
  rw [hs, sub_self, zero_sub, abs_neg]
  exact le_trans ht (le_abs_self _)

end

/-- The hypotheses of the side and outermost theorems are met on `bend`, with both labels true. -/
example : Spec.OnLane bend (0, 3) 0 (1, 1) ⟨-2, true, .forward, some 2, none, none⟩ ∧
    (∀ x y, x < 2 → y < 2 → Spec.SameLanes bend bend x y → x = y) ∧ Spec.OnCorridor bend (1, 3) 1 ∧
    leftOf (bendVeh 1 3) (bendVeh 0 3) = .ok true ∧ rightOf (bendVeh 1 3) (bendVeh 0 3) = .ok false ∧
    rightOf (bendVeh 0 3) (bendVeh 1 3) = .ok true ∧
    rightmost 4 (bendVeh 0 3) = .ok true ∧ leftmost 4 (bendVeh 0 3) = .ok false := by
  refine ⟨⟨⟨[], [1], rfl, rfl, by simp⟩, ⟨[(10, (1, 1))], [], [], 10, rfl, rfl, rfl, by simp⟩, _, rfl, rfl⟩, ?_,
    ⟨[0], [], rfl, rfl, by simp [bend]⟩, by decide +kernel, by decide +kernel, by decide +kernel,
    by decide +kernel, by decide +kernel⟩
  intro x y hx hy h
  have : sameCorr bend x bend y = true := (sameCorr_iff _ _ _ _).mpr h
  revert h
  revert this
  have : ∀ x < 2, ∀ y < 2, sameCorr bend x bend y = true → x = y := by decide +kernel
  exact fun h _ => this x hx y hy h

/-- the road corridor of a route through the demo map, positions are lane ids -/
def route (ids : List Nat) (first : Nat) : Option (Road ℚ Nat Nat) :=
  (RG.generate (RG.demo 2)).toOption.bind (fun g => (Cor.corridorRoads (RG.demo 2) g ids).toOption.bind (fun rs =>
    (Cor.calcAll rs (fun l => (l.length : ℚ)) 5 first).toOption.map (fun s =>
      { roads := rs, rc := s, hit := fun c p => (Cor.Spec.lanesOf s c).any (fun l => l.2 == p),
        inLane := fun l p => l.2 == p, lat := fun _ _ => 0, s := fun _ _ => 0, len := fun _ => 1,
        line := fun l => l.2 })))

/-- **C106** (left of, right of) is violated for agents on different routes: on the demo map the ego is on
lane 5, the lane left of the other's lane 7 on the same road.  With the same route the ego is left of the
other; if the ego's route also contains the road before, it is not, because lane corridors are only
equal from their first to their last lane. -/
theorem C106_route_violated :
    ∃ R R', route [2] 2 = some R ∧ route [1, 2] 1 = some R' ∧
      leftOf ⟨some R, 1, 1, [], ⟨0, 0, 5⟩⟩ ⟨some R, 1, 1, [], ⟨0, 0, 7⟩⟩ = .ok true ∧
      leftOf ⟨some R', 1, 1, [], ⟨0, 0, 5⟩⟩ ⟨some R, 1, 1, [], ⟨0, 0, 7⟩⟩ = .ok false := by
  have h : ((route [2] 2).bind (fun R => (route [1, 2] 1).map (fun R' =>
      (leftOf ⟨some R, 1, 1, [], ⟨0, 0, 5⟩⟩ ⟨some R, 1, 1, [], ⟨0, 0, 7⟩⟩,
       leftOf ⟨some R', 1, 1, [], ⟨0, 0, 5⟩⟩ ⟨some R, 1, 1, [], ⟨0, 0, 7⟩⟩)))) =
      some (Except.ok true, Except.ok false) := by decide +kernel
  obtain ⟨R, h1, h2⟩ := Option.bind_eq_some_iff.mp h
  obtain ⟨R', h3, h4⟩ := Option.map_eq_some_iff.mp h2
  simp only [Prod.mk.injEq] at h4
  exact ⟨R, R', h1, h3, h4.1, h4.2⟩

/-! ### C105: who is labelled -/

section world
variable {K St Act B E Sh Box O Pos Ln : Type} [Field K] [LinearOrder K] [IsStrictOrderedRing K] [DecidableEq Ln]

theorem mapM_pairs {A : Type} (f : A → Res Bool) : ∀ (l : OMap Nat A) (r : OMap Nat Bool),
    l.mapM (fun x => f x.2 >>= fun b => (.ok (x.1, b) : Res (Nat × Bool))) = .ok r →
    List.Forall₂ (fun x y => x.1 = y.1 ∧ f x.2 = .ok y.2) l r := by
  intro l
  induction l with
  | nil => intro r h; cases h; exact .nil
  | cons x l ih =>
    intro r h
    rw [List.mapM_cons] at h
    obtain ⟨y, h1, h⟩ := Res.bind_ok h
    obtain ⟨b, hb, h1⟩ := Res.bind_ok h1
    cases h1
    obtain ⟨r', h2, h⟩ := Res.bind_ok h
    cases h
    exact .cons ⟨rfl, hb⟩ (ih r' h2)

theorem forall2_find {A : Type} {f : A → Res Bool} {l : OMap Nat A} {r : OMap Nat Bool}
    (h : List.Forall₂ (fun x y => x.1 = y.1 ∧ f x.2 = .ok y.2) l r) (id : Nat) (b : Bool) :
    OMap.find id r = some b ↔ ∃ a, OMap.find id l = some a ∧ f a = .ok b := by
  induction h with
  | nil => simp [OMap.find]
  | @cons x y l r hxy _ ih =>
    obtain ⟨i, a⟩ := x
    obtain ⟨j, b'⟩ := y
    obtain ⟨rfl, h2⟩ := hxy
    simp only [OMap.find]
    by_cases g : id = i
    · simp [g, h2]
    · simp only [g, if_false]
      exact ih

/-- **C105**.  A label about other agents is given for exactly the other agents that are valid (behaviour
valid and active at the world time), each with the value of its evaluation, provided these evaluations
are defined. -/
theorem C105_labels (P : Plug K St Act B E Sh Box O) (w : World K St Act B E Sh Box O) (hs : OMap.Sorted w.agents)
    (ego : Nat) (f : Agent K St Act B E Sh → Res Bool)
    (hf : ∀ id a, w.getAgent id = some a → ∃ b, f a = .ok b) :
    ∃ r, multiAgent P w ego f = .ok r ∧ ∀ id b, OMap.find id r = some b ↔
      ∃ a, w.getAgent id = some a ∧ id ≠ ego ∧ P.status a.behavior = .valid ∧ Spec.Active w.time a ∧
        f a = .ok b := by
  obtain ⟨hvs, hv⟩ := Props.C10_valid_agents P hs
  have hfind : ∀ id a, OMap.find id (validOther P w ego) = some a ↔
      id ≠ ego ∧ w.getAgent id = some a ∧ P.status a.behavior = .valid ∧ Spec.Active w.time a := by
    intro id a
    unfold validOther
    rw [OMap.find_erase]
    by_cases g : id = ego
    · simp [g]
    · simp only [g, if_false, ne_eq, not_false_eq_true, true_and]
      exact hv id a
  have hsrt : OMap.Sorted (validOther P w ego) := OMap.sorted_erase _ hvs
  have hex : ∀ l : OMap Nat (Agent K St Act B E Sh), (∀ x ∈ l, ∃ b, f x.2 = .ok b) →
      ∃ r, l.mapM (fun x => f x.2 >>= fun b => (.ok (x.1, b) : Res (Nat × Bool))) = .ok r := by
    intro l
    induction l with
    | nil => intro _; exact ⟨[], rfl⟩
    | cons x l ih =>
      intro h
      obtain ⟨b, hb⟩ := h x (by simp)
      obtain ⟨r, hr⟩ := ih (fun y hy => h y (List.mem_cons_of_mem _ hy))
      refine ⟨(x.1, b) :: r, ?_⟩
      rw [List.mapM_cons, hb, hr]
      rfl
  obtain ⟨r, hr⟩ := hex (validOther P w ego) (by
    intro x hx
    have := (hfind x.1 x.2).mp (OMap.mem_find_some hsrt hx)
    exact hf x.1 x.2 this.2.1)
  refine ⟨r, hr, fun id b => ?_⟩
  rw [forall2_find (mapM_pairs f _ _ hr)]
  constructor
  · rintro ⟨a, h1, h2⟩
    obtain ⟨a1, a2, a3, a4⟩ := (hfind id a).mp h1
    exact ⟨a, a2, a1, a3, a4, h2⟩
  · rintro ⟨a, a2, a1, a3, a4, h2⟩
    exact ⟨a, (hfind id a).mpr ⟨a1, a2, a3, a4⟩, h2⟩

/-- **C105** (dense traffic), what holds: the label compares the number of all registered other agents
within the radius with the limit. -/
theorem C105_dense (view : Agent K St Act B E Sh → Veh K Pos Ln) (dist : Pos → Pos → K) (radius : K)
    (num : Int) (w : World K St Act B E Sh Box O) (hs : OMap.Sorted w.agents) (ego : Nat)
    (a : Agent K St Act B E Sh) (he : w.getAgent ego = some a) :
    ∃ b, denseTraffic view dist radius num w ego = .ok b ∧
      (b = true ↔ num ≤ ((w.agents.filter (fun x => decide (x.1 ≠ ego ∧
        |dist (view a).cur.pos (view x.2).cur.pos| < radius))).length : Int)) := by
  unfold denseTraffic
  rw [he]
  refine ⟨_, rfl, ?_⟩
  unfold dense
  rw [decide_eq_true_iff]
  have key : ((otherAgents w ego).map (fun x => view x.2)).filter
        (fun o => decide (|dist (view a).cur.pos o.cur.pos| < radius)) =
      (w.agents.filter (fun x => decide (x.1 ≠ ego ∧
        |dist (view a).cur.pos (view x.2).cur.pos| < radius))).map (fun x => view x.2) := by
    have e1 : otherAgents w ego = w.agents.filter (fun x => decide (x.1 ≠ ego)) := by
      unfold otherAgents
      refine OMap.ext (OMap.sorted_erase _ hs) (OMap.sorted_filter _ hs) (fun id => ?_)
      rw [OMap.find_erase, OMap.find_filter hs]
      by_cases g : id = ego
      · rw [if_pos g]
        cases OMap.find id w.agents <;> simp [g]
      · rw [if_neg g]
        cases OMap.find id w.agents <;> simp [g, Option.filter]
    rw [e1, List.filter_map, List.filter_filter]
    congr 1
    apply List.filter_congr
    intro x _
    simp only [Function.comp, ← Bool.decide_and, decide_eq_decide]
    exact And.comm
  rw [key, List.length_map]

end world

/-- a behaviour-free world for the examples: agents are at time 0, agent 2 becomes active at time 100 -/
def toyPlug : Plug ℚ Nat Unit Unit Unit Unit Unit Unit where
  status := fun _ => .valid
  lastAction := fun _ => ()
  plan := fun _ _ _ _ => ()
  execute := fun _ _ _ => ()
  execStatus := fun _ => .valid
  executedState := fun _ => 0
  observe := fun _ w _ => ((), w)
  envelope := fun _ _ => ()
  within := fun _ _ => true

def toyAgent (id : Nat) (start : ℚ) : Agent ℚ Nat Unit Unit Unit Unit :=
  { id := id, behavior := (), exec := (), history := [(id, ())], maxHist := 5, firstValid := start, shape := () }

def toyWorld : World ℚ Nat Unit Unit Unit Unit Unit Unit :=
  { agents := [(1, toyAgent 1 0), (2, toyAgent 2 100), (3, toyAgent 3 0)], time := 0, rtree := [],
    removeAgents := false, mapBox := none, observer := () }

/-- **C105** (dense traffic) is violated: an agent that will only enter the simulation later, about which
no other label is given, is counted. -/
theorem C105_dense_violated :
    multiAgent toyPlug toyWorld 1 (fun _ => .ok true) = .ok [(3, true)] ∧
    denseTraffic (fun a => (⟨none, 1, 1, [], ⟨0, 0, a.id⟩⟩ : Veh ℚ Nat Nat)) (fun _ _ => 0) 10 2 toyWorld 1 =
      .ok true := by
  decide +kernel

/-! ### C107: motion labels -/

section
variable {K Pos Ln : Type} [Field K] [LinearOrder K] [IsStrictOrderedRing K] [DecidableEq Ln]

/-- **C107** (accelerate), the part that holds.  With at least three states in the history, the last two at
increasing times, the label holds exactly if the velocity has grown at least at the threshold rate. -/
theorem C107_accelerate_partial (thr : K) (e : Veh K Pos Ln) (q r : Snap K Pos) (xs : List (Snap K Pos))
    (hp : e.past = xs ++ [r, q]) (ht : q.time < e.cur.time) :
    ∃ b, accelerate thr e = .ok b ∧ (b = true ↔ q.vel + thr * (e.cur.time - q.time) ≤ e.cur.vel) := by
  unfold accelerate
  have h1 : (e.past ++ [e.cur]).length > 2 := by rw [hp]; simp
  have h2 : e.past.getLast? = some q := by rw [hp]; simp
  have h3 : ¬ (e.cur.time - q.time = 0) := fun h => by linarith
  rw [if_pos h1, h2]
  simp only
  rw [if_neg h3]
  refine ⟨_, rfl, ?_⟩
  rw [decide_eq_true_iff, le_div_iff₀ (by linarith)]
  constructor <;> intro h <;> linarith

/-- **C107** (accelerate) is violated for the first step: with two states the acceleration is known but
never reported; and two states of the same time are divided by zero. -/
theorem C107_accelerate_violated (thr : K) (q c : Snap K Pos) (R : Option (Road K Pos Ln)) (f r : K) :
    accelerate thr (⟨R, f, r, [q], c⟩ : Veh K Pos Ln) = .ok false ∧
    ∀ x xs, q.time = c.time → accelerate thr (⟨R, f, r, x :: xs ++ [q], c⟩ : Veh K Pos Ln) = .error .nan := by
  refine ⟨rfl, fun x xs h => ?_⟩
  unfold accelerate
  simp only
  have h1 : (x :: xs ++ [q] ++ [c]).length > 2 := by simp
  have h2 : (x :: xs ++ [q]).getLast? = some q := List.getLast?_concat
  rw [if_pos h1, h2]
  simp only
  rw [if_pos (by rw [h, sub_self])]

/-- **C107** (lane change), the part that holds.  On a straight road – a corridor is the strip between two
lateral offsets, collision with a boundary means that the boundary lies between the two positions – with
the ego strictly inside its lane corridor, the label holds exactly if the ego was not strictly inside
that corridor in the previous state. -/
theorem C107_lane_change_partial (lo hi : Nat → K) (touches : Road K K Ln → Nat → Bool → K → K → Bool)
    (ht : ∀ R c left p q, touches R c left p q = true ↔
      min p q ≤ (if left then hi c else lo c) ∧ (if left then hi c else lo c) ≤ max p q)
    (e : Veh K K Ln) (R : Road K K Ln) (he : e.road = some R) (q : Snap K K) (xs : List (Snap K K))
    (hp : e.past = xs ++ [q]) {c : Nat} (hc : Spec.OnCorridor R e.cur.pos c)
    (h1 : lo c < e.cur.pos) (h2 : e.cur.pos < hi c) :
    laneChange touches e = true ↔ ¬ (lo c < q.pos ∧ q.pos < hi c) := by
  have hl : egoLane e = some (R, c) := by
    unfold egoLane
    rw [he]
    simp [nearest_of_current ((current_iff R _ c).mpr hc)]
  have hq : e.past.getLast? = some q := by rw [hp]; simp
  unfold laneChange
  rw [hl, hq]
  simp only [Bool.or_eq_true, ht, if_true, Bool.false_eq_true, if_false]
  constructor
  · rintro (⟨-, h⟩ | ⟨h, -⟩) ⟨g1, g2⟩
    · rcases le_max_iff.mp h with h | h
      · exact absurd h (not_le.mpr g2)
      · exact absurd h (not_le.mpr h2)
    · rcases min_le_iff.mp h with h | h
      · exact absurd h (not_le.mpr g1)
      · exact absurd h (not_le.mpr h1)
  · intro h
    by_cases g : lo c < q.pos
    · left
      have : hi c ≤ q.pos := not_lt.mp (fun g2 => h ⟨g, g2⟩)
      exact ⟨le_trans (min_le_right _ _) h2.le, le_trans this (le_max_left _ _)⟩
    · right
      exact ⟨le_trans (min_le_left _ _) (not_lt.mp g), le_trans h1.le (le_max_right _ _)⟩

/-- **C107** (lane change) is violated on a boundary: an ego that stands still with its reference point on
a boundary of its lane is reported to change lanes, in every step. -/
theorem C107_lane_change_violated (lo hi : Nat → K) (touches : Road K K Ln → Nat → Bool → K → K → Bool)
    (ht : ∀ R c left p q, touches R c left p q = true ↔
      min p q ≤ (if left then hi c else lo c) ∧ (if left then hi c else lo c) ≤ max p q)
    (e : Veh K K Ln) (R : Road K K Ln) (he : e.road = some R) (q : Snap K K) (xs : List (Snap K K))
    (hp : e.past = xs ++ [q]) (hq : q.pos = e.cur.pos) {c : Nat} (hc : Spec.OnCorridor R e.cur.pos c)
    (h1 : e.cur.pos = lo c ∨ e.cur.pos = hi c) : laneChange touches e = true := by
  have hl : egoLane e = some (R, c) := by
    unfold egoLane
    rw [he]
    simp [nearest_of_current ((current_iff R _ c).mpr hc)]
  have hg : e.past.getLast? = some q := by rw [hp]; simp
  unfold laneChange
  rw [hl, hg]
  simp only [Bool.or_eq_true, ht, if_true, Bool.false_eq_true, if_false, hq, min_self, max_self]
  rcases h1 with h1 | h1
  · right; exact ⟨h1.le, h1.ge⟩
  · left; exact ⟨h1.le, h1.ge⟩

/-- **C107** (speeds). -/
theorem C107_speed (thr : K) (e o : Veh K Pos Ln) :
    (belowSpeed thr e = true ↔ e.cur.vel < thr) ∧ (relSpeed thr e o = true ↔ o.cur.vel + thr ≤ e.cur.vel) := by
  unfold belowSpeed relSpeed
  rw [decide_eq_true_iff, decide_eq_true_iff]
  refine ⟨Iff.rfl, ?_⟩
  constructor <;> intro h <;> linarith

end

/-- Two lanes between the offsets 0, 3 and 6: a lane change from 2 to 4. -/
example : ∃ (R : Road ℚ ℚ Nat) (touches : Road ℚ ℚ Nat → Nat → Bool → ℚ → ℚ → Bool) (lo hi : Nat → ℚ),
    (∀ R c left p q, touches R c left p q = true ↔
      min p q ≤ (if left then hi c else lo c) ∧ (if left then hi c else lo c) ≤ max p q) ∧
    Spec.OnCorridor R 4 1 ∧ lo 1 < 4 ∧ 4 < hi 1 ∧
    laneChange touches ⟨some R, 1, 1, [⟨0, 5, 2⟩], ⟨1, 5, 4⟩⟩ = true ∧
    laneChange touches ⟨some R, 1, 1, [⟨0, 5, 5⟩], ⟨1, 5, 4⟩⟩ = false := by
  refine ⟨{ bend with
      hit := fun c p => decide ((3 : ℚ) * c ≤ p ∧ p ≤ 3 * c + 3), inLane := fun _ _ => true,
      lat := fun c p => |p - 3 * c|, s := fun _ _ => 0 },
    fun _ c left p q => decide (min p q ≤ (if left then (3 : ℚ) * c + 3 else 3 * c) ∧
      (if left then (3 : ℚ) * c + 3 else 3 * c) ≤ max p q),
    fun c => 3 * c, fun c => 3 * c + 3, fun _ _ _ _ _ => by simp, ⟨[0], [], rfl, by decide +kernel, ?_⟩,
    by decide +kernel, by decide +kernel, by decide +kernel, by decide +kernel⟩
  intro x hx
  simp only [List.mem_singleton] at hx
  subst hx
  decide +kernel

end Bark.Labels
