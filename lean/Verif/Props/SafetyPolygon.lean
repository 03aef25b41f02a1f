import Verif.Spec.RssEval
import Verif.Props.Frenet

/-!
C142 – safety polygons.
-/
set_option linter.unusedSectionVars false
namespace Bark.RssEval
open Spec Ln Ln.Spec Fren.Spec

/-- the difference to the reversed bearing of a point tells on which side it is -/
theorem diff_sin {ego p : Pt} (h : p ≠ ego) (θ : ℝ) : ∃ c : ℝ, 0 < c ∧
    c * Real.sin (Angle.signedAngleDiff id θ (angleTo ego p)) = leftward θ (vec ego p) := by
  have hne : (ego.1 - p.1, ego.2 - p.2) ≠ ((0 : ℝ), (0 : ℝ)) := by
    intro e
    have e1 := (Prod.mk.injEq _ _ _ _).mp e
    exact h (Prod.ext (by linarith [e1.1]) (by linarith [e1.2]))
  obtain ⟨c, hc, e⟩ := Ln.atan2_dir _ _ hne
  have e1 : ego.1 - p.1 = c * Real.cos (angleTo ego p) := congrArg Prod.fst e
  have e2 : ego.2 - p.2 = c * Real.sin (angleTo ego p) := congrArg Prod.snd e
  refine ⟨c, hc, ?_⟩
  obtain ⟨-, -, hs, -⟩ := Angle.C31_signed_difference θ (angleTo ego p)
  rw [(Fren.trig_same hs).2, Real.sin_sub]
  unfold leftward vec
  simp only
  linear_combination (-Real.sin θ) * e1 + Real.cos θ * e2

theorem sgn_pos_iff {d c x : ℝ} (h1 : -Real.pi ≤ d) (h2 : d < Real.pi) (hc : 0 < c) (h : c * Real.sin d = x) :
    (0 < x → sgn d = 1) ∧ (x < 0 → sgn d = -1) := by
  unfold sgn
  constructor
  · intro hx
    have hs : 0 < Real.sin d := by
      by_contra hn
      have := mul_nonpos_of_nonneg_of_nonpos hc.le (not_lt.1 hn)
      linarith
    rw [if_pos]
    by_contra hn
    have := Real.sin_nonpos_of_nonpos_of_neg_pi_le (not_lt.1 hn) h1
    linarith
  · intro hx
    have hs : Real.sin d < 0 := by
      by_contra hn
      have := mul_nonneg hc.le (not_lt.1 hn)
      linarith
    rw [if_neg]
    intro hp
    have := Real.sin_nonneg_of_nonneg_of_le_pi hp.le h2.le
    linarith

/-- a point to the left gets the sign 1, a point to the right the sign -1 -/
theorem sgnLat_spec {ego p : Pt} (θ : ℝ) :
    (0 < leftward θ (vec ego p) → sgn (Angle.signedAngleDiff id θ (angleTo ego p)) = 1) ∧
    (leftward θ (vec ego p) < 0 → sgn (Angle.signedAngleDiff id θ (angleTo ego p)) = -1) := by
  by_cases h : p = ego
  · subst h
    have : leftward θ (vec p p) = 0 := by unfold leftward vec; simp
    rw [this]
    exact ⟨fun h => absurd h (lt_irrefl _), fun h => absurd h (lt_irrefl _)⟩
  · obtain ⟨c, hc, e⟩ := diff_sin h θ
    obtain ⟨h1, h2, -, -⟩ := Angle.C31_signed_difference θ (angleTo ego p)
    exact sgn_pos_iff h1 h2 hc e

theorem leftward_turned (θ : ℝ) (v : Pt) : leftward (θ - Real.pi / 2) v = along θ v := by
  unfold leftward along
  rw [Real.cos_sub_pi_div_two, Real.sin_sub_pi_div_two]
  ring

/-- a point in front gets the sign 1, a point behind the sign -1 -/
theorem sgnLon_spec {ego p : Pt} (θ : ℝ) : (0 < along θ (vec ego p) → sgnLon ego θ p = 1) ∧
    (along θ (vec ego p) < 0 → sgnLon ego θ p = -1) := by
  have := sgnLat_spec (ego := ego) (p := p) (θ - Real.pi / 2)
  rw [leftward_turned] at this
  exact this

theorem shiftLon_moved (sp : SafePoly) (θ s : ℝ) (p : Pt) :
    Moved θ p (shiftLon sp θ s p) (if 10000 < sp.lon then 0 else s * sp.lon) 0 := by
  have t := Real.sin_sq_add_cos_sq θ
  unfold Moved along leftward vec shiftLon
  by_cases h : 10000 < sp.lon
  · simp only [if_pos h]
    constructor <;> ring
  · simp only [if_neg h]
    constructor
    · linear_combination (s * sp.lon) * t
    · ring

theorem beside_moved (θ d : ℝ) (p : Pt) :
    Moved θ p (p.1 + d * Real.cos (θ - Real.pi / 2), p.2 + d * Real.sin (θ - Real.pi / 2)) 0 (-d) ∧
    Moved θ p (p.1 + d * Real.cos (θ + Real.pi / 2), p.2 + d * Real.sin (θ + Real.pi / 2)) 0 d := by
  have t := Real.sin_sq_add_cos_sq θ
  unfold Moved along leftward vec
  rw [Real.cos_sub_pi_div_two, Real.sin_sub_pi_div_two, Real.cos_add_pi_div_two, Real.sin_add_pi_div_two]
  simp only
  refine ⟨⟨by ring, ?_⟩, by ring, ?_⟩
  · linear_combination (-d) * t
  · linear_combination d * t

theorem n1 : ¬ ((1 : ℝ) < 0) := by norm_num
theorem p1 : (0 : ℝ) < 1 := by norm_num
theorem m1 : (-1 : ℝ) < 0 := by norm_num
theorem q1 : ¬ ((0 : ℝ) < -1) := by norm_num
theorem r1 : (1 : ℝ) * -1 < 0 := by norm_num
theorem r2 : ¬ ((1 : ℝ) * 1 < 0) := by norm_num
theorem r3 : (-1 : ℝ) * 1 < 0 := by norm_num
theorem r4 : ¬ ((-1 : ℝ) * -1 < 0) := by norm_num

theorem shiftLat_moved (sp : SafePoly) (ego : Pt) (θ : ℝ) (p : Pt) :
    (0 < leftward θ (vec ego p) → Moved θ p (shiftLat sp ego θ p) 0 (if sp.right < 10000 then -sp.right else 0)) ∧
    (leftward θ (vec ego p) < 0 → Moved θ p (shiftLat sp ego θ p) 0 (if sp.left < 10000 then sp.left else 0)) := by
  obtain ⟨h1, h2⟩ := sgnLat_spec (ego := ego) (p := p) θ
  have h0 : Moved θ p p 0 0 := by unfold Moved along leftward vec; simp
  constructor
  · intro h
    unfold shiftLat
    simp only [h1 h, n1, p1, if_true, if_false]
    by_cases g : sp.right < 10000
    · rw [if_pos g, if_pos g]
      exact (beside_moved θ sp.right p).1
    · rw [if_neg g, if_neg g]
      exact h0
  · intro h
    unfold shiftLat
    simp only [h2 h, m1, q1, if_true, if_false]
    by_cases g : sp.left < 10000
    · rw [if_pos g, if_pos g]
      exact (beside_moved θ sp.left p).2
    · rw [if_neg g, if_neg g]
      exact h0

theorem moved_trans {θ : ℝ} {p q r : Pt} {a a' l l' : ℝ} (h1 : Moved θ p q a l) (h2 : Moved θ q r a' l') :
    Moved θ p r (a + a') (l + l') := by
  unfold Moved along leftward vec at *
  simp only at *
  constructor
  · linear_combination h1.1 + h2.1
  · linear_combination h1.2 + h2.2

/-! ### The outline -/

/-- the corner computed for a corner of the ego -/
noncomputable def cornerOf (sp : SafePoly) (mode : Mode) (ego : Pt) (θ : ℝ) (other : Nat → Option Pt) (p : Pt) : Option Pt :=
  (lonSign sp mode ego θ other p).map fun s => shiftLon sp θ s (shiftLat sp ego θ p)

/-- what is kept while the outline grows -/
structure SameDist (a b : SafePoly) : Prop where
  left : a.left = b.left
  right : a.right = b.right
  lon : a.lon = b.lon
  agent : a.agent = b.agent

theorem cornerOf_congr {a b : SafePoly} (h : SameDist a b) (mode : Mode) (ego : Pt) (θ : ℝ) (other : Nat → Option Pt) (p : Pt) :
    cornerOf a mode ego θ other p = cornerOf b mode ego θ other p := by
  unfold cornerOf lonSign shiftLon shiftLat
  rw [h.left, h.right, h.lon, h.agent]

theorem extend_ok {mode : Mode} {ego : Pt} {θ : ℝ} {other : Nat → Option Pt} : ∀ {ps : List Pt} {sp : SafePoly},
    (mode = .auto → ∃ o, other sp.agent = some o) →
    (extend mode ego θ other sp ps).1 = true ∧ SameDist (extend mode ego θ other sp ps).2 sp ∧
    ∃ qs, (extend mode ego θ other sp ps).2.outline = sp.outline ++ qs ∧
      List.Forall₂ (fun p q => cornerOf sp mode ego θ other p = some q) ps qs
  | [], sp, _ => ⟨rfl, ⟨rfl, rfl, rfl, rfl⟩, [], by simp [extend], .nil⟩
  | p :: ps, sp, h => by
    have hs : ∃ s, lonSign sp mode ego θ other p = some s := by
      unfold lonSign
      cases mode with
      | auto =>
        obtain ⟨o, ho⟩ := h rfl
        simp only [ho]
        exact ⟨_, rfl⟩
      | front => exact ⟨_, rfl⟩
      | behind => exact ⟨_, rfl⟩
      | both => exact ⟨_, rfl⟩
    obtain ⟨s, hs⟩ := hs
    unfold extend
    rw [hs]
    simp only
    obtain ⟨h1, h2, qs, h3, h4⟩ := extend_ok (ps := ps)
      (sp := { sp with outline := sp.outline ++ [shiftLon sp θ s (shiftLat sp ego θ p)] }) h
    refine ⟨h1, ⟨h2.left, h2.right, h2.lon, h2.agent⟩, shiftLon sp θ s (shiftLat sp ego θ p) :: qs, ?_, ?_⟩
    · rw [h3]
      simp
    · refine .cons ?_ ?_
      · unfold cornerOf
        rw [hs]
        rfl
      · refine h4.imp fun p' q hq => ?_
        rw [← hq]
        exact cornerOf_congr ⟨rfl, rfl, rfl, rfl⟩ mode ego θ other p'

/-- **C142** (`violated` below for the lateral distances). The outline of the safety polygon has one corner for every corner of
the ego vehicle, in order, appended to what was there. Every corner is moved along the vehicle by the longitudinal distance
exactly if it is on the chosen end: in front (`front`), behind (`behind`), both, or the end facing the other agent (`auto`);
distances above 10000 are left out. -/
theorem C142_longitudinal_partial (sp : SafePoly) (e : Ego) (other : Nat → Option Pt) (mode : Mode)
    (h : mode = .auto → ∃ o, other sp.agent = some o) :
    (computeSafetyPolygon sp (some e) other mode).1 = true ∧
    ∃ qs, (computeSafetyPolygon sp (some e) other mode).2.outline = sp.outline ++ qs ∧
      List.Forall₂ (fun p q => ∀ toFront : Prop, (toFront ↔ 0 < along e.theta (vec e.pos p)) →
          along e.theta (vec e.pos p) ≠ 0 → leftward e.theta (vec e.pos p) ≠ 0 →
          (mode = .both ∧ sp.lon ≤ 10000 ∧ toFront → along e.theta (vec p q) = sp.lon) ∧
          (mode = .both ∧ sp.lon ≤ 10000 ∧ ¬ toFront → along e.theta (vec p q) = -sp.lon) ∧
          (mode = .front ∧ sp.lon ≤ 10000 ∧ toFront → along e.theta (vec p q) = sp.lon) ∧
          (mode = .front ∧ ¬ toFront → along e.theta (vec p q) = 0) ∧
          (mode = .behind ∧ toFront → along e.theta (vec p q) = 0) ∧
          (mode = .behind ∧ sp.lon ≤ 10000 ∧ ¬ toFront → along e.theta (vec p q) = -sp.lon) ∧
          (∀ o, mode = .auto → other sp.agent = some o → 0 < along e.theta (vec e.pos o) →
            (sp.lon ≤ 10000 ∧ toFront → along e.theta (vec p q) = sp.lon) ∧
            (¬ toFront → along e.theta (vec p q) = 0)) ∧
          (∀ o, mode = .auto → other sp.agent = some o → along e.theta (vec e.pos o) < 0 →
            (sp.lon ≤ 10000 ∧ ¬ toFront → along e.theta (vec p q) = -sp.lon) ∧
            (toFront → along e.theta (vec p q) = 0)) ∧
          (10000 < sp.lon → along e.theta (vec p q) = 0)) e.corners qs := by
  obtain ⟨h1, -, qs, h3, h4⟩ := extend_ok (mode := mode) (ego := e.pos) (θ := e.theta) (other := other) (ps := e.corners) (sp := sp) h
  refine ⟨h1, qs, h3, h4.imp ?_⟩
  intro p q hq toFront hf ha hl
  unfold cornerOf at hq
  obtain ⟨s, hs, rfl⟩ := Option.map_eq_some_iff.1 hq
  have hlat : ∃ l, Moved e.theta p (shiftLat sp e.pos e.theta p) 0 l := by
    rcases lt_or_gt_of_ne hl with g | g
    · exact ⟨_, (shiftLat_moved sp e.pos e.theta p).2 g⟩
    · exact ⟨_, (shiftLat_moved sp e.pos e.theta p).1 g⟩
  obtain ⟨l, hlat⟩ := hlat
  have hm := (moved_trans hlat (shiftLon_moved sp e.theta s _)).1
  rw [zero_add] at hm
  rw [hm]
  have f1 : toFront → sgnLon e.pos e.theta p = 1 := fun hh => (sgnLon_spec e.theta).1 (hf.1 hh)
  have f2 : ¬ toFront → sgnLon e.pos e.theta p = -1 := fun hh =>
    (sgnLon_spec e.theta).2 (lt_of_le_of_ne (not_lt.1 fun g => hh (hf.2 g)) ha)
  unfold lonSign at hs
  refine ⟨?_, ?_, ?_, ?_, ?_, ?_, ?_, ?_, ?_⟩
  · rintro ⟨rfl, g, t⟩
    simp only [f1 t, n1, p1, m1, q1, r1, r2, r3, r4, if_true, if_false, Option.some.injEq] at hs
    rw [if_neg (not_lt.2 g), ← hs]; ring
  · rintro ⟨rfl, g, t⟩
    simp only [f2 t, n1, p1, m1, q1, r1, r2, r3, r4, if_true, if_false, Option.some.injEq] at hs
    rw [if_neg (not_lt.2 g), ← hs]; ring
  · rintro ⟨rfl, g, t⟩
    simp only [f1 t, n1, p1, m1, q1, r1, r2, r3, r4, if_true, if_false, Option.some.injEq] at hs
    rw [if_neg (not_lt.2 g), ← hs]; ring
  · rintro ⟨rfl, t⟩
    simp only [f2 t, n1, p1, m1, q1, r1, r2, r3, r4, if_true, if_false, Option.some.injEq] at hs
    rw [← hs]; simp
  · rintro ⟨rfl, t⟩
    simp only [f1 t, n1, p1, m1, q1, r1, r2, r3, r4, if_true, if_false, Option.some.injEq] at hs
    rw [← hs]; simp
  · rintro ⟨rfl, g, t⟩
    simp only [f2 t, n1, p1, m1, q1, r1, r2, r3, r4, if_true, if_false, Option.some.injEq] at hs
    rw [if_neg (not_lt.2 g), ← hs]; ring
  · rintro o rfl ho hfo
    have fo := (sgnLon_spec (ego := e.pos) (p := o) e.theta).1 hfo
    constructor
    · rintro ⟨g, t⟩
      simp only [ho, fo, f1 t, n1, p1, m1, q1, r1, r2, r3, r4, if_true, if_false, Option.some.injEq] at hs
      rw [if_neg (not_lt.2 g), ← hs]; ring
    · intro t
      simp only [ho, fo, f2 t, n1, p1, m1, q1, r1, r2, r3, r4, if_true, if_false, Option.some.injEq] at hs
      rw [← hs]; simp
  · rintro o rfl ho hfo
    have fo := (sgnLon_spec (ego := e.pos) (p := o) e.theta).2 hfo
    constructor
    · rintro ⟨g, t⟩
      simp only [ho, fo, f2 t, n1, p1, m1, q1, r1, r2, r3, r4, if_true, if_false, Option.some.injEq] at hs
      rw [if_neg (not_lt.2 g), ← hs]; ring
    · intro t
      simp only [ho, fo, f1 t, n1, p1, m1, q1, r1, r2, r3, r4, if_true, if_false, Option.some.injEq] at hs
      rw [← hs]; simp
  · intro g
    rw [if_pos g]

/-- **C142 violated:** every corner on the left is moved to the *right*, by the distance for the right side, and every corner on
the right to the left, for every ego, orientation and mode; a polygon with positive lateral distances does not contain the
vehicle on either side. -/
theorem C142_lateral_violated (sp : SafePoly) (e : Ego) (other : Nat → Option Pt) (mode : Mode)
    (h : mode = .auto → ∃ o, other sp.agent = some o) :
    ∃ qs, (computeSafetyPolygon sp (some e) other mode).2.outline = sp.outline ++ qs ∧
      List.Forall₂ (fun p q =>
          (0 < leftward e.theta (vec e.pos p) → leftward e.theta (vec p q) = if sp.right < 10000 then -sp.right else 0) ∧
          (leftward e.theta (vec e.pos p) < 0 → leftward e.theta (vec p q) = if sp.left < 10000 then sp.left else 0))
        e.corners qs := by
  obtain ⟨h1, -, qs, h3, h4⟩ := extend_ok (mode := mode) (ego := e.pos) (θ := e.theta) (other := other) (ps := e.corners) (sp := sp) h
  refine ⟨qs, h3, h4.imp ?_⟩
  intro p q hq
  unfold cornerOf at hq
  obtain ⟨s, hs, rfl⟩ := Option.map_eq_some_iff.1 hq
  constructor
  · intro g
    have := (moved_trans ((shiftLat_moved sp e.pos e.theta p).1 g) (shiftLon_moved sp e.theta s _)).2
    rw [this, add_zero]
  · intro g
    have := (moved_trans ((shiftLat_moved sp e.pos e.theta p).2 g) (shiftLon_moved sp e.theta s _)).2
    rw [this, add_zero]

/-- Without an ego, or without the other agent in mode `auto` (and a corner at all), nothing is computed or changed. -/
theorem C142_missing (sp : SafePoly) (other : Nat → Option Pt) (mode : Mode) :
    computeSafetyPolygon sp none other mode = (false, sp) ∧
    ∀ e : Ego, e.corners ≠ [] → other sp.agent = none → computeSafetyPolygon sp (some e) other .auto = (false, sp) := by
  refine ⟨rfl, ?_⟩
  intro e he ho
  unfold computeSafetyPolygon
  simp only
  cases hc : e.corners with
  | nil => exact absurd hc he
  | cons p ps =>
    unfold extend lonSign
    simp only [ho]

/-- **C142 violated:** computing it again – as the viewer does for every frame drawn without a new plan – appends the outline
once more. -/
theorem C142_again_violated (sp : SafePoly) (e : Ego) (other : Nat → Option Pt) (mode : Mode)
    (h : mode = .auto → ∃ o, other sp.agent = some o) :
    (computeSafetyPolygon (computeSafetyPolygon sp (some e) other mode).2 (some e) other mode).2.outline.length =
      sp.outline.length + 2 * e.corners.length := by
  obtain ⟨-, h2, qs, h3, h4⟩ := extend_ok (mode := mode) (ego := e.pos) (θ := e.theta) (other := other) (ps := e.corners) (sp := sp) h
  obtain ⟨-, -, qs', h3', h4'⟩ := extend_ok (mode := mode) (ego := e.pos) (θ := e.theta) (other := other) (ps := e.corners)
    (sp := (computeSafetyPolygon sp (some e) other mode).2)
    (by intro hm; obtain ⟨o, ho⟩ := h hm; exact ⟨o, by rw [← ho]; exact congrArg _ h2.agent⟩)
  have e1 : (computeSafetyPolygon (computeSafetyPolygon sp (some e) other mode).2 (some e) other mode).2.outline =
    (sp.outline ++ qs) ++ qs' := by rw [← h3]; exact h3'
  rw [e1, List.length_append, List.length_append, ← h4.length_eq, ← h4'.length_eq]
  omega

/-- an ego of width 2 in the origin with lateral distances of 1: the polygon shrinks to a line -/
example : ∃ qs, (computeSafetyPolygon ⟨1, 1, 5, 0, []⟩ (some ⟨(0, 0), 0, [(2, 1), (2, -1)]⟩) (fun _ => none) .front).2.outline =
    [] ++ qs ∧ List.Forall₂ (fun p q => (0 < leftward 0 (vec (0, 0) p) → leftward 0 (vec p q) = if (1 : ℝ) < 10000 then -1 else 0) ∧
      (leftward 0 (vec (0, 0) p) < 0 → leftward 0 (vec p q) = if (1 : ℝ) < 10000 then 1 else 0)) [(2, 1), (2, -1)] qs :=
  C142_lateral_violated ⟨1, 1, 5, 0, []⟩ ⟨(0, 0), 0, [(2, 1), (2, -1)]⟩ (fun _ => none) .front (by intro h; cases h)

example : 0 < leftward 0 (vec (0, 0) (2, 1)) ∧ leftward 0 (vec (0, 0) (2, -1)) < 0 ∧ 0 < along 0 (vec (0, 0) (2, 1)) := by
  simp [leftward, along, vec]

end Bark.RssEval
