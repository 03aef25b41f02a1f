import Verif.Spec.GoalLimits
import Verif.Props.Line
import Verif.Props.Angle
import Verif.Lemmas.World

/-! C73 (acceptance by goals with state limits), C76 (laterally shifted lines). -/
namespace Bark.Goal
open Bark Bark.Ln Bark.Ln.Spec Bark.Angle.Spec Real
variable {Poly : Type}

/-- whether the wrapped difference lies within tolerances of less than half a turn -/
theorem orientation_iff (g : FrenetLimits) (t θ : ℝ) (h1 : 0 ≤ g.maxOri.1) (h1' : g.maxOri.1 < π)
    (h2 : 0 ≤ g.maxOri.2) (h2' : g.maxOri.2 ≤ π) :
    orientationOk id g t θ = true ↔ Spec.HeadingWithin t θ g.maxOri.1 g.maxOri.2 := by
  obtain ⟨a1, a2, ⟨k, hk⟩, -⟩ := Angle.C31_signed_difference t θ
  have hp : (0 : ℝ) < π := pi_pos
  simp only [orientationOk, Bool.and_eq_true, decide_eq_true_eq]
  constructor
  · rintro ⟨b1, b2⟩
    refine ⟨_, b2, b1, -k, ?_⟩
    rw [hk]; push_cast; ring
  · rintro ⟨r, c1, c2, m, hm⟩
    obtain ⟨-, hu⟩ := Angle.C31_normToPI (t - θ)
    obtain ⟨⟨n1, n2, n3⟩, -⟩ := Angle.C31_normToPI (t - θ)
    have hr : r = Angle.normToPI id (t - θ) := hu r (by linarith) (by linarith) ⟨-m, by push_cast; linarith⟩
    have : Angle.signedAngleDiff id t θ = r := by rw [Angle.signedAngleDiff_eq, hr]
    rw [this]
    exact ⟨c2, c1⟩

/-- **C73, Frenet limits.** For a center line of at least two points with a right table and no coinciding
neighbours, and tolerances of less than half a turn, `AtGoal` is true iff the velocity lies in the closed
range, the position within the goal shape and the heading deviates from the direction of the center line at
a point of it nearest to the agent by no more than the tolerances. -/
theorem C73_frenet (within : Pt → Bool) (g : FrenetLimits) (a : AgentView Poly)
    (h : TableRight g.center) (hl : 2 ≤ g.center.pts.length) (hnd : NoDup g.center.pts)
    (h1 : 0 ≤ g.maxOri.1) (h1' : g.maxOri.1 < π) (h2 : 0 ≤ g.maxOri.2) (h2' : g.maxOri.2 ≤ π) :
    ∃ q s t r, AtArc g.center.pts s q ∧ (∀ q', OnLine g.center.pts q' → dist2 a.pos q ≤ dist2 a.pos q') ∧
      tangentAngleAtS g.center s = .ok t ∧
      atFrenetLimits id within g a = .ok r ∧
      (r = true ↔ (g.vel.1 ≤ a.vel ∧ a.vel ≤ g.vel.2) ∧ within a.pos = true ∧
        Spec.HeadingWithin t a.theta g.maxOri.1 g.maxOri.2) := by
  obtain ⟨q, s, i, hn, hq, hmin⟩ := C30_nearest_point h hl hnd a.pos
  obtain ⟨t, ht, -⟩ := C61_tangent h hl hnd s
  unfold atFrenetLimits
  by_cases hv : a.vel < g.vel.1 ∨ a.vel > g.vel.2
  · refine ⟨q, s, t, false, hq, hmin, ht, by rw [if_pos hv], ?_⟩
    constructor
    · intro h; cases h
    · rintro ⟨⟨c1, c2⟩, -⟩
      rcases hv with hv | hv <;> linarith
  · rw [if_neg hv]
    have hv' : g.vel.1 ≤ a.vel ∧ a.vel ≤ g.vel.2 := by
      push Not at hv
      exact hv
    by_cases hw : within a.pos = false
    · refine ⟨q, s, t, false, hq, hmin, ht, by rw [if_pos hw], ?_⟩
      simp [hw]
    · rw [if_neg hw, hn]
      simp only [Res.ok_bind, ht]
      refine ⟨q, s, t, _, hq, hmin, ht, rfl, ?_⟩
      rw [orientation_iff g t a.theta h1 h1' h2 h2']
      have hw' : within a.pos = true := by simpa using hw
      exact ⟨fun h => ⟨hv', hw', h⟩, fun h => h.2.2⟩

/-- **C73.** The Frenet goal does not depend on how many whole turns the heading contains. -/
theorem C73_frenet_turns (within : Pt → Bool) (g : FrenetLimits) (a : AgentView Poly) (k : ℤ)
    (h : TableRight g.center) (hl : 2 ≤ g.center.pts.length) (hnd : NoDup g.center.pts) :
    atFrenetLimits id within g { a with theta := a.theta + 2 * π * k } = atFrenetLimits id within g a := by
  obtain ⟨q, s, i, hn, hq, hmin⟩ := C30_nearest_point h hl hnd a.pos
  obtain ⟨t, ht, -⟩ := C61_tangent h hl hnd s
  unfold atFrenetLimits
  simp only
  split
  · rfl
  · split
    · rfl
    · simp only [hn, Res.ok_bind, ht]
      congr 1
      unfold orientationOk
      have : Angle.signedAngleDiff id t (a.theta + 2 * π * k) = Angle.signedAngleDiff id t a.theta := by
        rw [Angle.signedAngleDiff_eq, Angle.signedAngleDiff_eq]
        obtain ⟨⟨n1, n2, m, n3⟩, -⟩ := Angle.C31_normToPI (t - (a.theta + 2 * π * k))
        obtain ⟨-, hu⟩ := Angle.C31_normToPI (t - a.theta)
        refine hu _ n1 n2 ⟨m - k, ?_⟩
        rw [n3]; push_cast; ring
      rw [this]

/-- **C73, state limits, what holds.** True iff the position is within the polygon and the stored heading,
as a number, lies in the closed interval. -/
theorem C73_state_limits_partial (within : Pt → Bool) (lim : ℝ × ℝ) (a : AgentView Poly) :
    atStateLimits within lim a = true ↔ within a.pos = true ∧ lim.1 ≤ a.theta ∧ a.theta ≤ lim.2 := by
  simp [atStateLimits, and_assoc]

/-- **C73 violated for state limits**: the heading interval is not taken modulo whole turns: whatever the
limits (less than a turn apart) and an accepted agent, the same pose with one more turn is rejected. -/
theorem C73_state_limits_violated (within : Pt → Bool) (lim : ℝ × ℝ) (hlim : lim.2 - lim.1 < 2 * π)
    (a : AgentView Poly) (ha : atStateLimits within lim a = true) :
    SameDir (a.theta + 2 * π) a.theta ∧ atStateLimits within lim { a with theta := a.theta + 2 * π } = false := by
  obtain ⟨h1, h2, h3⟩ := (C73_state_limits_partial within lim a).1 ha
  refine ⟨⟨1, by push_cast; ring⟩, ?_⟩
  rw [Bool.eq_false_iff]
  intro hc
  obtain ⟨-, -, h6⟩ := (C73_state_limits_partial within lim _).1 hc
  simp only at h6
  linarith

example : atStateLimits (Poly := Unit) (fun _ => true) (-1, 1) ⟨(0, 0), 0, 5, ()⟩ = true := by
  rw [C73_state_limits_partial]
  norm_num

/-! ### laterally shifted lines -/

theorem mapM_all {α β : Type} (f : α → Res β) : ∀ l : List α, (∀ x ∈ l, ∃ y, f x = .ok y) →
    ∃ ys, l.mapM f = .ok ys ∧ List.Forall₂ (fun x y => f x = .ok y) l ys := by
  intro l
  induction l with
  | nil => intro _; exact ⟨[], rfl, .nil⟩
  | cons x l ih =>
    intro h
    obtain ⟨y, hy⟩ := h x (by simp)
    obtain ⟨ys, hys, hf⟩ := ih (fun z hz => h z (by simp [hz]))
    refine ⟨y :: ys, ?_, .cons hy hf⟩
    rw [List.mapM_cons, hy, Res.ok_bind, hys]
    rfl

theorem vertex_arc {l : List Pt} (hl : 2 ≤ l.length) {i : Nat} {p : Pt} (hp : l[i]? = some p) :
    AtArc l (Ln.length (l.take (i + 1))) p := by
  obtain ⟨hi, rfl⟩ := List.getElem?_eq_some_iff.1 hp
  by_cases hlast : i + 1 < l.length
  · exact ⟨i, _, l[i + 1], 0, hp, List.getElem?_eq_getElem hlast, le_rfl, zero_le_one, (lerp_zero _ _).symm, by ring⟩
  · obtain ⟨j, rfl⟩ : ∃ j, i = j + 1 := ⟨i - 1, by omega⟩
    have hj : l[j]? = some l[j] := List.getElem?_eq_getElem (by omega)
    exact ⟨j, l[j], _, 1, hj, hp, zero_le_one, le_rfl, (lerp_one _ _).symm, by
      rw [show j + 1 + 1 = j + 2 from rfl, arc_step l j _ _ hj hp]; ring⟩

theorem vertex_atS {l : Line} (h : TableRight l) (hl : 2 ≤ l.pts.length) {i : Nat} {p : Pt}
    (hp : l.pts[i]? = some p) : pointAtS l (Ln.length (l.pts.take (i + 1))) = .ok p := by
  have hi := (List.getElem?_eq_some_iff.1 hp).1
  obtain ⟨q, hq, ha⟩ := pointAtS_atArc h hl (length_nonneg (l.pts.take (i + 1))) (by
    have := arc_mono l.pts (show i ≤ l.pts.length - 1 by omega)
    rwa [show l.pts.length - 1 + 1 = l.pts.length by omega, List.take_length] at this)
  have := C29_lipschitz l.pts ha (vertex_arc hl hp)
  rw [sub_self, abs_zero] at this
  rw [hq, pdist_eq_zero.1 (le_antisymm this (pdist_nonneg _ _))]

theorem normal_eq (θ : ℝ) : cos (θ + π / 2) = -sin θ ∧ sin (θ + π / 2) = cos θ :=
  ⟨cos_add_pi_div_two θ, sin_add_pi_div_two θ⟩

/-- moving by `d` along a unit normal moves by `|d|` -/
theorem shift_pdist (p : Pt) (θ d : ℝ) : pdist p (p.1 + cos (θ + π / 2) * d, p.2 + sin (θ + π / 2) * d) = |d| := by
  unfold pdist
  simp only
  rw [← Real.sqrt_sq_eq_abs]
  congr 1
  have := sin_sq_add_cos_sq (θ + π / 2)
  linear_combination d ^ 2 * this

theorem unit_len {a b : Pt} (hab : a ≠ b) : (unit a b).1 ^ 2 + (unit a b).2 ^ 2 = 1 := by
  obtain ⟨h1, h2⟩ := segAngle_unit hab
  rw [← h1, ← h2]
  have := sin_sq_add_cos_sq (segAngle a b)
  linarith

/-- `offset` through the unit vector -/
theorem offset_unit (a b q : Pt) :
    Spec.offset a b q = (unit a b).1 * (q.2 - a.2) - (unit a b).2 * (q.1 - a.1) := by
  unfold Spec.offset unit
  simp only
  ring

theorem offset_unit' {a b : Pt} (hab : a ≠ b) (q : Pt) :
    Spec.offset a b q = (unit a b).1 * (q.2 - b.2) - (unit a b).2 * (q.1 - b.1) := by
  rw [offset_unit]
  have h0 : pdist a b ≠ 0 := fun e => hab (pdist_eq_zero.1 e)
  unfold unit
  simp only
  field_simp
  ring

/-- shifting along the normal of the segment's own direction -/
theorem offset_segment {a b : Pt} (hab : a ≠ b) {θ : ℝ} (hd : HasDir (vec a b) θ) :
    (unit a b).1 = cos θ ∧ (unit a b).2 = sin θ := by
  obtain ⟨c, hc, he⟩ := hd
  have e1 : b.1 - a.1 = c * cos θ := congrArg Prod.fst he
  have e2 : b.2 - a.2 = c * sin θ := congrArg Prod.snd he
  have hp : pdist a b = c := by
    unfold pdist
    rw [show (a.1 - b.1) * (a.1 - b.1) + (a.2 - b.2) * (a.2 - b.2) = c ^ 2 by
      have := sin_sq_add_cos_sq θ
      have f1 : a.1 - b.1 = -(c * cos θ) := by linarith
      have f2 : a.2 - b.2 = -(c * sin θ) := by linarith
      rw [f1, f2]
      linear_combination c ^ 2 * this]
    exact Real.sqrt_sq hc.le
  unfold unit
  simp only
  rw [e1, e2, hp]
  constructor <;> field_simp

/-- shifting along the normal of the bisector -/
theorem offset_bisector {u v : Pt} (hu : u.1 ^ 2 + u.2 ^ 2 = 1) (hv : v.1 ^ 2 + v.2 ^ 2 = 1) {θ : ℝ}
    (hd : HasDir (u + v) θ) :
    u.1 * cos θ + u.2 * sin θ = pdist (0, 0) (u + v) / 2 ∧ v.1 * cos θ + v.2 * sin θ = pdist (0, 0) (u + v) / 2 := by
  obtain ⟨c, hc, he⟩ := hd
  have e1 : u.1 + v.1 = c * cos θ := congrArg Prod.fst he
  have e2 : u.2 + v.2 = c * sin θ := congrArg Prod.snd he
  have hcs := sin_sq_add_cos_sq θ
  have hp : pdist (0, 0) (u + v) = c := by
    unfold pdist
    rw [he]
    simp only
    rw [show (0 - c * cos θ) * (0 - c * cos θ) + (0 - c * sin θ) * (0 - c * sin θ) = c ^ 2 by
      linear_combination c ^ 2 * hcs]
    exact Real.sqrt_sq hc.le
  rw [hp]
  have hc2 : c ^ 2 = (u.1 + v.1) ^ 2 + (u.2 + v.2) ^ 2 := by
    rw [e1, e2]; linear_combination (-c ^ 2) * hcs
  have hne : c ≠ 0 := hc.ne'
  constructor
  · apply mul_left_cancel₀ hne
    have : c * (u.1 * cos θ + u.2 * sin θ) = u.1 * (c * cos θ) + u.2 * (c * sin θ) := by ring
    rw [this, ← e1, ← e2]
    linarith
  · apply mul_left_cancel₀ hne
    have : c * (v.1 * cos θ + v.2 * sin θ) = v.1 * (c * cos θ) + v.2 * (c * sin θ) := by ring
    rw [this, ← e1, ← e2]
    linarith

/-- **C76.** For a line of at least two points with a right table and no coinciding neighbours, shifting it
laterally by `d` gives a line with a right table and one point per point of the original, each at distance
exactly `|d|` from its original.  At the two ends the new point lies at signed distance `d` (left positive)
from the end segment.  At a corner whose segments do not point in opposite directions it lies at the same
signed distance from both segments, namely `d` times half the length of the sum of the two unit vectors
(the cosine of half the turn). -/
theorem C76_shift_partial {l : Line} (h : TableRight l) (hl : 2 ≤ l.pts.length) (hnd : NoDup l.pts) (d : ℝ) :
    ∃ m : Line, shiftedLaterally l d = .ok m ∧ TableRight m ∧ m.pts.length = l.pts.length ∧
      (∀ (i : Nat) p q, l.pts[i]? = some p → m.pts[i]? = some q → pdist p q = |d|) ∧
      (∀ a b q, l.pts[0]? = some a → l.pts[1]? = some b → m.pts[0]? = some q → Spec.offset a b q = d) ∧
      (∀ a b q, l.pts[l.pts.length - 2]? = some a → l.pts[l.pts.length - 1]? = some b →
        m.pts[l.pts.length - 1]? = some q → Spec.offset a b q = d) ∧
      (∀ (i : Nat) a b c q, l.pts[i]? = some a → l.pts[i + 1]? = some b → l.pts[i + 2]? = some c → m.pts[i + 1]? = some q →
        unit a b + unit b c ≠ 0 →
        Spec.offset a b q = d * (pdist (0, 0) (unit a b + unit b c) / 2) ∧
        Spec.offset b c q = d * (pdist (0, 0) (unit a b + unit b c) / 2)) := by
  have each : ∀ (i : Nat) (p : Pt), l.pts[i]? = some p → ∃ θ,
      tangentAngleAtS l (Ln.length (l.pts.take (i + 1))) = .ok θ ∧
      shiftedPoint l d (Ln.length (l.pts.take (i + 1))) = .ok (p.1 + cos (θ + π / 2) * d, p.2 + sin (θ + π / 2) * d) := by
    intro i p hp
    obtain ⟨θ, hθ, -⟩ := C61_tangent h hl hnd (Ln.length (l.pts.take (i + 1)))
    refine ⟨θ, hθ, ?_⟩
    unfold shiftedPoint normalAtS
    simp only [hθ, Res.ok_bind, vertex_atS h hl hp]
  have hs : ∀ (i : Nat) (p : Pt), l.pts[i]? = some p → l.s[i]? = some (Ln.length (l.pts.take (i + 1))) :=
    fun i p hp => table_at h hp
  obtain ⟨qs, hqs, hf⟩ := mapM_all (shiftedPoint l d) l.s (by
    intro x hx
    obtain ⟨i, hi, rfl⟩ := List.mem_iff_getElem.1 hx
    have hi' : i < l.pts.length := by rw [← h.1]; exact hi
    obtain ⟨θ, -, he⟩ := each i _ (List.getElem?_eq_getElem hi')
    rw [h.2 i hi]
    exact ⟨_, he⟩)
  have hlen : qs.length = l.pts.length := by rw [← hf.length_eq, h.1]
  have hval : ∀ (i : Nat) p q, l.pts[i]? = some p → qs[i]? = some q →
      ∃ θ, tangentAngleAtS l (Ln.length (l.pts.take (i + 1))) = .ok θ ∧
        q = (p.1 + cos (θ + π / 2) * d, p.2 + sin (θ + π / 2) * d) := by
    intro i p q hp hq
    obtain ⟨θ, hθ, he⟩ := each i p hp
    refine ⟨θ, hθ, ?_⟩
    obtain ⟨hi1, e1⟩ := List.getElem?_eq_some_iff.1 (hs i p hp)
    obtain ⟨hi2, e2⟩ := List.getElem?_eq_some_iff.1 hq
    have := (List.forall₂_iff_get.1 hf).2 i hi1 hi2
    simp only [List.get_eq_getElem, e1, e2, he] at this
    exact (Except.ok.inj this).symm
  have hpts : (qs.foldl addPoint Ln.empty).pts = qs := by rw [foldl_addPoint]; rfl
  have hcal : shiftedLaterally l d = .ok (qs.foldl addPoint Ln.empty) := by
    unfold shiftedLaterally
    rw [hqs]; rfl
  have htr : TableRight (qs.foldl addPoint Ln.empty) := by
    have hne : qs ≠ [] := by
      intro e; rw [e] at hlen; simp at hlen; omega
    rw [← List.dropLast_append_getLast hne, List.foldl_append]
    exact tableRight_recompute _
  refine ⟨_, hcal, htr, by rw [hpts, hlen], ?_, ?_, ?_, ?_⟩
  · intro i p q hp hq
    rw [hpts] at hq
    obtain ⟨θ, -, rfl⟩ := hval i p q hp hq
    exact shift_pdist p θ d
  · intro a b q ha hb hq
    rw [hpts] at hq
    obtain ⟨θ, hθ, rfl⟩ := hval 0 a q ha hq
    have hab := noDup_seg hnd ha hb
    obtain ⟨θ', hθ', t1, -⟩ := C61_tangent h hl hnd (Ln.length (l.pts.take (0 + 1)))
    rw [hθ] at hθ'
    cases hθ'
    have h0 : Ln.length (l.pts.take (0 + 1)) = 0 := by
      obtain ⟨x, t, ht⟩ := List.exists_cons_of_ne_nil (l := l.pts) (by rw [← List.length_pos_iff]; omega)
      rw [ht]; rfl
    obtain ⟨u1, u2⟩ := offset_segment hab (t1 h0.le a b ha hb)
    rw [offset_unit, u1, u2]
    obtain ⟨n1, n2⟩ := normal_eq θ
    simp only [n1, n2]
    have := sin_sq_add_cos_sq θ
    linear_combination d * this
  · intro a b q ha hb hq
    rw [hpts] at hq
    obtain ⟨θ, hθ, rfl⟩ := hval _ b q hb hq
    have hab : a ≠ b := noDup_seg hnd ha (by rw [show l.pts.length - 2 + 1 = l.pts.length - 1 by omega]; exact hb)
    obtain ⟨θ', hθ', -, t2, -⟩ := C61_tangent h hl hnd (Ln.length (l.pts.take (l.pts.length - 1 + 1)))
    rw [hθ] at hθ'
    cases hθ'
    have hL : Ln.length l.pts ≤ Ln.length (l.pts.take (l.pts.length - 1 + 1)) := by
      rw [show l.pts.length - 1 + 1 = l.pts.length by omega, List.take_length]
    obtain ⟨u1, u2⟩ := offset_segment hab (t2 hL a b ha hb)
    rw [offset_unit' hab, u1, u2]
    obtain ⟨n1, n2⟩ := normal_eq θ
    simp only [n1, n2]
    have := sin_sq_add_cos_sq θ
    linear_combination d * this
  · intro i a b c q ha hb hc hq hne
    rw [hpts] at hq
    obtain ⟨θ, hθ, rfl⟩ := hval _ b q hb hq
    have hab : a ≠ b := noDup_seg hnd ha hb
    have hbc : b ≠ c := noDup_seg hnd hb hc
    obtain ⟨θ', hθ', -, -, -, t4⟩ := C61_tangent h hl hnd (Ln.length (l.pts.take (i + 1 + 1)))
    rw [hθ] at hθ'
    cases hθ'
    obtain ⟨o1, o2⟩ := offset_bisector (unit_len hab) (unit_len hbc) (t4 i a b c ha hb hc rfl hne)
    obtain ⟨n1, n2⟩ := normal_eq θ
    rw [offset_unit' hab, offset_unit, ← o1]
    simp only [n1, n2]
    constructor
    · ring
    · rw [o1, ← o2]; ring

/-- **C76 violated at corners**: the shifted line does not keep the distance: for a left turn by 90 degrees the
corner of the line shifted by `d` lies at distance `|d| / √2` from both segments. -/
theorem C76_shift_violated (d : ℝ) : ∃ m, shiftedLaterally (ofArray [(0, 0), (1, 0), (1, 1)]) d = .ok m ∧
    ∃ q, m.pts[1]? = some q ∧ Spec.offset (0, 0) (1, 0) q = d * (Real.sqrt 2 / 2) ∧
      Spec.offset (1, 0) (1, 1) q = d * (Real.sqrt 2 / 2) := by
  have hnd : NoDup (ofArray [((0 : ℝ), (0 : ℝ)), (1, 0), (1, 1)]).pts := by
    simp [NoDup, ofArray, recomputeS]
  obtain ⟨m, hm, -, hlen, -, -, -, h4⟩ := C76_shift_partial (l := ofArray [(0, 0), (1, 0), (1, 1)])
    (tableRight_recompute _) (by simp [ofArray, recomputeS]) hnd d
  have hlen' : m.pts.length = 3 := hlen
  refine ⟨m, hm, m.pts[1], List.getElem?_eq_getElem (by omega), ?_⟩
  have hu : unit ((0 : ℝ), (0 : ℝ)) (1, 0) + unit (1, 0) (1, 1) = (1, 1) := by
    norm_num [unit, pdist]
  have := h4 0 (0, 0) (1, 0) (1, 1) m.pts[1] rfl rfl rfl (List.getElem?_eq_getElem (by omega)) (by
    rw [hu]; intro e; have := congrArg Prod.fst e; norm_num at this)
  rw [hu] at this
  have hp : pdist (0, 0) (1, 1) = Real.sqrt 2 := by
    unfold pdist; norm_num
  rw [hp] at this
  exact this

end Bark.Goal
