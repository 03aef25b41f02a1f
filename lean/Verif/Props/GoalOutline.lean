import Verif.Props.GoalLimits
import Verif.Model.LineOps

/-! The area of the Frenet goal, and the nearest arc length. -/
namespace Bark.Goal
open Bark.Ln Bark.Ln.Spec

/-- **C73, the goal area.** For a centre line of at least two points without coinciding neighbours, the outline of
the goal area consists of the points `right` along the centre line and the points `left` back: for every point of
the centre line one at distance `|maxLat.1|` and one at distance `|maxLat.2|`; at the two ends the first lies
`maxLat.1` to the right of the centre line and the other `maxLat.2` to the left of it; at a corner that does not
turn back both offsets shrink by half the length of the sum of the two unit vectors. -/
theorem C73_frenet_outline (g : FrenetLimits) (h : TableRight g.center) (hl : 2 ≤ g.center.pts.length)
    (hnd : NoDup g.center.pts) :
    ∃ right left : List Pt, frenetOutline g = .ok (right ++ left.reverse) ∧
      right.length = g.center.pts.length ∧ left.length = g.center.pts.length ∧
      (∀ (i : Nat) p q r, g.center.pts[i]? = some p → right[i]? = some q → left[i]? = some r →
        pdist p q = |g.maxLat.1| ∧ pdist p r = |g.maxLat.2|) ∧
      (∀ a b q r, g.center.pts[0]? = some a → g.center.pts[1]? = some b → right[0]? = some q → left[0]? = some r →
        Spec.offset a b q = -g.maxLat.1 ∧ Spec.offset a b r = g.maxLat.2) ∧
      (∀ a b q r, g.center.pts[g.center.pts.length - 2]? = some a → g.center.pts[g.center.pts.length - 1]? = some b →
        right[g.center.pts.length - 1]? = some q → left[g.center.pts.length - 1]? = some r →
        Spec.offset a b q = -g.maxLat.1 ∧ Spec.offset a b r = g.maxLat.2) ∧
      (∀ (i : Nat) a b c q r, g.center.pts[i]? = some a → g.center.pts[i + 1]? = some b → g.center.pts[i + 2]? = some c →
        right[i + 1]? = some q → left[i + 1]? = some r → unit a b + unit b c ≠ 0 →
        Spec.offset a b q = -g.maxLat.1 * (pdist (0, 0) (unit a b + unit b c) / 2) ∧
        Spec.offset b c q = -g.maxLat.1 * (pdist (0, 0) (unit a b + unit b c) / 2) ∧
        Spec.offset a b r = g.maxLat.2 * (pdist (0, 0) (unit a b + unit b c) / 2) ∧
        Spec.offset b c r = g.maxLat.2 * (pdist (0, 0) (unit a b + unit b c) / 2)) := by
  obtain ⟨m, hm, -, ml, m1, m2, m3, m4⟩ := C76_shift_partial h hl hnd (-g.maxLat.1)
  obtain ⟨n, hn, -, nl, n1, n2, n3, n4⟩ := C76_shift_partial h hl hnd g.maxLat.2
  refine ⟨m.pts, n.pts, ?_, ml, nl, ?_, ?_, ?_, ?_⟩
  · unfold frenetOutline
    rw [hm, hn]
    rfl
  · intro i p q r hp hq hr
    have := m1 i p q hp hq
    rw [abs_neg] at this
    exact ⟨this, n1 i p r hp hr⟩
  · intro a b q r ha hb hq hr
    exact ⟨m2 a b q ha hb hq, n2 a b r ha hb hr⟩
  · intro a b q r ha hb hq hr
    exact ⟨m3 a b q ha hb hq, n3 a b r ha hb hr⟩
  · intro i a b c q r ha hb hc hq hr hu
    obtain ⟨x1, x2⟩ := m4 i a b c q ha hb hc hq hu
    obtain ⟨y1, y2⟩ := n4 i a b c r ha hb hc hr hu
    exact ⟨x1, x2, y1, y2⟩

/-- a centre line meeting the hypotheses -/
example : TableRight (ofArray [((0 : ℝ), (0 : ℝ)), (10, 0), (20, 5)]) ∧
    2 ≤ (ofArray [((0 : ℝ), (0 : ℝ)), (10, 0), (20, 5)]).pts.length ∧
    NoDup (ofArray [((0 : ℝ), (0 : ℝ)), (10, 0), (20, 5)]).pts :=
  ⟨tableRight_recompute _, by simp [ofArray, recomputeS], by simp [NoDup, ofArray, recomputeS]⟩

/-- **C30, the separate queries.** `GetNearestPoint` returns a nearest point of the line and `GetNearestS` the arc
length at which this point lies. -/
theorem C30_nearest_queries {l : Line} (h : TableRight l) (h2 : 2 ≤ l.pts.length) (hnd : NoDup l.pts) (p : Pt) :
    ∃ q s, nearestPoint l p = .ok q ∧ nearestS l p = .ok s ∧ AtArc l.pts s q ∧
      ∀ q', OnLine l.pts q' → pdist p q ≤ pdist p q' := by
  obtain ⟨q, s, i, hn, ha, hm⟩ := C30_nearest_point h h2 hnd p
  refine ⟨q, s, ?_, ?_, ha, ?_⟩
  · unfold nearestPoint; rw [hn]; rfl
  · unfold nearestS; rw [hn]; rfl
  · intro q' hq
    have := hm q' hq
    unfold pdist
    apply Real.sqrt_le_sqrt
    unfold dist2 at this
    nlinarith [this]

end Bark.Goal
