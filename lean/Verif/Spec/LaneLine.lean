import Verif.Model.LaneLine
import Verif.Spec.Line

/-!
Specification vocabulary for lane boundaries (C157, C158).
-/
namespace Bark.LaneLine.Spec
open Real Bark.Ln Bark.Ln.Spec

/-- lanes with positive number lie to the left of the reference line, the others to the right -/
def outward (id : Int) : ℝ := if 0 < id then 1 else -1

/-- a width polynomial -/
def widthAt (o : Cubic) (x : ℝ) : ℝ := o.a + o.b * x + o.c * x ^ 2 + o.d * x ^ 3

/-- `q` is beside the line at arc length `s`, at the distance `d` to the left (to the right if negative) -/
def BesideAt (l : Line) (s d : ℝ) (q : Pt) : Prop :=
  ∃ p θ, AtArc l.pts s p ∧ tangentAngleAtS l s = .ok θ ∧ q = (p.1 - d * sin θ, p.2 + d * cos θ)

/-- `q` is beside the point `v`, perpendicular to the segment from `a` to `b`, at the distance `d` to the left -/
def BesideSegment (a b v : Pt) (d : ℝ) (q : Pt) : Prop := q = (v.1 - d * (unit a b).2, v.2 + d * (unit a b).1)

/-- arc lengths from `a` to `b` in steps of at most `inc` -/
structure Covers (a b inc : ℝ) (ss : List ℝ) : Prop where
  first : ss.head? = some a
  last : ss.getLast? = some b
  step : ∀ (i : Nat) (x y : ℝ), ss[i]? = some x → ss[i + 1]? = some y → x < y ∧ y - x ≤ inc

end Bark.LaneLine.Spec
