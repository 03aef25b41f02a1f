import Verif.Model.Placement
import Verif.Spec.Line
import Mathlib.Data.List.Forall2

/-!
Specification vocabulary for vehicles placed along lanes (C167–C170).
-/
namespace Bark.Place.Spec

open Ln Ln.Spec

/-- a line with at least two points, none repeated, and a right table of arc lengths -/
structure Proper (l : Line) : Prop where
  table : TableRight l
  two : 2 ≤ l.pts.length
  noDup : NoDup l.pts

/-- the vehicle stands at arc length `s` of the line, at its end if `s` is beyond it, heading along the line -/
structure Stands (l : Line) (s : ℝ) (st : State) : Prop where
  at_arc : 0 ≤ s → s ≤ Ln.length l.pts → AtArc l.pts s st.pos
  at_end : 0 ≤ s → Ln.length l.pts ≤ s → l.pts.getLast? = some st.pos
  heading : ∀ (i : Nat) (a b : Pt), l.pts[i]? = some a → l.pts[i + 1]? = some b → Ln.length (l.pts.take (i + 1)) < s →
    s < Ln.length (l.pts.take (i + 2)) → HasDir (vec a b) st.angle

/-- successive arc lengths differ by `lo` to `hi` -/
def Spaced (lo hi : ℝ) (arcs : List ℝ) : Prop := arcs.IsChain fun a b => lo ≤ b - a ∧ b - a ≤ hi

/-- numbers of a generator for `[0, 1)` -/
def Draws (u : ℕ → ℝ) : Prop := ∀ n, 0 ≤ u n ∧ u n < 1

end Bark.Place.Spec
