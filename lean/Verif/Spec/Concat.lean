import Verif.Spec.Line

/-! Vocabulary of C79: what is kept of a line that crosses another one. -/
namespace Bark.Ln.Spec
open Bark.Ln

/-- `A` is what is left of the polyline `pts` when it is cut at its point `x`: `x` lies on a segment at arc length `s`;
if that is in the first 30% of the length, the part before `x` is dropped, if it is in the last 30%, the part behind `x`,
otherwise nothing -/
def Shortened (pts : List Pt) (x : Pt) (A : List Pt) : Prop :=
  ∃ (i : Nat) (p q : Pt) (t s : ℝ), pts[i]? = some p ∧ pts[i + 1]? = some q ∧ 0 ≤ t ∧ t ≤ 1 ∧ x = lerp p q t ∧
    s = Ln.length (pts.take (i + 1)) + t * pdist p q ∧
    (10 * s < 3 * Ln.length pts → A = x :: pts.drop (i + 1)) ∧
    (10 * s > 7 * Ln.length pts → A = pts.take (i + 1) ++ [x]) ∧
    (3 * Ln.length pts ≤ 10 * s → 10 * s ≤ 7 * Ln.length pts → A = pts)

/-- `x` lies on segment `i` of the polyline -/
def OnSeg (pts : List Pt) (i : Nat) (x : Pt) : Prop :=
  ∃ (p q : Pt) (t : ℝ), pts[i]? = some p ∧ pts[i + 1]? = some q ∧ 0 ≤ t ∧ t ≤ 1 ∧ x = lerp p q t

end Bark.Ln.Spec
