import Verif.Model.Line

/-! Specification vocabulary for polylines (C28–C30, C61, C62). -/
namespace Bark.Ln.Spec

/-- the arc length table is right: entry `i` is the length of the polyline up to point `i` -/
def TableRight (l : Line) : Prop :=
  l.s.length = l.pts.length ∧ ∀ i (h : i < l.s.length), l.s[i] = Ln.length (l.pts.take (i + 1))

/-- no two consecutive points coincide -/
def NoDup (pts : List Pt) : Prop := pts.IsChain (· ≠ ·)

/-- `q` is the point of the polyline at arc length `s`: it lies on some segment, at the fraction that leaves the right
distance to the segment's start -/
def AtArc (pts : List Pt) (s : ℝ) (q : Pt) : Prop :=
  ∃ i a b t, pts[i]? = some a ∧ pts[i + 1]? = some b ∧ 0 ≤ t ∧ t ≤ 1 ∧ q = lerp a b t ∧
    s = Ln.length (pts.take (i + 1)) + t * pdist a b

/-- `q` lies on the polyline -/
def OnLine (pts : List Pt) (q : Pt) : Prop :=
  ∃ i a b t, pts[i]? = some a ∧ pts[i + 1]? = some b ∧ 0 ≤ t ∧ t ≤ 1 ∧ q = lerp a b t

/-- the vector `v` points in direction `θ` -/
def HasDir (v : Pt) (θ : ℝ) : Prop := ∃ c : ℝ, 0 < c ∧ v = (c * Real.cos θ, c * Real.sin θ)

/-- from `a` to `b` -/
def vec (a b : Pt) : Pt := (b.1 - a.1, b.2 - a.2)

/-- the unit vector from `a` to `b` -/
noncomputable def unit (a b : Pt) : Pt := ((b.1 - a.1) / pdist a b, (b.2 - a.2) / pdist a b)

end Bark.Ln.Spec
