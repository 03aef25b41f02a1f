import Verif.Model.Xodr

/-! Vocabulary of C195 and C196. -/
namespace Bark.Bnd.Spec
open Bark.Ln

/-- the point lies in the box (borders included) -/
def Inside (b : Pt × Pt) (p : Pt) : Prop := b.1.1 ≤ p.1 ∧ p.1 ≤ b.2.1 ∧ b.1.2 ≤ p.2 ∧ p.2 ≤ b.2.2

/-- the smallest box around a set of points: it contains them, and every box containing them contains it -/
def Smallest (S : Pt → Prop) (b : Pt × Pt) : Prop :=
  (∀ p, S p → Inside b p) ∧ ∀ c : Pt × Pt, (∀ p, S p → Inside c p) → Inside c b.1 ∧ Inside c b.2

/-- the points of the lane lines of a map -/
def LanePoint (m : Xodr.XMap) (p : Pt) : Prop :=
  ∃ r ∈ m.roads, ∃ s ∈ r.2.sections, ∃ l ∈ s.lanes, p ∈ l.line.pts

/-- what an interpolating spline does: for strictly increasing abscissae it goes through the data -/
def Interpolates (spline : List ℝ → List ℝ → ℝ → ℝ) : Prop :=
  ∀ (xs ys : List ℝ), xs.length = ys.length → xs.Pairwise (· < ·) →
    ∀ {i : ℕ} {x y : ℝ}, xs[i]? = some x → ys[i]? = some y → spline xs ys x = y

/-- it reproduces straight data, as natural cubic splines do -/
def Straight (spline : List ℝ → List ℝ → ℝ → ℝ) : Prop :=
  ∀ (xs : List ℝ), 3 ≤ xs.length → xs.Pairwise (· < ·) →
    ∀ a b x : ℝ, spline xs (xs.map fun t => a + t * b) x = a + x * b

end Bark.Bnd.Spec
