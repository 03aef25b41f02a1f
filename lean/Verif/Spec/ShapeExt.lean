import Verif.Model.ShapeExt

/-! Specification: how far a rectangle reaches in a direction. -/
namespace Bark.ShapeExt.Spec
open Real

/-- points of the rectangle (vehicle frame: x forward, y left) -/
def InRect (d : Dims) (x y : ℝ) : Prop := -d.rear ≤ x ∧ x ≤ d.front ∧ -d.side ≤ y ∧ y ≤ d.side

/-- `m` is the largest value of `g` on the rectangle -/
def IsReach (d : Dims) (g : ℝ → ℝ → ℝ) (m : ℝ) : Prop :=
  (∀ x y, InRect d x y → g x y ≤ m) ∧ ∃ x y, InRect d x y ∧ g x y = m

/-- coordinate along the road of the point (x,y) of a vehicle whose heading relative to the road is φ -/
noncomputable def along (φ : ℝ) (x y : ℝ) : ℝ := x * cos φ - y * sin φ
/-- coordinate to the left of the road direction -/
noncomputable def leftOf (φ : ℝ) (x y : ℝ) : ℝ := x * sin φ + y * cos φ

end Bark.ShapeExt.Spec
