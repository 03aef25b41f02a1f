import Mathlib.Analysis.SpecialFunctions.Trigonometric.Basic

/-! Specification vocabulary for angles. -/
namespace Bark.Angle.Spec
open Real

/-- the two angles describe the same direction: they differ by whole turns -/
def SameDir (a b : ℝ) : Prop := ∃ k : ℤ, a = b + 2 * π * k

/-- `rnd` is a conversion with relative error at most `u` -/
def RelErr (u : ℝ) (rnd : ℝ → ℝ) : Prop := ∀ x, |rnd x - x| ≤ u * |x|

end Bark.Angle.Spec
