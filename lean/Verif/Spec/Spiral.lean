import Mathlib.MeasureTheory.Integral.IntervalIntegral.Basic
import Mathlib.Analysis.SpecialFunctions.Trigonometric.Basic

/-! Specification for C193: clothoids. -/
namespace Bark.Spi.Spec

/-- heading at arc length `s` of a curve that starts with heading `h` and whose curvature is `k + c·s` -/
noncomputable def heading (h k c s : ℝ) : ℝ := h + k * s + c * s ^ 2 / 2

/-- point at arc length `s` of the curve that starts at `p` and always moves into the direction of its heading -/
noncomputable def clothoid (p : ℝ × ℝ) (h k c s : ℝ) : ℝ × ℝ :=
  (p.1 + ∫ u in (0 : ℝ)..s, Real.cos (heading h k c u), p.2 + ∫ u in (0 : ℝ)..s, Real.sin (heading h k c u))

/-- the Fresnel integrals `S` and `C` -/
noncomputable def exact (x : ℝ) : ℝ × ℝ :=
  (∫ t in (0 : ℝ)..x, Real.sin (Real.pi / 2 * t ^ 2), ∫ t in (0 : ℝ)..x, Real.cos (Real.pi / 2 * t ^ 2))

/-- a routine for the Fresnel integrals with absolute error at most `e` -/
def Accurate (e : ℝ) (fr : ℝ → ℝ × ℝ) : Prop := ∀ x, |(fr x).1 - (exact x).1| ≤ e ∧ |(fr x).2 - (exact x).2| ≤ e

end Bark.Spi.Spec
