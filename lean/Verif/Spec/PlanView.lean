import Mathlib.Analysis.SpecialFunctions.Trigonometric.Basic

/-!
Specification for C36 and C72.
-/
namespace Bark.PV.Spec

/-- A sampling of `[0, len]` with gaps of at most `inc`: starts at 0, ends at `len`, strictly increasing. -/
structure Sampling (len inc : ℝ) (ss : List ℝ) : Prop where
  first : ss.head? = some 0
  last : ss.getLast? = some len
  step : ∀ (i : Nat) (a b : ℝ), ss[i]? = some a → ss[i + 1]? = some b → a < b ∧ b - a ≤ inc

/-- point at arc length `s` of the circular arc that starts at `p` with heading `h` and has curvature `c`. -/
noncomputable def arcAt (p : ℝ × ℝ) (h c s : ℝ) : ℝ × ℝ :=
  (p.1 + (Real.sin (h + c * s) - Real.sin h) / c, p.2 + (Real.cos h - Real.cos (h + c * s)) / c)

end Bark.PV.Spec
