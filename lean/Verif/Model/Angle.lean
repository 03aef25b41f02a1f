import Mathlib.Analysis.Real.Pi.Bounds
import Mathlib.Analysis.SpecialFunctions.Trigonometric.Basic

/-!
Model of `bark/geometry/angle.hpp` over ℝ. `B_PI` is modelled by the real number π. `NormToPI`
returns `float`: the conversion double → float is a parameter `rnd`.
-/
namespace Bark.Angle
open Real

/-- C truncation towards zero. -/
noncomputable def trunc (x : ℝ) : ℤ := if 0 ≤ x then ⌊x⌋ else ⌈x⌉

/-- C `fmod(a, b)`: `a - b * trunc(a/b)`. -/
noncomputable def fmod (a b : ℝ) : ℝ := a - b * trunc (a / b)

/-- bark/geometry/angle.hpp:27-33 `Norm0To2PI` -/
noncomputable def norm0To2PI (a : ℝ) : ℝ :=
  let n := fmod a (2 * π)
  if n < 0 then n + 2 * π else n

/-- bark/geometry/angle.hpp:35-41 `NormToPI`; `rnd` is the conversion of the result to `float`. -/
noncomputable def normToPI (rnd : ℝ → ℝ) (a : ℝ) : ℝ :=
  let n := fmod (a + π) (2 * π)
  let n := if n < 0 then n + 2 * π else n
  rnd (n - π)

/-- bark/geometry/angle.hpp:50-52 `AngleDiff`. The unqualified `abs` is taken to be the
floating-point one (with the integer `::abs` the result would be truncated). -/
noncomputable def angleDiff (rnd : ℝ → ℝ) (a b : ℝ) : ℝ := |normToPI rnd a - normToPI rnd b|

/-- bark/geometry/angle.hpp:61-64 `SignedAngleDiff` -/
noncomputable def signedAngleDiff (rnd : ℝ → ℝ) (a b : ℝ) : ℝ :=
  let d := normToPI rnd (a - b)
  fmod (d + π) (2 * π) - π

end Bark.Angle
