import Verif.Spec.ClosedLoop
import Mathlib.Analysis.SpecialFunctions.Sqrt

/-! Vocabulary of C200. -/
namespace Bark.Loop.Spec

/-- the gap `g` is positive, and a vehicle with velocity `v` behind one with velocity `w` would still stop before it if both braked
with 5 m/s² from now on, with 2 cm to spare for every m/s of difference -/
def Clear (g v w : ℝ) : Prop := 0 < g ∧ v ^ 2 / 10 + v / 50 < g + (w ^ 2 / 10 + w / 50)

/-- the way of a vehicle with velocity `v` that brakes for the time `t` with 5 m/s² (and stays where it is when it has stopped) -/
noncomputable def brakingWay (v t : ℝ) : ℝ := if 5 * t ≤ v then v * t - 5 / 2 * t ^ 2 else v ^ 2 / 10

/-- from the row `y` (time, position, velocity) to the row `z` in the time `t` without reversing and without braking harder than 5 m/s² -/
def Gentle (y z : ℝ × ℝ × ℝ) (t : ℝ) : Prop :=
  z.1 = y.1 + t ∧ 0 ≤ z.2.2 ∧ y.2.2 - 5 * t ≤ z.2.2 ∧ y.2.1 + brakingWay y.2.2 t ≤ z.2.1

end Bark.Loop.Spec
