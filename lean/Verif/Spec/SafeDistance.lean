import Mathlib.Algebra.Order.Field.Basic

/-! Specification for the safe-distance properties (C44, C83–C85): braking vehicles in one dimension. -/
namespace Bark.SafeDistSpec
variable {K : Type} [Field K] [LinearOrder K] [IsStrictOrderedRing K]

/-- distance covered in time `t` by a vehicle of speed `v ≥ 0` braking with deceleration `b > 0` to standstill -/
def braking (v b t : K) : K := if t ≤ v / b then v * t - b * t ^ 2 / 2 else v ^ 2 / (2 * b)

/-- distance covered if the vehicle first keeps its speed for the reaction time `delta` -/
def reacting (v b delta t : K) : K := if t ≤ delta then v * t else v * delta + braking v b (t - delta)

/-- lateral position over time: velocity `v` of any sign is kept for `delta` and then reduced to zero at rate `b` -/
def lateral (v b delta t : K) : K := if 0 ≤ v then reacting v b delta t else - reacting (-v) b delta t

/-- never at the same place: the rear, braking with `b_r` after the reaction time, stays behind the front, which
brakes with `b_f` at once -/
def NeverTouch (v_f v_r dist b_r b_f delta : K) : Prop :=
  ∀ t, 0 ≤ t → reacting v_r b_r delta t < dist + braking v_f b_f t

end Bark.SafeDistSpec
