import Verif.Spec.Angle
import Verif.Model.Dynamics

/-! Specification for C223: how a vehicle gets from one state of a trajectory to the next. States: 0 time, 1 x, 2 y, 3 heading, 4
velocity. -/
namespace Bark.Trk.Spec
open Bark.Dyn Bark.Angle.Spec Real

/-- With acceleration `a` and steering angle `δ` a vehicle of wheel base `l` gets from `x` to `y` in the time `dt`: it goes straight
ahead, then turns and changes its velocity, which does not get below `vmin`. -/
structure Gets (l vmin dt a δ : ℝ) (x y : State) : Prop where
  time : y 0 = x 0 + dt
  pos : (y 1, y 2) = (x 1 + x 4 * dt * cos (x 3), x 2 + x 4 * dt * sin (x 3))
  heading : SameDir (y 3) (x 3 + x 4 * dt * tan δ / l)
  range : -π ≤ y 3 ∧ y 3 < π
  vel : y 4 = max (x 4 + a * dt) vmin

/-- The inputs respect the limits of the vehicle at velocity `v`: the acceleration, the steering angle and the lateral acceleration
`v² · tan δ / l` on the circle driven. -/
structure Within (l lo hi δmax latLo latHi a δ v : ℝ) : Prop where
  acc : lo ≤ a ∧ a ≤ hi
  angle : |δ| ≤ δmax
  lat : latLo ≤ v ^ 2 * tan δ / l ∧ v ^ 2 * tan δ / l ≤ latHi

end Bark.Trk.Spec
