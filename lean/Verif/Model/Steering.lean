import Verif.Model.Frenet
import Verif.Model.Dynamics

/-!
Model of `CalculateSteeringAngle` in `bark/models/dynamic/single_track.hpp` from the state of the vehicle and the
reference line on (`Dyn.calcSteering` models it from the front axle's frenet state on).
-/
namespace Bark.Str
open Bark.Ln Bark.Dyn Bark.Fren

/-- single_track.hpp:185-189 `state_front`; `l` is the wheel base -/
noncomputable def front (l : ℝ) (x : State) : VState :=
  { time := x 0, x := x 1 + l * Real.cos (x 3), y := x 2 + l * Real.sin (x 3), theta := x 3, vel := x 4 }

/-- single_track.hpp:157-218 `CalculateSteeringAngle` -/
noncomputable def steering (rnd : ℝ → ℝ) (m : Steer) (ref : Line) (x : State) (gain : ℝ) (limit : Bool) : Res ℝ := do
  let f ← ofState rnd ref (front m.wheelBase x)
  .ok (calcSteering rnd m f.angle f.lat (x 4) gain limit)

end Bark.Str
