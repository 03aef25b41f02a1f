import Verif.Model.IdmLeader
import Verif.Spec.FrontRear
import Verif.Spec.Idm

/-!
Specification vocabulary for what the IDM reacts to (C184).
-/
namespace Bark.Lead.Spec
open Bark

/-- what is in the way, as (distance, velocity): the vehicle in front, and the point to stop at before the end of the lane if braking for it is on and it
is within the given range -/
def obstacles (e : CAcc.LaneEnd) (len : ℝ) (lead : Option (ℝ × ℝ)) : Set (ℝ × ℝ) :=
  { o | lead = some o ∨ (e.brake = true ∧ len - e.offset ≤ e.enabled ∧ o = (len - e.offset, 0)) }

/-- an action the acceleration can be taken from -/
inductive Known : CAcc.Act → Prop
  | continuous (a : ℝ) : Known (.continuous a)
  | lonLat (lon lat : ℝ) : Known (.lonLat lon lat)
  | input (u : ℝ) (us : List ℝ) : Known (.input (u :: us))

end Bark.Lead.Spec
