import Verif.Spec.Frenet
import Verif.Model.Dynamics

/-! Specification for C194: the front axle of a vehicle and how it moves. -/
namespace Bark.Str.Spec
open Bark.Ln Bark.Dyn

/-- position of the front axle: the wheel base ahead of the rear axle -/
noncomputable def axle (l : ℝ) (x : State) : Pt := (x 1 + l * Real.cos (x 3), x 2 + l * Real.sin (x 3))

/-- velocity of the front axle if the state changes at rate `d` -/
noncomputable def axleVel (l : ℝ) (x d : State) : Pt :=
  (d 1 - l * Real.sin (x 3) * d 3, d 2 + l * Real.cos (x 3) * d 3)

end Bark.Str.Spec
