import Verif.Spec.Idm
import Verif.Spec.Angle
import Verif.Model.ConstAcc

/-! Specification vocabulary for the constant acceleration primitives (C173–C176). -/
namespace Bark.CAcc.Spec
open Bark Real

/-- `y` follows `x` after `dt`: moved at the speed of `x` along the heading of `x`, turned by the distance over the turning radius (wheel base
`l`, steering angle `δ`), accelerated by `a` but not below the speed `least` -/
structure Step (l a δ dt least : ℝ) (x y : Dyn.State) : Prop where
  px : y 1 = x 1 + x 4 * dt * cos (x 3)
  py : y 2 = x 2 + x 4 * dt * sin (x 3)
  turned : Angle.Spec.SameDir (y 3) (x 3 + x 4 * dt / l * tan δ)
  speed : y 4 = max (x 4 + a * dt) least

/-- the rows follow each other in steps of `dt` from world time `start` and the ego's state, with the accelerations `as` and the steering
angles towards the corridor -/
structure Drives (l : ℝ) (steer : Dyn.State → ℝ) (least start dt : ℝ) (ego : Dyn.State) (as : List ℝ) (rows : List Dyn.State) : Prop where
  count : rows.length = as.length + 1
  first : ∀ x ∈ rows[0]?, ∀ j, x j = if j = 0 then start else ego j
  time : ∀ (k : Nat) (x : Dyn.State), rows[k]? = some x → x 0 = start + k * dt
  step : ∀ (k : Nat) (x y : Dyn.State) (a : ℝ), rows[k]? = some x → rows[k + 1]? = some y → as[k]? = some a →
    Step l a (steer x) dt least x y

/-- the acceleration of a car that shall stand still after a gap `g` (IDM, cut to its bounds) -/
noncomputable def stopping (p : Idm.Params) (v g : ℝ) : ℝ :=
  if 0 < g then max (min (Idm.Spec.textbook p g v 0) p.accUpper) p.accLower else p.accLower

/-- the acceleration of a car on a free road (IDM, cut to its bounds) -/
noncomputable def freely (p : Idm.Params) (v : ℝ) : ℝ :=
  max (min (p.maxAcc * (1 - (v / p.desiredVel) ^ p.exponent)) p.accUpper) p.accLower

section
variable {K C A T : Type}

/-- primitive number `i` of the behaviour is an object of its own with the given parameters -/
def IsPrimitive (h : Mac.Heap K A T) (b : Mac.Beh C A T) (i : Nat) (k : Mac.Kind) (a : K) (s : Settings K) : Prop :=
  ∃ r o, b.prims[i]? = some r ∧ h r = some o ∧ o.prim.kind = k ∧ (k ≠ .gap → o.prim.acc = a ∧ o.prim.restrict = s.restrict) ∧
    (k = .left ∨ k = .right → o.prim.minLen = s.minLen)

end
end Bark.CAcc.Spec
