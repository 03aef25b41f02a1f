import Verif.Model.World
import Mathlib.Algebra.Module.LinearMap.Defs

/-!
Model of `bark/models/behavior/static_trajectory/behavior_static_trajectory.cpp`. Rows as in
`Model/Interpolate.lean`: elements of a vector space with a linear time column. Reading the recording from
parameters and the computed action (`CalculateAction`, which needs a lane corridor) are not modelled.
-/
namespace Bark.StaticTraj
set_option linter.unusedSectionVars false

variable {K V : Type} [Field K] [LinearOrder K] [IsStrictOrderedRing K] [AddCommGroup V] [Module K V]

/-- behavior_static_trajectory.cpp:93-101: first segment whose closed time interval contains `t`, with its
index and end rows. -/
def findSeg (tm : V →ₗ[K] K) (t : K) : List V → Nat → Option (Nat × V × V)
  | a :: b :: l, i => if tm a ≤ t ∧ t ≤ tm b then some (i, a, b) else findSeg tm t (b :: l) (i + 1)
  | _, _ => none

/-- behavior_static_trajectory.cpp:85-117 `Interpolate`: interpolated row, index of the last entry before,
index of the next entry after; `none` is the result `{-1,-1}`. A segment without duration divides zero by
zero. -/
def interp (tm : V →ₗ[K] K) (traj : List V) (t : K) : Res (Option (V × Int × Int)) :=
  match findSeg tm t traj 0 with
  | none => .ok none
  | some (i, a, b) =>
    if tm (b - a) = 0 then .error .nan
    else
      let alpha := (t - tm a) / tm (b - a)
      let v := a + alpha • (b - a)
      if alpha = 0 then .ok (some (v, (i : Int) - 1, (i : Int) + 1))
      else if alpha = 1 then .ok (some (v, (i : Int), (i : Int) + 2))
      else .ok (some (v, (i : Int), (i : Int) + 1))

/-- behavior_static_trajectory.cpp:49-65: assembling the trajectory. A negative number of rows is
undefined behaviour (matrix of negative size). -/
def assemble (traj : List V) : Option (V × Int × Int) → Option (V × Int × Int) → Res (List V)
  | some (s, _, is), some (e, ie, _) =>
    if is < 0 ∨ ie < 0 then .ok []
    else
      let num := ie - is + 1
      if num < 0 then .error .ub
      else .ok ([s] ++ (traj.drop is.toNat).take num.toNat ++ [e])
  | _, _ => .ok []

/-- behavior_static_trajectory.cpp:37-66 `Plan` (the returned trajectory). -/
def plan (tm : V →ₗ[K] K) (traj : List V) (t dt : K) : Res (List V) := do
  let s ← interp tm traj t
  let e ← interp tm traj (t + dt)
  assemble traj s e

/-- Eigen `minCoeff` of the time column (`none` on an empty matrix) -/
def minTime (tm : V →ₗ[K] K) : List V → Option K
  | [] => none
  | a :: l => some (l.foldl (fun m r => min m (tm r)) (tm a))

/-- Eigen `maxCoeff` of the time column -/
def maxTime (tm : V →ₗ[K] K) : List V → Option K
  | [] => none
  | a :: l => some (l.foldl (fun m r => max m (tm r)) (tm a))

/-- behavior_static_trajectory.cpp:141-160 `UpdateBehaviorStatus` -/
def status (tm : V →ₗ[K] K) (traj : List V) (t dt : K) : Res BStatus :=
  match minTime tm traj, maxTime tm traj with
  | some lo, some hi =>
    if t < lo then .ok .notStarted
    else if hi ≤ t + dt then .ok .expired
    else .ok .valid
  | _, _ => .error .ub

end Bark.StaticTraj
