import Verif.Model.World
import Mathlib.Algebra.Module.LinearMap.Defs
import Mathlib.Algebra.Order.Group.Abs

/-!
Model of `bark/models/execution/interpolation/interpolate.cpp` and the state of
`bark/models/execution/execution_model.hpp`.

A trajectory is the list of its rows. A row is an element of a vector space `V` over the numbers `K`;
its time column is a linear functional `tm`.
-/
namespace Bark.Interp
set_option linter.unusedSectionVars false

variable {K V : Type} [Field K] [LinearOrder K] [IsStrictOrderedRing K] [AddCommGroup V] [Module K V]

/-- execution_model.hpp:63-67. `state = none` is a state without usable numbers (the default constructed
empty vector, or NaN after a division by zero). -/
structure Exec (V : Type) where
  state : Option V
  traj : List V
  status : EStatus
  deriving DecidableEq

/-- `delta = 1e-3` (interpolate.cpp:23, 40) -/
def delta : K := 1 / 1000

/-- interpolate.cpp:20-35 `CheckIfWorldTimeIsWithinTrajectory`; reading row 0 of an empty matrix is
undefined. -/
def withinTrajectory (tm : V →ₗ[K] K) (traj : List V) (t : K) : Res Bool :=
  match traj.head?, traj.getLast? with
  | some a, some b => .ok (!(decide (t + delta < tm a) || decide (tm b < t - delta)))
  | _, _ => .error .ub

/-- interpolate.cpp:37-56 `CheckIfTimeExactIsInTrajectory` (`none` = not found). Only called on non-empty
trajectories. Backward: rows n-1 … n/2; forward: rows 0 … n/2. -/
def findExact (tm : V →ₗ[K] K) (traj : List V) (t : K) : Option V :=
  match traj.head?, traj.getLast? with
  | some a, some b =>
    let half := traj.length / 2
    if |t - tm b| < |t - tm a| then
      (traj.drop half).reverse.find? (fun r => decide (|tm r - t| < delta))
    else
      (traj.take (half + 1)).find? (fun r => decide (|tm r - t| < delta))
  | _, _ => none

/-- interpolate.cpp:58-70 `FindClosestLowerTrajectoryRow` (`none` = not found): the *first* row whose
time is not after `t`. -/
def findLower (tm : V →ₗ[K] K) (traj : List V) (t : K) : Option Nat :=
  traj.findIdx? (fun r => decide (tm r ≤ t))

/-- interpolate.cpp:72-79 `Interpolate`; `none` when the two rows have the same time (division by
zero). -/
def interpolate (tm : V →ₗ[K] K) (p0 p1 : V) (t : K) : Option V :=
  if tm p1 - tm p0 = 0 then none
  else
    let lam := |(t - tm p0) / (tm p1 - tm p0)|
    some ((1 - lam) • p0 + lam • p1)

/-- interpolate.cpp:109-125: the interpolation branch of `Execute`. Reading a row past the end is
undefined. -/
def executeInterp (tm : V →ₗ[K] K) (e : Exec V) (t : K) (traj : List V) : Res (Exec V) :=
  match findLower tm traj t with
  | none => .ok { e with traj := traj, status := .invalid }
  | some i =>
    match traj[i]?, traj[i + 1]? with
    | some p0, some p1 => .ok { traj := traj, status := .valid, state := interpolate tm p0 p1 t }
    | _, _ => .error .ub

/-- interpolate.cpp:81-126 `Execute` -/
def execute (tm : V →ₗ[K] K) (e : Exec V) (t : K) (traj : List V) : Res (Exec V) :=
  if e.status = .invalid then .ok { e with traj := traj }
  else do
    let ok ← withinTrajectory tm traj t
    if !ok then .ok { e with traj := traj, status := .invalid }
    else
      match findExact tm traj t with
      | some r => .ok { traj := traj, status := .valid, state := some r }
      | none => executeInterp tm e t traj

/-- a sequence of `Execute` calls -/
def executes (tm : V →ₗ[K] K) (e : Exec V) : List (K × List V) → Res (Exec V)
  | [] => .ok e
  | c :: cs => do
    let e1 ← execute tm e c.1 c.2
    executes tm e1 cs

end Bark.Interp
