import Mathlib.Algebra.Module.LinearMap.Defs
import Mathlib.Algebra.Order.Field.Basic
import Mathlib.Algebra.Order.Group.Abs

/-! Specification: linear interpolation of a time-stamped trajectory. -/
namespace Bark.Interp.Spec
set_option linter.unusedSectionVars false
variable {K V : Type} [Field K] [LinearOrder K] [IsStrictOrderedRing K] [AddCommGroup V] [Module K V]

/-- time stamps strictly increase -/
def Increasing (tm : V →ₗ[K] K) (traj : List V) : Prop := traj.Pairwise (fun a b => tm a < tm b)

/-- point of the straight line through `a` and `b` that has time stamp `t` -/
def onLine (tm : V →ₗ[K] K) (a b : V) (t : K) : V := a + ((t - tm a) / (tm b - tm a)) • (b - a)

/-- `v` is what the trajectory prescribes for time `t`: some pair of neighbouring rows brackets `t` and
`v` is their linear interpolation at `t` -/
def OnTrajectory (tm : V →ₗ[K] K) (traj : List V) (t : K) (v : V) : Prop :=
  ∃ l a b r, traj = l ++ a :: b :: r ∧ tm a ≤ t ∧ t ≤ tm b ∧ v = onLine tm a b t

/-- equally spaced time stamps with step `h` -/
def Uniform (tm : V →ₗ[K] K) (traj : List V) (t0 h : K) : Prop :=
  ∀ (i : Nat) v, traj[i]? = some v → tm v = t0 + i * h

end Bark.Interp.Spec
