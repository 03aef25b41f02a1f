import Verif.Model.Basic
import Mathlib.LinearAlgebra.Matrix.NonsingularInverse
import Mathlib.Analysis.SpecialFunctions.Pow.Real
import Mathlib.Analysis.SpecialFunctions.Trigonometric.Basic

/-!
Model of `bark/commons/distribution/multivariate_normal.hpp`, over ℝ. The random engine together with the algorithm of
`std::normal_distribution` is a parameter: from an engine state it makes two numbers at a time, of which the second is kept for
the next call. The eigenvalue solver is a parameter with the contract `Spec.Decomposes`.
-/
namespace Bark.Mvn
open Matrix

/-- multivariate_normal.hpp:66-71 with the engine type `R`; `saved` is the number `std::normal_distribution` keeps -/
structure Dist (R : Type) (n : Nat) where
  gen : R
  saved : Option ℝ
  mean : Fin n → ℝ
  covariance : Matrix (Fin n) (Fin n) ℝ
  transform : Matrix (Fin n) (Fin n) ℝ

/-- `mt19937(seed)` and one round of `std::normal_distribution`, which gives two numbers -/
structure Engine (R : Type) where
  ofSeed : Nat → R
  pair : R → ℝ × ℝ × R

/-- multivariate_normal.hpp:91-106 `CovarFromParams`: rows of another length than their number only print a message before the
row is assigned, which is undefined behaviour -/
def covarFromParams (n : Nat) (rows : List (List ℝ)) : Res (Matrix (Fin n) (Fin n) ℝ) :=
  if rows.length = n ∧ ∀ r ∈ rows, r.length = n then .ok (fun i j => (rows.getD i []).getD j 0)
  else .error .ub

/-- multivariate_normal.hpp:108-115 `MeanFromParams`; a size that differs from the one of the covariance makes `Sample`
undefined -/
def meanFromParams (n : Nat) (xs : List ℝ) : Res (Fin n → ℝ) :=
  if xs.length = n then .ok (fun i => xs.getD i 0) else .error .ub

/-- Eigen's `SelfAdjointEigenSolver` looks at the lower triangle only -/
def lower {n : Nat} (a : Matrix (Fin n) (Fin n) ℝ) : Matrix (Fin n) (Fin n) ℝ := fun i j => if j ≤ i then a i j else a j i

/-- multivariate_normal.hpp:31-33: eigenvectors times the roots of the eigenvalues; the root of a negative number is NaN, and so
is every sample -/
noncomputable def transformOf {n : Nat} (vectors : Matrix (Fin n) (Fin n) ℝ) (values : Fin n → ℝ) :
    Res (Matrix (Fin n) (Fin n) ℝ) :=
  open Classical in
  if ∀ i, 0 ≤ values i then .ok (vectors * diagonal (fun i => Real.sqrt (values i))) else .error .nan

/-- multivariate_normal.hpp:23-34 the constructor; `solver` gives eigenvectors and eigenvalues -/
noncomputable def construct {R : Type} (e : Engine R) {n : Nat}
    (solver : Matrix (Fin n) (Fin n) ℝ → Matrix (Fin n) (Fin n) ℝ × (Fin n → ℝ)) (seed : Nat) (mean : List ℝ)
    (cov : List (List ℝ)) : Res (Dist R n) := do
  let m ← meanFromParams n mean
  let c ← covarFromParams n cov
  let t ← transformOf (solver (lower c)).1 (solver (lower c)).2
  pure ⟨e.ofSeed seed, none, m, c, t⟩

/-- `std::normal_distribution::operator()` (libstdc++): the number kept, if there is one, else the first of a new pair, the
second being kept -/
def draw {R : Type} (e : Engine R) (g : R) (saved : Option ℝ) : ℝ × R × Option ℝ :=
  match saved with
  | some x => (x, g, none)
  | none => ((e.pair g).1, (e.pair g).2.2, some (e.pair g).2.1)

/-- `unaryExpr` over a vector: one number for every component, in order -/
def drawMany {R : Type} (e : Engine R) : Nat → R → Option ℝ → List ℝ × R × Option ℝ
  | 0, g, s => ([], g, s)
  | k + 1, g, s =>
    let d := draw e g s
    let r := drawMany e k d.2.1 d.2.2
    (d.1 :: r.1, r.2.1, r.2.2)

/-- multivariate_normal.hpp:74-81 `Sample`: mean + transform · noise -/
def sample {R : Type} (e : Engine R) {n : Nat} (d : Dist R n) : List ℝ × Dist R n :=
  let r := drawMany e n d.gen d.saved
  let noise : Fin n → ℝ := fun i => r.1.getD i 0
  (List.ofFn (d.mean + d.transform *ᵥ noise), { d with gen := r.2.1, saved := r.2.2 })

/-- multivariate_normal.hpp:83-89 `Density`, for a variate of the right size -/
noncomputable def density {R : Type} {n : Nat} (d : Dist R n) (x : Fin n → ℝ) : ℝ :=
  let quadform := (x - d.mean) ⬝ᵥ (d.covariance⁻¹ *ᵥ (x - d.mean))
  let norm := Real.rpow (Real.sqrt (2 * Real.pi)) (-(n : ℝ)) * Real.rpow d.covariance.det (-(1 / 2))
  norm * Real.exp (-(1 / 2) * quadform)

/-- multivariate_normal.hpp:40 `CDF` -/
def cdf {R : Type} {n : Nat} (_ : Dist R n) (_ : Fin n → ℝ) : ℝ := 0

/-- multivariate_normal.hpp:42-47 `GetSupport` -/
def support {R I : Type} {n : Nat} (all : I) (_ : Dist R n) : List I := List.replicate n all

/-- multivariate_normal.hpp:52-55 `ChangeSeed`: only the engine is seeded, `dist_` is not reset -/
def changeSeed {R : Type} (e : Engine R) {n : Nat} (seed : Nat) (d : Dist R n) : Dist R n := { d with gen := e.ofSeed seed }

/-- `k` samples one after the other -/
def samples {R : Type} (e : Engine R) {n : Nat} : Nat → Dist R n → List (List ℝ) × Dist R n
  | 0, d => ([], d)
  | k + 1, d =>
    let s := sample e d
    let r := samples e k s.2
    (s.1 :: r.1, r.2)

/-- multivariate_normal.hpp:93-96 and 110-111: the default parameters -/
noncomputable def defaultCovariance : List (List ℝ) := [[1, 1 / 2, 1 / 2], [1 / 5, 1, 1 / 10], [1 / 10, 1 / 10, 1]]

end Bark.Mvn
