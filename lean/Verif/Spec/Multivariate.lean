import Verif.Model.Multivariate

/-!
Specification of the multivariate normal distribution.
-/
namespace Bark.Mvn.Spec
open Matrix

/-- contract of the eigenvalue solver: an orthonormal basis of eigenvectors of a symmetric matrix -/
def Decomposes {n : Nat} (vectors : Matrix (Fin n) (Fin n) ℝ) (values : Fin n → ℝ) (a : Matrix (Fin n) (Fin n) ℝ) : Prop :=
  vectorsᵀ * vectors = 1 ∧ a = vectors * diagonal values * vectorsᵀ

/-- density of the standard normal distribution -/
noncomputable def phi (x : ℝ) : ℝ := 1 / Real.sqrt (2 * Real.pi) * Real.exp (-(x ^ 2) / 2)

/-- the numbers an engine gives: the first one first, if one was kept before -/
def stream {R : Type} (e : Engine R) : Nat → R → List ℝ
  | 0, _ => []
  | k + 1, g => (e.pair g).1 :: (e.pair g).2.1 :: stream e k (e.pair g).2.2

/-- the expectation of the products of the components of `t · z`, for independent standard normal `z`, is `t · tᵀ` -/
def covarianceOfImage {n : Nat} (t : Matrix (Fin n) (Fin n) ℝ) : Matrix (Fin n) (Fin n) ℝ := fun i j => ∑ k, t i k * t j k

end Bark.Mvn.Spec
