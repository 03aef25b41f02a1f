import Verif.Spec.Traffic

/-! Vocabulary of C216. -/
namespace Bark.Flow.Spec
open Bark

variable {Box : Type}

/-- the vehicles of `A` are present in both worlds, with the same shape, position on the lane and velocity (`x`, `x'`), and whatever is ahead of a vehicle of `A`, in
one world or the other, is a vehicle of `A` -/
structure Same (A : Nat → Prop) (w w' : W Box) (x x' : Nat → ℝ × ℝ) : Prop where
  both : ∀ i, A i → ∃ ag ag', w.getAgent i = some ag ∧ w'.getAgent i = some ag' ∧ ag.shape = ag'.shape ∧ x i = x' i
  ahead : ∀ i, A i → ∀ j aj, w.getAgent j = some aj → (x i).1 ≤ (x j).1 → A j
  ahead' : ∀ i, A i → ∀ j aj, w'.getAgent j = some aj → (x' i).1 ≤ (x' j).1 → A j

/-- at vehicle `i` the two worlds agree: shape, time, position, direction and velocity -/
def Agrees (w w' : W Box) (i : Nat) : Prop :=
  ∃ ag ag' t x y θ θ' v, w.getAgent i = some ag ∧ w'.getAgent i = some ag' ∧ ag.shape = ag'.shape ∧ ag.currentState = .ok (t, x, y, θ, v) ∧
    ag'.currentState = .ok (t, x, y, θ', v) ∧ Real.cos θ = Real.cos θ' ∧ Real.sin θ = Real.sin θ'

end Bark.Flow.Spec
