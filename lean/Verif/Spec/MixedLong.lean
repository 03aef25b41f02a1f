import Verif.Spec.Mixed

/-! Vocabulary of C219 for runs of any length. -/
namespace Bark.Mix.Spec
open Bark Bark.Ln Bark.Flow

variable {Box Lane : Type}

/-- the foreign vehicles on the lane (of length `L`) never get beyond the position `r` -/
def Until (u : Setup Box Lane) (foreign : Nat → Bool) (At : ℝ → Pt → ℝ → Prop) (L r : ℝ) : List (ℝ × Planner Box) → W Box → Prop
  | [], w => ∀ i ag s v, foreign i = true → w.getAgent i = some ag → On At L w.time s v ag → s ≤ r
  | (dt, f) :: rest, w => (∀ i ag s v, foreign i = true → w.getAgent i = some ag → On At L w.time s v ag → s ≤ r) ∧
      ∀ w1, World.step (mixed u foreign f) dt w = .ok w1 → Until u foreign At L r rest w1

end Bark.Mix.Spec
