import Verif.Spec.ClosedLoop
import Mathlib.Analysis.SpecialFunctions.Sqrt

/-! Vocabulary of C197. -/
namespace Bark.Loop.Spec

/-- the gap `g` is positive, and a vehicle closing in with relative velocity `u` (if it closes in at all) could still get
rid of it within the gap by braking with `B` -/
def Safe (B g u : ℝ) : Prop := 0 < g ∧ (u ≤ 0 ∨ u ^ 2 < 2 * B * g)

/-- how strong braking and how short a step have to be: `A` maximal acceleration, `B` strongest braking, `b` comfortable
braking, `s0` minimum spacing, `hw` time headway, `T` length of the step -/
structure Roomy (A B b s0 hw T : ℝ) : Prop where
  brake : b * (A + B) < B ^ 2
  short : ((A + B) * T) ^ 2 ≤ (B / √(b * (A + B)) - 1) * (2 * B * s0 * √(A / (A + B)) - (A ^ 2 + 3 * A * B + B ^ 2) * T ^ 2)
  react : A * T ≤ 2 * √(A * b) * hw

/-- a vehicle ahead: rear position along the corridor and velocity over time; it never brakes, and is at least as far as its
velocity takes it -/
structure NeverBrakes (lead : ℝ → ℝ × ℝ) : Prop where
  vel : ∀ t t', t ≤ t' → (lead t).2 ≤ (lead t').2
  pos : ∀ t t', t ≤ t' → (lead t).1 + (lead t).2 * (t' - t) ≤ (lead t').1

end Bark.Loop.Spec
