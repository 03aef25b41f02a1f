import Verif.Model.GoalRun
import Verif.Spec.Traffic

/-! Vocabulary of C204. -/
namespace Bark.Flow.Spec
open Bark Bark.Ln Bark.Ln.Spec

/-- the part of the lane between `lo` and `hi` with a goal for it -/
structure Stretch where
  lo : ℝ
  hi : ℝ
  goal : Goal.AgentView Shape.Poly → Bool

/-- a vehicle of this shape driving along the straight lane from `a` to `b` with up to 15 m/s is at the goal wherever it is in the stretch -/
def Covers (a b : Pt) (sh : Shape.Poly) (r : Stretch) : Prop :=
  ∀ s θ v, r.lo ≤ s → s ≤ r.hi → HasDir (vec a b) θ → 0 ≤ v → v ≤ 15 →
    r.goal ⟨onLane a b s, θ, v, Shape.outlineAt sh (onLane a b s).1 (onLane a b s).2 θ⟩ = true

/-- and it is at the goal nowhere before the stretch -/
def NotBefore (a b : Pt) (sh : Shape.Poly) (r : Stretch) : Prop :=
  ∀ s θ v, s < r.lo → HasDir (vec a b) θ → 0 ≤ v → v ≤ 15 →
    r.goal ⟨onLane a b s, θ, v, Shape.outlineAt sh (onLane a b s).1 (onLane a b s).2 θ⟩ = false

/-- stretches one after the other, each at least as long as what can be driven in one step of `dt` -/
def InOrder (dt : ℝ) (rs : List Stretch) : Prop := (∀ r ∈ rs, r.lo + 15 * dt ≤ r.hi) ∧ rs.Pairwise fun r r' => r.hi < r'.lo

/-- the goal definition at address `g`: the only one of these goals, or the sequence of them, none reached yet -/
def Aims (h : Goal.Heap (Goal.AgentView Shape.Poly)) (g : Nat) (rs : List Stretch) : Prop :=
  (∃ r, rs = [r] ∧ h[g]? = some (.leaf r.goal)) ∨
  ∃ subs, h[g]? = some (.seq subs (-1)) ∧ List.Forall₂ (fun k r => h[k]? = some (Goal.Obj.leaf r.goal)) subs rs

end Bark.Flow.Spec
