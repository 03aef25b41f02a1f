import Verif.Model.Line
import Verif.Model.Angle

/-!
Model of `AtGoal` of `GoalDefinitionPolygon`, `GoalDefinitionStateLimits` and
`GoalDefinitionStateLimitsFrenet` and of the goal shape of the latter.  boost's `within` is a parameter.
-/
namespace Bark.Goal
open Bark.Ln

/-- what the goals read of an agent: position, heading, velocity, footprint at the current state –
agent.hpp:122-137 -/
structure AgentView (Poly : Type) where
  pos : Pt
  theta : ℝ
  vel : ℝ
  poly : Poly

/-- goal_definition_polygon.cpp:16-19 -/
def atPolygon {Poly : Type} (within : Poly → Bool) (a : AgentView Poly) : Bool := within a.poly

/-- goal_definition_state_limits.cpp:16-25 -/
noncomputable def atStateLimits {Poly : Type} (within : Pt → Bool) (lim : ℝ × ℝ) (a : AgentView Poly) : Bool :=
  within a.pos && decide (a.theta ≥ lim.1) && decide (a.theta ≤ lim.2)

/-- goal_definition_state_limits_frenet.hpp:60-63; `rnd` is the conversion to `float` in `NormToPI` -/
structure FrenetLimits where
  center : Line
  maxLat : ℝ × ℝ
  maxOri : ℝ × ℝ
  vel : ℝ × ℝ

/-- the last part of goal_definition_state_limits_frenet.cpp:67-78 -/
noncomputable def orientationOk (rnd : ℝ → ℝ) (g : FrenetLimits) (tangent theta : ℝ) : Bool :=
  decide (Angle.signedAngleDiff rnd tangent theta ≤ g.maxOri.1) &&
    decide (Angle.signedAngleDiff rnd tangent theta ≥ -g.maxOri.2)

/-- goal_definition_state_limits_frenet.cpp:50-78 -/
noncomputable def atFrenetLimits {Poly : Type} (rnd : ℝ → ℝ) (within : Pt → Bool) (g : FrenetLimits)
    (a : AgentView Poly) : Res Bool :=
  if a.vel < g.vel.1 ∨ a.vel > g.vel.2 then .ok false
  else if within a.pos = false then .ok false
  else do
    let n ← nearest g.center a.pos
    let t ← tangentAngleAtS g.center n.2.1
    .ok (orientationOk rnd g t a.theta)

/-- line.hpp:356-361 `GetNormalAtS` (`asin(1)` is π/2) -/
noncomputable def normalAtS (l : Line) (s : ℝ) : Res Pt := do
  let t ← tangentAngleAtS l s
  .ok (Real.cos (t + Real.pi / 2), Real.sin (t + Real.pi / 2))

/-- body of the loop line.hpp:376-381 -/
noncomputable def shiftedPoint (l : Line) (d s : ℝ) : Res Pt := do
  let n ← normalAtS l s
  let p ← pointAtS l s
  .ok (p.1 + n.1 * d, p.2 + n.2 * d)

/-- line.hpp:374-383 `GetLineShiftedLaterally` -/
noncomputable def shiftedLaterally (l : Line) (d : ℝ) : Res Line := do
  let ps ← l.s.mapM (shiftedPoint l d)
  .ok (ps.foldl addPoint Ln.empty)

/-- goal_definition_state_limits_frenet.cpp:38-46: the points handed to the polygon constructor -/
noncomputable def frenetOutline (g : FrenetLimits) : Res (List Pt) := do
  let a ← shiftedLaterally g.center (-g.maxLat.1)
  let b ← shiftedLaterally g.center g.maxLat.2
  .ok (appendLinestring a (reverse b)).pts

end Bark.Goal
