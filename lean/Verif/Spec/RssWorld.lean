import Verif.Model.RssWorld
import Verif.Spec.RssEval
import Verif.Spec.Angle

/-! What the RSS library should be told about the traffic. -/
namespace Bark.RssEval.Spec
open Bark

/-- the angular velocity of a vehicle: turn since the previous state over the time since then, 0 without a previous state -/
def TurnRate (h : List RSt) (w : ℝ) : Prop :=
  (h.length < 2 → w = 0) ∧ ∀ h' p c, h = h' ++ [p, c] → c.t ≠ p.t ∧ Angle.Spec.SameDir (w * (c.t - p.t)) (c.th - p.th) ∧
    ∀ r, Angle.Spec.SameDir r (c.th - p.th) → |w * (c.t - p.t)| ≤ |r|

/-- what is said about an agent `a`: its id, and speed, orientation, angular velocity, place and size in the current state -/
def Tells (ego : Bool) (d : Dynamics ℝ) (a : RAgent) (o : ObjData (Dynamics ℝ)) : Prop :=
  ∃ s, a.history.getLast? = some s ∧ o.id = a.id ∧ o.ego = ego ∧ o.speed = s.v ∧ o.heading = s.th ∧ o.dyn = d ∧ TurnRate a.history o.turn ∧
    o.box = ⟨s.x, s.y, s.th, a.shape.front + a.shape.rear, a.shape.left + a.shape.right⟩

/-- the agent is another one and closer than the scaled sum of the stopping distances -/
def Near (stopEgo : ℝ) (stopOther : ℝ → ℝ) (scaling : ℝ) (ego : Nat) (s : RSt) (a : RAgent) : Prop :=
  a.id ≠ ego ∧ ∃ q, a.history.getLast? = some q ∧ √((s.x - q.x) ^ 2 + (s.y - q.y) ^ 2) < (stopEgo + stopOther q.v) * scaling

/-- the points of a box around a centre -/
def boxPoints (b : MObj) : Set (ℝ × ℝ) :=
  {p | ∃ u v, |u| ≤ b.length / 2 ∧ |v| ≤ b.width / 2 ∧
    p = (b.cx + u * Real.cos b.heading - v * Real.sin b.heading, b.cy + u * Real.sin b.heading + v * Real.cos b.heading)}

/-- the points of the rectangle a vehicle with the given extents takes up in a state -/
def vehiclePoints (s : RSt) (e : Ext) : Set (ℝ × ℝ) :=
  {p | ∃ u v, -e.rear ≤ u ∧ u ≤ e.front ∧ -e.right ≤ v ∧ v ≤ e.left ∧
    p = (s.x + u * Real.cos s.th - v * Real.sin s.th, s.y + u * Real.sin s.th + v * Real.cos s.th)}

end Bark.RssEval.Spec
