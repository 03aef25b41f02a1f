import Verif.Model.Pick
import Verif.Spec.Frenet
import Verif.Spec.Shape
import Verif.Spec.Line

/-! Specification vocabulary for the corridor reacted to and followed (C198) and for trajectories in the plane (C199). -/
namespace Bark.Pick.Spec
open Bark.Ln Bark.Fren

/-- a vehicle with outline `pts` (seen from the vehicle) standing at `x` has an outline point in a region -/
def Enters (inside : Pt → Prop) (pts : List Pt) (x : VState) : Prop :=
  ∃ p ∈ pts, inside (Shape.Spec.placed ⟨x.x, x.y, x.theta⟩ p)

/-- turning from direction `a` to direction `b` takes at least the angle `d`, whichever way one turns -/
def Apart (a b d : ℝ) : Prop := ∀ r, Angle.Spec.SameDir r (b - a) → d ≤ |r|

/-- `q` is the point at arc length `s`, the ends of the polyline standing for everything before and after it -/
def At (l : Line) (s : ℝ) (q : Pt) : Prop := Ln.Spec.AtArc l.pts (max 0 (min s (Ln.length l.pts))) q

/-- states of a vehicle that drives along the line, a time step `dt` apart: arc length and velocity follow from an acceleration within bounds,
velocities are cut off at their limits, headings are those of the line -/
def Along (l : Line) (lo hi vmin vmax dt : ℝ) : (s v t : ℝ) → List VState → Prop
  | _, _, _, [] => True
  | s, v, t, x :: xs => ∃ a s', lo ≤ a ∧ a ≤ hi ∧ s' = s + v * dt + a * dt ^ 2 / 2 ∧ x.vel = max vmin (min vmax (v + a * dt)) ∧
      x.time = t + dt ∧ At l s' (x.x, x.y) ∧ tangentAngleAtS l s' = .ok x.theta ∧ Along l lo hi vmin vmax dt s' x.vel x.time xs

/-- position of a state -/
def pos (x : VState) : Pt := (x.x, x.y)

end Bark.Pick.Spec
