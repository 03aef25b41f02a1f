import Verif.Model.Shape
import Mathlib.Data.List.Forall2

/-!
Specification vocabulary for shapes (C151–C156).
-/
namespace Bark.Shape.Spec
open Real

/-- how far `p` is ahead of the pose `c`, … -/
noncomputable def ahead (c : Pose) (p : Pt) : ℝ := cos c.a * (p.1 - c.x) + sin c.a * (p.2 - c.y)

/-- … and how far to its left -/
noncomputable def leftward (c : Pose) (p : Pt) : ℝ := cos c.a * (p.2 - c.y) - sin c.a * (p.1 - c.x)

/-- squared distance -/
def dist2 (p q : Pt) : ℝ := (p.1 - q.1) ^ 2 + (p.2 - q.2) ^ 2

/-- where the point `q` of a vehicle at the origin, looking along the x-axis, is when the vehicle is at a pose -/
noncomputable def placed (c : Pose) (q : Pt) : Pt :=
  (c.x + (cos c.a * q.1 - sin c.a * q.2), c.y + (sin c.a * q.1 + cos c.a * q.2))

/-- sum of poses -/
def plus (p q : Pose) : Pose := ⟨p.x + q.x, p.y + q.y, p.a + q.a⟩

/-- opposite pose -/
def minus (p : Pose) : Pose := ⟨-p.x, -p.y, -p.a⟩

/-- `m` is the largest value of `f` on the points -/
def IsMax (f : Pt → ℝ) (ps : List Pt) (m : ℝ) : Prop := (∃ p ∈ ps, f p = m) ∧ ∀ p ∈ ps, f p ≤ m

/-- the distances of a shape are its extents ahead of, behind, right and left of its center (in this order) -/
def Extents (c : Pose) (ps : List Pt) (front rear right left : ℝ) : Prop :=
  IsMax (ahead c) ps front ∧ IsMax (fun p => -ahead c p) ps rear ∧ IsMax (fun p => -leftward c p) ps right ∧
  IsMax (leftward c) ps left

/-- the center lies within the ranges of the coordinates -/
def CenterInside (c : Pose) (ps : List Pt) : Prop :=
  (∃ p ∈ ps, p.1 ≤ c.x) ∧ (∃ p ∈ ps, c.x ≤ p.1) ∧ (∃ p ∈ ps, p.2 ≤ c.y) ∧ (∃ p ∈ ps, c.y ≤ p.2)

/-- twice the signed area enclosed by a closed sequence of points, positive when counterclockwise -/
def turn : List Pt → ℝ
  | p :: q :: ps => (p.1 * q.2 - q.1 * p.2) + turn (q :: ps)
  | _ => 0

/-- first and last point agree -/
def Closed (ps : List Pt) : Prop := ∃ p mid, ps = p :: mid ++ [p]

/-- a coordinate moved away from the origin by `d`; 0 counts as positive -/
noncomputable def outward (d v : ℝ) : ℝ := if 0 ≤ v then v + d else v - d

/-- the factor meant by a scaling argument: 0 stands for "not scaled" -/
noncomputable def factor (x : ℝ) : ℝ := if x = 0 then 1 else x

/-- two sequences of points describe the same ring up to its direction -/
def SameRing (ps qs : List Pt) : Prop := qs = ps ∨ qs = ps.reverse

end Bark.Shape.Spec
