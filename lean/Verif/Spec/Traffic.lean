import Verif.Model.Traffic
import Verif.Spec.Line
import Verif.Spec.IdmLeader
import Verif.Spec.Platoon
import Verif.Spec.Evaluators
import Mathlib.Analysis.Convex.Hull
import Mathlib.Data.Set.Card

/-! Vocabulary of C201. -/
namespace Bark.Flow.Spec
open Bark Bark.Ln Bark.Ln.Spec

/-- the point `s` metres along the straight lane from `a` to `b` -/
noncomputable def onLane (a b : Pt) (s : ℝ) : Pt := (a.1 + s * (unit a b).1, a.2 + s * (unit a b).2)

/-- the outline lies between `rear` metres behind and `front` metres ahead of the point the shape is placed by -/
structure Placed (sh : Shape.Poly) : Prop where
  center : sh.center = ⟨0, 0, 0⟩
  outline : ∀ p ∈ sh.pts, -sh.rear ≤ p.1 ∧ p.1 ≤ sh.front
  front : 0 ≤ sh.front
  rear : 0 ≤ sh.rear
  side : 0 ≤ sh.left

/-- at `s` on the straight lane and directed along it -/
def straightAt (a b : Pt) (s : ℝ) (p : Pt) (θ : ℝ) : Prop := p = onLane a b s ∧ HasDir (vec a b) θ

/-- at time `t` the agent takes part, nothing went wrong so far, and it is at `s` on the lane, directed along the lane (`At`), with velocity `v` -/
structure Rides (At : ℝ → Pt → ℝ → Prop) (t s v : ℝ) (ag : Agent ℝ V5 CAcc.Act Beh (Res (Interp.Exec V5)) Shape.Poly) : Prop where
  entered : ag.firstValid ≤ t
  valid : ag.behavior.status = .valid
  action : Lead.Spec.Known ag.behavior.action
  exec : ∃ e, ag.exec = .ok e ∧ e.status = .valid
  state : ∃ p θ, At s p θ ∧ ag.currentState = .ok (t, p.1, p.2, θ, v)
  shape : Placed ag.shape

/-- what a vehicle of this shape covers (at most: the convex hull of its outline) at position `q`, turned counterclockwise by `θ` -/
noncomputable def body (sh : Shape.Poly) (q : Pt) (θ : ℝ) : Set (ℝ × ℝ) :=
  convexHull ℝ {r | ∃ p ∈ sh.pts, r = (q.1 + (Real.cos θ * p.1 - Real.sin θ * p.2), q.2 + (Real.sin θ * p.1 + Real.cos θ * p.2))}

/-- a collision check that answers yes only if something is covered by both outlines -/
def Sound (collide : Shape.Poly → Shape.Poly → Bool) : Prop :=
  ∀ p q, collide p q = true → (convexHull ℝ {r : ℝ × ℝ | r ∈ p.pts} ∩ convexHull ℝ {r : ℝ × ℝ | r ∈ q.pts}).Nonempty

/-- what is between the front of the one at `s` and the rear of the other at `s'` -/
def gap (sh sh' : Shape.Poly) (s s' : ℝ) : ℝ := (s' - sh'.rear) - (s + sh.front)

/-- any two vehicles have room between them, and the one behind would still stop before the one ahead (`Loop.Spec.Clear`); `x i` is position and velocity -/
def AllClear {Box : Type} (w : W Box) (x : Nat → ℝ × ℝ) : Prop :=
  ∀ i j ai aj, w.getAgent i = some ai → w.getAgent j = some aj → i ≠ j → (x i).1 ≤ (x j).1 →
    Loop.Spec.Clear (gap ai.shape aj.shape (x i).1 (x j).1) (x i).2 (x j).2

variable {Box Lane : Type}

/-- IDM and search in the default configuration; the nearest query returns nearest entries -/
structure Default (u : Setup Box Lane) : Prop where
  idm : u.idm =
    { minSpacing := 2, headway := 1.5, maxAcc := 1.7, desiredVel := 15, comfBraking := 1.67, minVel := 0, maxVel := 50,
      accLower := -5, accUpper := 8, exponent := 4, numPoints := 11, coolness := 0, tiny := 1 / 2 ^ 1022 }
  thr : u.thr = ⟨0, 3 / 4 * Real.pi, 0⟩
  brake : u.laneEnd.brake = false
  nearest : ∀ x, ∃ dist : Box × Nat → ℝ, ∀ k index, EvalSpec.IsKNearest k dist index (u.nearest x k index)

/-- moreover the lane's centre line is the segment from `a` to `b`, every position on it has the lane as its nearest corridor, and the largest number exceeds the
lane's length -/
structure Straight (u : Setup Box Lane) (lane : Lane) (a b : Pt) : Prop extends Default u where
  ends : a ≠ b
  line : u.roads.line lane = ofArray [a, b]
  corridor : ∀ s, 0 ≤ s → s ≤ pdist a b → u.corridor (onLane a b s) = some lane
  big : pdist a b < u.big

/-- the direction of the polyline at arc length `s`: that of the segment, and of the bisector at a corner -/
def Heading (pts : List Pt) (s θ : ℝ) : Prop :=
  (s = 0 ∧ ∃ a b, pts[0]? = some a ∧ pts[1]? = some b ∧ HasDir (vec a b) θ) ∨
  (s = Ln.length pts ∧ ∃ a b, pts[pts.length - 2]? = some a ∧ pts[pts.length - 1]? = some b ∧ HasDir (vec a b) θ) ∨
  (∃ i a b, pts[i]? = some a ∧ pts[i + 1]? = some b ∧ Ln.length (pts.take (i + 1)) < s ∧ s < Ln.length (pts.take (i + 2)) ∧ HasDir (vec a b) θ) ∨
  ∃ i a b c, pts[i]? = some a ∧ pts[i + 1]? = some b ∧ pts[i + 2]? = some c ∧ s = Ln.length (pts.take (i + 2)) ∧ HasDir (unit a b + unit b c) θ

/-- a polyline that never meets itself and has no spikes -/
structure Simple (pts : List Pt) : Prop where
  two : 2 ≤ pts.length
  noDup : NoDup pts
  once : ∀ s s' q, AtArc pts s q → AtArc pts s' q → s = s'
  spike : ∀ (i : Nat) a b c, pts[i]? = some a → pts[i + 1]? = some b → pts[i + 2]? = some c → unit a b + unit b c ≠ 0

/-- at arc length `s` on the polyline and directed along it -/
def alongAt (pts : List Pt) (s : ℝ) (p : Pt) (θ : ℝ) : Prop := AtArc pts s p ∧ Heading pts s θ

/-- the lane's centre line is the polyline `pts`, every position on it has the lane as its nearest corridor -/
structure Winding (u : Setup Box Lane) (lane : Lane) (pts : List Pt) : Prop extends Default u where
  simple : Simple pts
  line : u.roads.line lane = ofArray pts
  corridor : ∀ p, OnLine pts p → u.corridor p = some lane
  big : Ln.length pts < u.big

/-- how many vehicles are ahead of vehicle `i` -/
noncomputable def ahead {Box : Type} (w : W Box) (x : Nat → ℝ × ℝ) (i : Nat) : Nat := Set.ncard {j | ∃ aj, w.getAgent j = some aj ∧ (x i).1 < (x j).1}

end Bark.Flow.Spec
