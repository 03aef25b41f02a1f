import Verif.Model.RssEval
import Verif.Spec.Frenet

/-! Specification vocabulary for the RSS evaluation (C139–C142). -/
namespace Bark.RssEval.Spec

/-- `b` is what the last entry of the list that has something gives, or the default if there is none -/
def Newest {α β : Type} (sel : α → Option β) (dflt : β) (l : List α) (b : β) : Prop :=
  (∃ a x c, l = a ++ x :: c ∧ sel x = some b ∧ ∀ y ∈ c, sel y = none) ∨ ((∀ y ∈ l, sel y = none) ∧ b = dflt)

/-- `r` is the last response about the object -/
def LastAbout {K : Type} (rs : List (Resp K)) (id : Nat) (r : Resp K) : Prop :=
  ∃ a b, rs = a ++ r :: b ∧ r.obj = id ∧ ∀ x ∈ b, x.obj ≠ id

/-- the proper response of a call, if its RSS world is valid -/
def properOf {K P W : Type} (gen : W → Option (Check K P)) : Call W → Option P
  | .evaluate w => (gen w).map Check.proper
  | .pairwise w => (gen w).map Check.proper
  | .directional w => (gen w).map Check.proper

/-- the snapshot a call keeps -/
def snapshotOf {K P W : Type} (gen : W → Option (Check K P)) : Call W → Option (List (Resp K))
  | .evaluate w => (gen w).map Check.snapshot
  | .pairwise w => (gen w).map Check.snapshot
  | .directional _ => none

/-- the polygon belongs to the response -/
structure PolyOf {K : Type} (r : Resp K) (p : Poly K) : Prop where
  left : p.left = r.leftDist
  right : p.right = r.rightDist
  lon : p.lon = r.lonDist
  agent : p.agent = r.obj
  current : p.current = r.current

section
variable {K : Type} [Field K] [LinearOrder K]

/-- the way until standstill of a vehicle that accelerates with `a` during `t` and then brakes with the deceleration `b` -/
def stopping (v a t b : K) : K := v * t + a * t * t / 2 + (v + a * t) * (v + a * t) / (2 * b)

/-- the RSS distance between a vehicle and the one in front of it: the rear one accelerates during its response time and then
brakes at least with `bMin`, the front one brakes at most with `bMax` -/
def followDistance (vRear a t bMin vFront bMax : K) : K :=
  max 0 (stopping vRear a t bMin - vFront * vFront / (2 * bMax))

/-- the physics functions of the library compute what their names say (for the arguments used here) -/
structure RightPhysics (ph : Physics K) : Prop where
  accelerate : ∀ v a t, 0 ≤ v → 0 ≤ a → 0 ≤ t → ph.accelerate v a t = some (v + a * t, v * t + a * t * t / 2)
  stop : ∀ v b, 0 ≤ v → b < 0 → ph.stop v b = some (v * v / (2 * -b))

/-- sensible settings: decelerations are negative numbers, accelerations and the response time are not negative -/
structure Sensible (d : Dynamics K) : Prop where
  accLon : 0 ≤ d.accLonMax
  accLat : 0 ≤ d.accLatMax
  max : d.brakeMax < 0
  min : d.brakeMin < 0
  time : 0 ≤ d.responseTime

end

open Ln Ln.Spec Fren.Spec

/-- from `p` to `q` it goes `a` forward and `l` to the left, seen in direction `θ` -/
def Moved (θ : ℝ) (p q : Pt) (a l : ℝ) : Prop := along θ (vec p q) = a ∧ leftward θ (vec p q) = l

end Bark.RssEval.Spec
