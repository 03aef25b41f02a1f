import Verif.Model.Basic
import Verif.Model.Line
import Mathlib.Algebra.Order.Field.Basic

/-!
Model of the RSS evaluation: `bark/world/evaluation/rss/rss_interface.cpp` (rssi.cpp), `evaluator_rss.hpp` (erss.hpp) and
`safety_polygon.hpp` (sp.hpp).

The RSS library itself (creation of scenes, check, routing, map matching, physics) is a parameter. `W` are observed worlds,
`P` proper responses.
-/
namespace Bark.RssEval

/-- one individual response of the library: the other object, `isDangerous`, `isLongitudinalSafe`, `isLateralSafe`, the safe
distances and the current longitudinal distance -/
structure Resp (K : Type) where
  obj : Nat
  dangerous : Bool
  lonSafe : Bool
  latSafe : Bool
  lonDist : K
  leftDist : K
  rightDist : K
  current : K
  deriving DecidableEq

/-- what `calculateProperResponse` delivers: whether it succeeded, the snapshot, the proper response -/
structure Check (K P : Type) where
  ok : Bool
  snapshot : List (Resp K)
  proper : P

/-- rssi.hpp:250-251: `rss_proper_response_` and `rss_state_snapshot_` -/
structure Iface (K P : Type) where
  proper : P
  snapshot : List (Resp K)
  deriving DecidableEq

/-- sp.hpp:38-51 without the polygon -/
structure Poly (K : Type) where
  left : K
  right : K
  lon : K
  agent : Nat
  current : K
  deriving DecidableEq

/-- erss.hpp:160-164 -/
structure Evaluator (K P : Type) where
  agent : Nat
  rss : Iface K P
  proper : P
  snapshot : List (Resp K)
  polygons : List (Poly K)
  deriving DecidableEq

section
variable {K P W : Type} (gen : W → Option (Check K P))

/-- rssi.cpp:366-373 -/
def extractSafety : List (Resp K) → Bool
  | [] => true
  | r :: rs => !r.dangerous && extractSafety rs

/-- rssi.cpp:375-383: a later entry for an object replaces an earlier one -/
def extractPairwise (rs : List (Resp K)) : OMap Nat Bool :=
  rs.foldl (fun m r => OMap.insert r.obj (!r.dangerous) m) []

/-- rssi.cpp:385-395 -/
def extractDirectional (rs : List (Resp K)) : OMap Nat (Bool × Bool) :=
  rs.foldl (fun m r => OMap.insert r.obj (r.lonSafe, r.latSafe) m) []

/-- rssi.cpp:436-447 `GetSafetyReponse`; `gen w` is `none` if the RSS world is not valid (rssi.cpp:397-434), otherwise what
the check of rssi.cpp:348-364 delivers for it. A failed check is only logged. -/
def safety (s : Iface K P) (w : W) : Option Bool × Iface K P :=
  match gen w with
  | none => (none, s)
  | some c => (some (extractSafety c.snapshot), ⟨c.proper, c.snapshot⟩)

/-- rssi.cpp:449-460 -/
def pairwise (s : Iface K P) (w : W) : OMap Nat Bool × Iface K P :=
  match gen w with
  | none => ([], s)
  | some c => (extractPairwise c.snapshot, ⟨c.proper, c.snapshot⟩)

/-- rssi.cpp:462-476: the snapshot is not kept -/
def directional (s : Iface K P) (w : W) : OMap Nat (Bool × Bool) × Iface K P :=
  match gen w with
  | none => ([], s)
  | some c => (extractDirectional c.snapshot, { s with proper := c.proper })

/-- erss.hpp:84-95 -/
def polygonsOf (rs : List (Resp K)) : List (Poly K) :=
  rs.map fun r => ⟨r.leftDist, r.rightDist, r.lonDist, r.obj, r.current⟩

/-- erss.hpp:97-102 `Evaluate(ObservedWorld)`: the copies are taken before the check -/
def evalObserved (e : Evaluator K P) (w : W) : Option Bool × Evaluator K P :=
  ((safety gen e.rss w).1,
    { e with proper := e.rss.proper, snapshot := e.rss.snapshot, polygons := polygonsOf e.rss.snapshot,
             rss := (safety gen e.rss w).2 })

/-- erss.hpp:55-71 `Evaluate(World)`; `obs` gives the observed world of an agent of the world -/
def evalWorld (e : Evaluator K P) (obs : Nat → Option W) : Option Bool × Evaluator K P :=
  match obs e.agent with
  | none => (some false, e)
  | some w => ((safety gen e.rss w).1, { e with rss := (safety gen e.rss w).2 })

/-- erss.hpp:116-119 -/
def pairObserved (e : Evaluator K P) (w : W) : OMap Nat Bool × Evaluator K P :=
  ((pairwise gen e.rss w).1, { e with rss := (pairwise gen e.rss w).2 })

/-- erss.hpp:110-114: element 0 of the vector of observed worlds -/
def pairWorld (e : Evaluator K P) (obs : Nat → Option W) : Res (OMap Nat Bool × Evaluator K P) :=
  match obs e.agent with
  | none => .error .ub
  | some w => .ok (pairObserved gen e w)

/-- erss.hpp:139-142 -/
def dirObserved (e : Evaluator K P) (w : W) : OMap Nat (Bool × Bool) × Evaluator K P :=
  ((directional gen e.rss w).1, { e with rss := (directional gen e.rss w).2 })

/-- erss.hpp:132-137 -/
def dirWorld (e : Evaluator K P) (obs : Nat → Option W) : Res (OMap Nat (Bool × Bool) × Evaluator K P) :=
  match obs e.agent with
  | none => .error .ub
  | some w => .ok (dirObserved gen e w)

/-- the calls of an evaluator on observed worlds -/
inductive Call (W : Type) where
  | evaluate (w : W)
  | pairwise (w : W)
  | directional (w : W)

/-- the state after a call -/
def after (e : Evaluator K P) : Call W → Evaluator K P
  | .evaluate w => (evalObserved gen e w).2
  | .pairwise w => (pairObserved gen e w).2
  | .directional w => (dirObserved gen e w).2

/-- a new evaluator (erss.hpp:38-42): everything default-constructed -/
def fresh (agent : Nat) (p0 : P) : Evaluator K P := ⟨agent, ⟨p0, []⟩, p0, [], []⟩

/-- erss.hpp:43-44: without an agent id, the largest id -/
def freshNoAgent (maxId : Nat) (p0 : P) : Evaluator K P := fresh maxId p0

end

/-! ### relevant agents -/

section
variable {K : Type} [Field K] [LinearOrder K]

/-- the part of `RssDynamics` used here -/
structure Dynamics (K : Type) where
  accLonMax : K
  accLatMax : K
  brakeMax : K
  brakeMin : K
  responseTime : K

/-- the two physics functions of the library: `none` if they fail. `accelerate speed acceleration time` gives speed and
distance, `stop speed deceleration` the distance. -/
structure Physics (K : Type) where
  accelerate : K → K → K → Option (K × K)
  stop : K → K → Option K

/-- rssi.cpp:231-258 `CalculateMaxStoppingDistance`; both distances are 50 if they cannot be computed -/
def maxStop (ph : Physics K) (d : Dynamics K) (speed : K) : K :=
  match ph.accelerate (if 0 ≤ speed then speed else -speed) (max d.accLonMax d.accLatMax) d.responseTime with
  | none => 50 + 50
  | some (v, dist) =>
    match ph.stop (if 0 ≤ v then v else -v) (min d.brakeMin d.brakeMax) with
    | none => dist + 50
    | some b => dist + b

/-- rssi.cpp:260-284 `GetRelevantAgents`: `speed` and `distance` (from the ego) of the agents -/
def relevant (ph : Physics K) (others : Dynamics K) (scaling : K) (ego : Nat) (egoStop : K) (speed distance : Nat → K) :
    List Nat → List Nat
  | [] => []
  | a :: as =>
    if a ≠ ego then
      if distance a < (egoStop + maxStop ph others (speed a)) * scaling then
        a :: relevant ph others scaling ego egoStop speed distance as
      else relevant ph others scaling ego egoStop speed distance as
    else relevant ph others scaling ego egoStop speed distance as

/-! ### the route of the ego -/

/-- one matched position: its probability, the planned route (`none` if there is none) and the predicted routes -/
structure Position (K R : Type) where
  probability : K
  planned : Option R
  predicted : List R

/-- rssi.cpp:137-192: the routes found with their probabilities and whether a planned one was found -/
def collectRoutes {R : Type} : List (Position K R) → Bool → List (K × R) → Bool × List (K × R)
  | [], found, rs => (found, rs)
  | p :: ps, found, rs =>
    match p.planned with
    | some r => collectRoutes ps true (rs ++ [(p.probability, r)])
    | none =>
      if found = false then collectRoutes ps found (rs ++ p.predicted.map fun r => (0, r))
      else collectRoutes ps found rs

/-- `std::max_element`: the first largest one -/
def maxElement {R : Type} : List (K × R) → Option (K × R)
  | [] => none
  | x :: xs =>
    match maxElement xs with
    | none => some x
    | some y => if x.1 < y.1 then some y else some x

/-- rssi.cpp:132-210 `GenerateRoute`: the route, if any is assigned, and the returned flag -/
def generateRoute {R : Type} (ps : List (Position K R)) : Option R × Bool :=
  ((maxElement (collectRoutes ps false []).2).map Prod.snd, (collectRoutes ps false []).1)

end

/-- rssi.cpp:116-130 `CalculateAngularVelocity`: the history as (time, orientation), oldest first; a division by zero gives
no number -/
noncomputable def angularVelocity (rnd : ℝ → ℝ) (history : List (ℝ × ℝ)) : Res ℝ :=
  match history.reverse with
  | cur :: prev :: _ =>
    if cur.1 - prev.1 = 0 then .error .nan
    else .ok (Angle.signedAngleDiff rnd cur.2 prev.2 / (cur.1 - prev.1))
  | _ => .ok 0

/-! ### the safety polygon -/
open Ln (Pt)

/-- sp.hpp:59-64 -/
inductive Mode where
  | auto | front | behind | both
  deriving DecidableEq

/-- the distances of a `SafetyPolygon` and its outline -/
structure SafePoly where
  left : ℝ
  right : ℝ
  lon : ℝ
  agent : Nat
  outline : List Pt

/-- `x > 0 ? 1 : -1` -/
noncomputable def sgn (x : ℝ) : ℝ := if 0 < x then 1 else -1

/-- the angle of sp.hpp:98-100: from the point to the ego -/
noncomputable def angleTo (ego p : Pt) : ℝ := Dyn.atan2 (ego.2 - p.2) (ego.1 - p.1)

/-- sp.hpp:103, 108 and 111-121: the lateral shift of a corner. Exact angles (`SignedAngleDiff` without rounding to `float`). -/
noncomputable def shiftLat (sp : SafePoly) (ego : Pt) (θ : ℝ) (p : Pt) : Pt :=
  let s := sgn (Angle.signedAngleDiff id θ (angleTo ego p))
  let dist := if s < 0 then sp.left else sp.right
  let angle := if 0 < s then θ - Real.pi / 2 else θ + Real.pi / 2
  if dist < 10000 then (p.1 + dist * Real.cos angle, p.2 + dist * Real.sin angle) else p

/-- sp.hpp:107-109: 1 for points in front, -1 for points behind -/
noncomputable def sgnLon (ego : Pt) (θ : ℝ) (p : Pt) : ℝ :=
  sgn (Angle.signedAngleDiff id (θ - Real.pi / 2) (angleTo ego p))

/-- sp.hpp:123-152: the sign of the longitudinal shift; `none` if the other agent is missing -/
noncomputable def lonSign (sp : SafePoly) (mode : Mode) (ego : Pt) (θ : ℝ) (other : Nat → Option Pt) (p : Pt) :
    Option ℝ :=
  match mode with
  | .auto =>
    match other sp.agent with
    | none => none
    | some o => some (if sgnLon ego θ o * sgnLon ego θ p < 0 then 0 else sgnLon ego θ p)
  | .front => some (if sgnLon ego θ p < 0 then 0 else sgnLon ego θ p)
  | .behind => some (if 0 < sgnLon ego θ p then 0 else sgnLon ego θ p)
  | .both => some (sgnLon ego θ p)

/-- sp.hpp:154-162: the longitudinal shift; the sign was determined from the corner itself -/
noncomputable def shiftLon (sp : SafePoly) (θ : ℝ) (s : ℝ) (p : Pt) : Pt :=
  let s' := if 10000 < sp.lon then 0 else s
  (p.1 + s' * sp.lon * Real.cos θ, p.2 + s' * sp.lon * Real.sin θ)

/-- sp.hpp:96-164: the loop over the corners -/
noncomputable def extend (mode : Mode) (ego : Pt) (θ : ℝ) (other : Nat → Option Pt) : SafePoly → List Pt → Bool × SafePoly
  | sp, [] => (true, sp)
  | sp, p :: ps =>
    match lonSign sp mode ego θ other p with
    | none => (false, sp)
    | some s =>
      extend mode ego θ other { sp with outline := sp.outline ++ [shiftLon sp θ s (shiftLat sp ego θ p)] } ps

/-- the ego agent: position, orientation, corners of its polygon -/
structure Ego where
  pos : Pt
  theta : ℝ
  corners : List Pt

/-- sp.hpp:79-166 `ComputeSafetyPolygon`; `other` are the positions of the agents observed -/
noncomputable def computeSafetyPolygon (sp : SafePoly) (ego : Option Ego) (other : Nat → Option Pt) (mode : Mode) :
    Bool × SafePoly :=
  match ego with
  | none => (false, sp)
  | some e => extend mode e.pos e.theta other sp e.corners

end Bark.RssEval
