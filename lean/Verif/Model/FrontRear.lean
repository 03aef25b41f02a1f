import Verif.Model.World
import Mathlib.Algebra.Order.Group.Abs

/-!
Model of `bark/commons/transformation/frenet_state.{hpp,cpp}` (the difference of two frenet states,
given the shape extensions) and of `World::GetAgentFrontRearForId` (bark/world/world.cpp:251-317).
Shape extensions and the projection to the centre line are parameters here; the former are modelled
over ℝ in `Model/ShapeExt.lean`.
-/
namespace Bark
set_option linter.unusedSectionVars false

/-- bark/commons/transformation/frenet_state.hpp:22-51 `FrenetState` (without `angleRoad`). -/
structure Frenet (K : Type) where
  lon : K
  lat : K
  vlon : K
  vlat : K
  angle : K
  deriving DecidableEq

/-- frenet_state.hpp:80 `ShapeExtension` -/
structure Ext (K : Type) where
  front : K
  rear : K
  left : K
  right : K
  deriving DecidableEq

/-- frenet_state.hpp:53-71 `FrenetStateDifference` (without the copies `from`, `to` and the angle). -/
structure FDiff (K : Type) where
  lon : K
  lat : K
  vlon : K
  vlat : K
  lonZeroed : Bool
  latZeroed : Bool
  deriving DecidableEq

section
variable {K St Act B E Sh Box O Lane : Type} [Field K] [LinearOrder K] [IsStrictOrderedRing K]

/-- frenet_state.cpp:134-177 constructor of `FrenetStateDifference`; `e1`, `e2` are the shape
extensions at the tangent angles of `a` and `b`. -/
def frenetDiff (a b : Frenet K) (e1 e2 : Ext K) : FDiff K :=
  let dlonF := b.lon - e2.rear - (a.lon + e1.front)
  let dlonR := b.lon + e2.front - (a.lon - e1.rear)
  let dlatL := b.lat - e2.right - (a.lat + e1.left)
  let dlatR := b.lat + e1.right - (a.lat - e2.right)
  { lon :=
      if a.lon ≤ b.lon then (if 0 < dlonF then dlonF else b.lon - a.lon)
      else (if dlonR < 0 then dlonR else b.lon - a.lon)
    lonZeroed := if a.lon ≤ b.lon then decide (dlonF ≤ 0) else decide (0 ≤ dlonR)
    lat :=
      if a.lat ≤ b.lat then (if 0 < dlatL then dlatL else b.lat - a.lat)
      else (if dlatR < 0 then dlatR else b.lat - a.lat)
    latZeroed := if a.lat ≤ b.lat then decide (dlatL ≤ 0) else decide (0 ≤ dlatR)
    vlon := b.vlon - a.vlon
    vlat := b.vlat - a.vlat }

/-- Geometry used by the front/rear search.
* `frenet lane s` – `FrenetState(s, lane centre line)`
* `ext shape angle` – `ShapeExtensionAtTangentAngle`
* `nearest s k index` – boost's k-nearest query around the position of `s`
* `boxHit lane`, `collide lane` – queries with the lane corridor's merged polygon
* `big` – `std::numeric_limits<double>::max()` -/
structure FRPlug (K St Act B E Sh Box Lane : Type) where
  frenet : Lane → St → Frenet K
  ext : Sh → K → Ext K
  nearest : St → Nat → List (Box × Nat) → List (Box × Nat)
  boxHit : Lane → Box → Bool
  collide : Lane → Agent K St Act B E Sh → Bool
  big : K

/-- frenet_state.hpp:64 default constructed `FrenetStateDifference` -/
def FDiff.default (big : K) : FDiff K :=
  { lon := big, lat := big, vlon := big, vlat := big, lonZeroed := false, latZeroed := false }

/-- world.hpp:37-40 `FrontRearAgents` -/
structure FrontRear (K St Act B E Sh : Type) where
  front : Option (Agent K St Act B E Sh) × FDiff K
  rear : Option (Agent K St Act B E Sh) × FDiff K

/-- Thresholds of the search (world.hpp:175-180). -/
structure FRParams (K : Type) where
  latThr : K
  angThr : K
  lonThr : K

/-- world.cpp:293-295: the difference between the ego and another agent whose current state is `s`. -/
def frDiff (G : FRPlug K St Act B E Sh Box Lane) (lane : Lane) (egoSt : St) (egoSh : Sh)
    (s : St) (a : Agent K St Act B E Sh) : FDiff K :=
  let fe := G.frenet lane egoSt
  let fo := G.frenet lane s
  frenetDiff fe fo (G.ext egoSh fe.angle) (G.ext a.shape fo.angle)

/-- world.cpp:285-311 one iteration of the search. -/
def frBody (P : Plug K St Act B E Sh Box O) (G : FRPlug K St Act B E Sh Box Lane) (p : FRParams K)
    (t : K) (lane : Lane) (ego : Nat) (egoSt : St) (egoSh : Sh) (acc : FrontRear K St Act B E Sh)
    (a : Agent K St Act B E Sh) : Res (FrontRear K St Act B E Sh) :=
  if decide (a.id = ego) || decide (P.status a.behavior ≠ .valid) || a.isValidAtTime t == false then
    .ok acc
  else
    match a.currentState with
    | .error f => .error f
    | .ok s =>
      let d := frDiff G lane egoSt egoSh s a
      if p.latThr < |if d.latZeroed then 0 else d.lat| ∨ p.angThr < |(G.frenet lane s).angle| then
        .ok acc
      else if p.lonThr ≤ d.lon ∧ d.lon < acc.front.2.lon then
        .ok { acc with front := (some a, d) }
      else if d.lon < p.lonThr ∧ d.lon < acc.rear.2.lon then
        .ok { acc with rear := (some a, d) }
      else .ok acc

/-- world.cpp:285-311 the search loop over the considered agents. -/
def frLoop (P : Plug K St Act B E Sh Box O) (G : FRPlug K St Act B E Sh Box Lane) (p : FRParams K)
    (t : K) (lane : Lane) (ego : Nat) (egoSt : St) (egoSh : Sh) :
    List (Nat × Agent K St Act B E Sh) → FrontRear K St Act B E Sh →
      Res (FrontRear K St Act B E Sh)
  | [], acc => .ok acc
  | q :: m, acc => do
      let acc' ← frBody P G p t lane ego egoSt egoSh acc q.2
      frLoop P G p t lane ego egoSt egoSh m acc'

/-- world.cpp:258-268: the agents considered. `lane = none` is a null lane corridor. -/
def frConsidered (P : Plug K St Act B E Sh Box O) (G : FRPlug K St Act B E Sh Box Lane)
    (maxAgents : Nat) (inCorridor : Bool) (lane : Option Lane) (ego : Nat)
    (w : World K St Act B E Sh Box O) : Res (OMap Nat (Agent K St Act B E Sh)) :=
  if inCorridor then
    match lane with
    | none => .error .ub
    | some l => w.getAgentsIntersectingPolygon P (G.boxHit l) (G.collide l)
  else
    match w.getAgent ego with
    | none => .error .ub
    | some e => do
      let s ← e.currentState
      w.getNearestAgents P (G.nearest s (maxAgents + 1))

/-- world.cpp:270-316: the rest of the search, given the considered agents. -/
def frFrom (P : Plug K St Act B E Sh Box O) (G : FRPlug K St Act B E Sh Box Lane) (p : FRParams K)
    (lane : Option Lane) (ego : Nat) (w : World K St Act B E Sh Box O)
    (m : OMap Nat (Agent K St Act B E Sh)) : Res (FrontRear K St Act B E Sh) :=
  let dflt : Option (Agent K St Act B E Sh) × FDiff K := (none, FDiff.default G.big)
  if m.isEmpty then .ok ⟨dflt, dflt⟩
  else
    match w.getAgent ego, lane with
    | some e, some l => do
      let s ← e.currentState
      frLoop P G p w.time l ego s e.shape m ⟨dflt, dflt⟩
    | _, _ => .error .ub

/-- world.cpp:251-317 `GetAgentFrontRearForId` -/
def getAgentFrontRear (P : Plug K St Act B E Sh Box O) (G : FRPlug K St Act B E Sh Box Lane)
    (p : FRParams K) (maxAgents : Nat) (inCorridor : Bool) (lane : Option Lane) (ego : Nat)
    (w : World K St Act B E Sh Box O) : Res (FrontRear K St Act B E Sh) := do
  let m ← frConsidered P G maxAgents inCorridor lane ego w
  frFrom P G p lane ego w m

end
end Bark
