import Verif.Model.Evaluators
import Verif.Model.FrontRear
import Verif.Model.Labels
import Verif.Model.Shape
import Verif.Model.Dynamics

/-!
Model of `bark/world/evaluation/safe_distances/evaluator_safe_dist_drivable_area.{hpp,cpp}`, of
`SingleTrackModel::CalculateLatAccelerationMaxAtFrenetAngle` (bark/models/dynamic/single_track.hpp) and of the label functions
`agent_near`, `succeeding_agent`, `generic_ego` and `constant` (bark/world/evaluation/ltl/label_functions/).
-/
namespace Bark.Area
open Bark Bark.Eval

/-- single_track.hpp:105-125 `CalculateLatAccelerationMaxAtFrenetAngle`; `wb` wheel base, `latMax` the model's lateral acceleration limit, `v`
speed, `θ` heading, `τ` direction of the road, `total` the total acceleration. Both branches of the case distinction by the side of the
centre line (lines 113-118) assign the same steering angle. -/
noncomputable def latAccMax (wb latMax v θ τ total : ℝ) (_left : Bool) : ℝ :=
  let delta := Dyn.atan2 (latMax * wb) (v * v)
  |(|total| * Real.sin (τ - θ)) - v * v * Real.sin delta / wb * Real.cos (τ + θ)|

/-- evaluator_safe_dist_drivable_area.cpp:42-52 `GetCollisionShape` -/
noncomputable def checkedOutline (big : ℝ) (shape : Shape.Poly) (lon lat x y a : ℝ) : Shape.Poly :=
  Shape.transform (Shape.inflate big shape lon lat) ⟨x, y, a⟩

section
variable {K St Act B E Sh Box O Lane Poly : Type} [Field K] [LinearOrder K] [IsStrictOrderedRing K]

/-- evaluator_safe_dist_drivable_area.cpp:30-32 `CheckSafeDistance` with evaluator_drivable_area.hpp:60-72 on the world observed by `id`:
`inflated` is `checkedOutline`, `within` boost's strict inclusion, `road` the polygon of the agent's road corridor, if it has one -/
def inside (inflated : Sh → St → Poly) (within : Poly → Poly → Bool) (road : Agent K St Act B E Sh → Option Poly) (id : Nat)
    (w : World K St Act B E Sh Box O) : Res Bool :=
  match w.getAgent id with
  | none => .error .ub
  | some a => do
    let p ← polygon inflated a
    match road a with
    | none => .error .ub
    | some r => .ok (within p r)

/-- evaluator_safe_dist_drivable_area.cpp:34-40 `Evaluate`: the counting evaluator of safe distances -/
def safeArea (inflated : Sh → St → Poly) (within : Poly → Poly → Bool) (road : Agent K St Act B E Sh → Option Poly) (id : Nat)
    (w : World K St Act B E Sh Box O) (n : Int) : Res (Int × Int) :=
  safeDist (inside inflated within road) id w n

/-- agent_near_label_function.cpp:18-31 `EvaluateAgent`; `dist` is the distance of two polygons; the ego is dereferenced -/
def near (poly : Sh → St → Poly) (dist : Poly → Poly → K) (thr : K) (w : World K St Act B E Sh Box O) (ego : Nat)
    (o : Agent K St Act B E Sh) : Res Bool :=
  match w.getAgent ego with
  | none => .error .ub
  | some e => do
    let p ← polygon poly e
    let q ← polygon poly o
    .ok (decide (|dist p q| < thr))

/-- the labels of agent_near_label_function.cpp: multi_agent_label_function.cpp:12-21 -/
def nearLabels (P : Plug K St Act B E Sh Box O) (poly : Sh → St → Poly) (dist : Poly → Poly → K) (thr : K)
    (w : World K St Act B E Sh Box O) (ego : Nat) : Res (OMap Nat Bool) :=
  Labels.multiAgent P w ego (near poly dist thr w ego)

/-- succeeding_agent_label_function.cpp:24-51 `EvaluateAgent`: `lane` is the ego's lane corridor, `useWorld` selects the world's lateral
threshold; angle threshold `pi`, not restricted to the corridor, no longitudinal threshold (defaults of world.hpp:178-180) -/
def succeeding (P : Plug K St Act B E Sh Box O) (G : FRPlug K St Act B E Sh Box Lane) (pi : K) (maxAgents : Nat) (useWorld : Bool)
    (worldThr ownThr : K) (lane : Option Lane) (w : World K St Act B E Sh Box O) (ego : Nat) (o : Agent K St Act B E Sh) : Res Bool :=
  match lane with
  | none => .ok false
  | some l => do
    let r ← getAgentFrontRear P G ⟨if useWorld = true then worldThr else ownThr, pi, 0⟩ maxAgents false (some l) ego w
    match r.front.1 with
    | none => .ok false
    | some f => .ok (decide (f.id = o.id))

/-- the labels of succeeding_agent_label_function.cpp -/
def succeedingLabels (P : Plug K St Act B E Sh Box O) (G : FRPlug K St Act B E Sh Box Lane) (pi : K) (maxAgents : Nat) (useWorld : Bool)
    (worldThr ownThr : K) (lane : Option Lane) (w : World K St Act B E Sh Box O) (ego : Nat) : Res (OMap Nat Bool) :=
  Labels.multiAgent P w ego (succeeding P G pi maxAgents useWorld worldThr ownThr lane w ego)

/-- base_evaluator.hpp `EvaluationReturn`: what evaluators return (`other` for the remaining alternatives) -/
inductive Ret
  | bool (b : Bool)
  | int (n : Int)
  | other

/-- `boost::get<bool>` -/
def getBool : Ret → Res Bool
  | .bool b => .ok b
  | _ => .error .thrown

/-- generic_ego_label_function.hpp:31-39 `Evaluate`: a copy of the stored evaluator is asked and thrown away; the stored evaluator and the
label's value are returned -/
def genericEgo {S W : Type} (eval : S → W → Res (S × Ret)) (hasEgo : W → Bool) (s : S) (w : W) : Res (S × Bool) :=
  if hasEgo w = true then
    match eval s w with
    | .error f => .error f
    | .ok r =>
      match getBool r.2 with
      | .error f => .error f
      | .ok b => .ok (s, b)
  else .ok (s, false)

/-- a history of evaluations of one label function -/
def genericAll {S W : Type} (eval : S → W → Res (S × Ret)) (hasEgo : W → Bool) : List W → S → Res (List Bool)
  | [], _ => .ok []
  | w :: ws, s =>
    match genericEgo eval hasEgo s w with
    | .error f => .error f
    | .ok r =>
      match genericAll eval hasEgo ws r.1 with
      | .error f => .error f
      | .ok l => .ok (r.2 :: l)

/-- constant_label_function.hpp:20-33: the value set last, at first true -/
def constantLabel (sets : List Bool) : Bool := sets.getLast?.getD true

end
end Bark.Area
