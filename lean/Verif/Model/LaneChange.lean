import Verif.Model.FrontRear
import Verif.Model.Idm

/-!
Model of `bark/models/behavior/rule_based/lane_change_behavior.{hpp,cpp}` (lane choice, on top of the front/rear search
of `Model/FrontRear.lean`) and of `bark/models/behavior/rule_based/mobil_behavior.cpp` (over `Num`, on top of
`Model/Idm.lean`).

Simplifications: lane corridors are abstract values (`Lane`), `none` is a null pointer; `LengthUntilEnd` is a parameter;
log output and `BARK_EXPECT_TRUE` (which only prints) are left out.
-/
namespace Bark.LaneChange
open Bark
set_option linter.unusedSectionVars false

/-- lane_change_behavior.hpp:41-47 `AgentInformation` (of `agent_info` only the agent) -/
structure Info (K A : Type) where
  agent : Option A
  relVel : K
  relDist : K

/-- lane_change_behavior.hpp:58-73 `LaneCorridorInformation` -/
structure LaneInfo (K A Lane : Type) where
  front : Info K A
  rear : Info K A
  lane : Lane
  remaining : K

/-- lane_change_behavior.hpp:88-100, the parameters -/
structure Prm (K : Type) where
  minRemaining : K
  minRear : K
  minFront : K
  timeGap : K

/-- lane_change_behavior.hpp:32-36 (`Undefined` is never used) -/
inductive Decision
  | keep
  | change
  deriving DecidableEq

section
variable {K St Act B E Sh Box O Lane : Type} [Field K] [LinearOrder K] [IsStrictOrderedRing K] [DecidableEq Lane]

/-- lane_change_behavior.hpp:155-164 `GetVelocity`; `vel` reads `VEL_POSITION` of a state -/
def velocity (vel : St → K) (a : Agent K St Act B E Sh) : Res K := do
  let s ← a.currentState
  .ok (vel s)

/-- `observed_world.GetEgoAgent()` dereferenced -/
def egoState (ego : Nat) (w : World K St Act B E Sh Box O) : Res St :=
  match w.getAgent ego with
  | none => .error .ub
  | some e => e.currentState

/-- lane_change_behavior.cpp:61-68, 69-80: the information on one side; `dv`, `dd` are the values without an agent -/
def infoOf (vel : St → K) (ego : Nat) (w : World K St Act B E Sh Box O) (dv dd : K)
    (x : Option (Agent K St Act B E Sh) × FDiff K) : Res (Info K (Agent K St Act B E Sh)) :=
  match x.1 with
  | none => .ok { agent := none, relVel := dv, relDist := dd }
  | some a => do
    let v ← velocity vel a
    let s ← egoState ego w
    .ok { agent := some a, relVel := v - vel s, relDist := x.2.lon }

/-- lane_change_behavior.cpp:48-82 `FrontRearAgents`: lateral threshold 100, angular threshold π (`pi`), only agents in
the corridor, longitudinal threshold 0 (default, world.hpp:180) -/
def frontRearAgents (P : Plug K St Act B E Sh Box O) (G : FRPlug K St Act B E Sh Box Lane) (pi : K) (n : Nat)
    (vel : St → K) (ego : Nat) (w : World K St Act B E Sh Box O) (lane : Lane) :
    Res (Info K (Agent K St Act B E Sh) × Info K (Agent K St Act B E Sh)) := do
  let fr ← getAgentFrontRear P G { latThr := 100, angThr := pi, lonThr := 0 } n true (some lane) ego w
  let f ← infoOf vel ego w (10 ^ 6) (10 ^ 6) fr.front
  let r ← infoOf vel ego w 0 (-1000) fr.rear
  .ok (f, r)

/-- lane_change_behavior.cpp:84-100 `FillLaneCorridorInformation`; `len lane s` is `lane_corr->LengthUntilEnd(pos)` for the
position of state `s` -/
def fill (P : Plug K St Act B E Sh Box O) (G : FRPlug K St Act B E Sh Box Lane) (pi : K) (n : Nat)
    (vel : St → K) (len : Lane → St → K) (ego : Nat) (w : World K St Act B E Sh Box O) (lane : Lane) :
    Res (LaneInfo K (Agent K St Act B E Sh) Lane) := do
  let s ← egoState ego w
  let i ← frontRearAgents P G pi n vel ego w lane
  .ok { front := { i.1 with relDist := min (len lane s) i.1.relDist },
        rear := i.2, lane := lane, remaining := len lane s }

/-- lane_change_behavior.cpp:109-122 `ScanLaneCorridors` -/
def scan (P : Plug K St Act B E Sh Box O) (G : FRPlug K St Act B E Sh Box Lane) (pi : K) (n : Nat)
    (vel : St → K) (len : Lane → St → K) (ego : Nat) (w : World K St Act B E Sh Box O) :
    List Lane → Res (List (LaneInfo K (Agent K St Act B E Sh) Lane))
  | [] => .ok []
  | l :: ls => do
    let i ← fill P G pi n vel len ego w l
    let is ← scan P G pi n vel len ego w ls
    .ok (i :: is)

/-- lane_change_behavior.cpp:167-182: the three filters (`FilterLaneCorridors` is `std::copy_if`) -/
def filters {A : Type} (p : Prm K) (infos : List (LaneInfo K A Lane)) : List (LaneInfo K A Lane) :=
  ((infos.filter (fun li => decide (p.minRemaining ≤ li.remaining))).filter
    (fun li => decide (li.rear.relDist ≤ -p.minRear - |li.rear.relVel| * p.timeGap))).filter
    (fun li => decide (p.minFront ≤ li.front.relDist))

/-- lane_change_behavior.cpp:140-145: the loop over the candidates -/
def mostSpace {A : Type} : List (LaneInfo K A Lane) → K → Option Lane → Option Lane
  | [], _, tmp => tmp
  | li :: ls, mx, tmp =>
    if mx < li.front.relDist then mostSpace ls li.front.relDist (some li.lane) else mostSpace ls mx tmp

/-- lane_change_behavior.cpp:130-155 `ChooseLaneCorridor`; `cur` is `observed_world.GetLaneCorridor()` -/
def choose {A : Type} (infos : List (LaneInfo K A Lane)) (cur : Option Lane) : Decision × Option Lane :=
  if infos = [] then (.keep, cur)
  else if mostSpace infos 0 none ≠ cur then (.change, mostSpace infos 0 none)
  else (.keep, cur)

/-- lane_change_behavior.cpp:158-185 `CheckIfLaneChangeBeneficial`; `lanes` is
`GetRoadCorridor()->GetUniqueLaneCorridors()` -/
def beneficial (P : Plug K St Act B E Sh Box O) (G : FRPlug K St Act B E Sh Box Lane) (pi : K) (n : Nat)
    (vel : St → K) (len : Lane → St → K) (p : Prm K) (lanes : List Lane) (cur : Option Lane) (ego : Nat)
    (w : World K St Act B E Sh Box O) : Res (Decision × Option Lane) := do
  let infos ← scan P G pi n vel len ego w lanes
  .ok (choose (filters p infos) cur)

/-- lane_change_behavior.cpp:192-210: what `Plan` does with the corridor it follows (`GetLaneCorridor()`, here `target`):
`none` is `EXPIRED` -/
def planTarget (cur target : Option Lane) (res : Decision × Option Lane) : Option Lane :=
  match cur with
  | none => none
  | some _ => match res.2 with
    | some l => some l
    | none => target

end

/-! ### MOBIL -/
section
variable {St Act B E Sh Lane : Type} [DecidableEq Lane]
open Num Idm

/-- base_idm.cpp:55-62: parameters for the end of the lane -/
structure EndPrm where
  brake : Bool
  enabled : ℝ
  offset : ℝ

/-- mobil_behavior.hpp:38-46 -/
structure MobilPrm where
  aThr : ℝ
  politeness : ℝ
  safeDec : ℝ

open Classical in
/-- mobil_behavior.cpp:39-58 `CalcLongRawAccWithoutLeader` with base_idm.cpp:144-154 `GetDistanceToLaneEnding`; `len` is the
length until the end of the lane -/
noncomputable def accNoLeader (p : Idm.Params) (e : EndPrm) (len v : ℝ) : Num :=
  if e.brake = true ∧ len - e.offset ≤ e.enabled then rawAcc p (len - e.offset) v 0
  else mul (fin p.maxAcc) (freeRoad p v)

/-- mobil_behavior.cpp:84-93, 102-111: acceleration of the ego behind the front agent of `li` (velocities of the agents by
`velocity`) -/
noncomputable def accEgo (p : Idm.Params) (e : EndPrm) (vel : St → ℝ) (len : Lane → St → ℝ) (se : St) (lane : Lane)
    (front : Info ℝ (Agent ℝ St Act B E Sh)) : Res Num :=
  match front.agent with
  | none => .ok (accNoLeader p e (len lane se) (vel se))
  | some a => do
    let v ← velocity vel a
    .ok (rawAcc p front.relDist (vel se) v)

/-- mobil_behavior.cpp:113-128: acceleration of the new follower before the change -/
noncomputable def accBehind (p : Idm.Params) (e : EndPrm) (vel : St → ℝ) (len : Lane → St → ℝ)
    (li : LaneInfo ℝ (Agent ℝ St Act B E Sh) Lane) : Res Num :=
  match li.rear.agent with
  | none => .ok (fin 0)
  | some r => do
    let sr ← r.currentState
    match li.front.agent with
    | none => .ok (accNoLeader p e (len li.lane sr) (vel sr))
    | some f => do
      let v ← velocity vel f
      .ok (rawAcc p (li.front.relDist - li.rear.relDist) (vel sr) v)

/-- mobil_behavior.cpp:131-140: acceleration of the new follower after the change -/
noncomputable def accChangeBehind (p : Idm.Params) (vel : St → ℝ) (se : St)
    (li : LaneInfo ℝ (Agent ℝ St Act B E Sh) Lane) : Res Num :=
  match li.rear.agent with
  | none => .ok (fin 0)
  | some r => do
    let v ← velocity vel r
    .ok (rawAcc p (-li.rear.relDist) v (vel se))

/-- the loop's state: `max_advantage` and `tmp_lane_corr` -/
abbrev MState (Lane : Type) := Num × Option Lane

open Classical in
/-- mobil_behavior.cpp:142-165: safety and incentive criterion, given the four accelerations -/
noncomputable def mobilUpdate (m : MobilPrm) (aEgo aChangeEgo aBehind aChangeBehind : Num) (lane : Lane)
    (st : MState Lane) : MState Lane :=
  let advEgo := sub aChangeEgo aEgo
  let advOther := sub aBehind aChangeBehind
  if ge (fin (-m.safeDec)) aChangeBehind then st
  else if lt (add (mul (fin m.politeness) advOther) (fin m.aThr)) advEgo then
    if lt st.1 advEgo then (advEgo, some lane) else st
  else st

/-- mobil_behavior.cpp:99-166: the loop over the candidates -/
noncomputable def mobilLoop (p : Idm.Params) (e : EndPrm) (m : MobilPrm) (vel : St → ℝ) (len : Lane → St → ℝ) (se : St)
    (aEgo : Num) : List (LaneInfo ℝ (Agent ℝ St Act B E Sh) Lane) → MState Lane → Res (MState Lane)
  | [], st => .ok st
  | li :: ls, st => do
    let a1 ← accEgo p e vel len se li.lane li.front
    let a2 ← accBehind p e vel len li
    let a3 ← accChangeBehind p vel se li
    mobilLoop p e m vel len se aEgo ls (mobilUpdate m aEgo a1 a2 a3 li.lane st)

/-- lane_change_behavior.hpp:137-149 `SelectLaneCorridor`: the last match -/
def select {A : Type} (infos : List (LaneInfo ℝ A Lane)) (lane : Lane) : Option (LaneInfo ℝ A Lane) :=
  infos.foldl (fun acc li => if li.lane = lane then some li else acc) none

/-- mobil_behavior.cpp:74-82: the information on the own corridor, from the list or computed (`own`) -/
def ownInfo {A : Type} (infos : List (LaneInfo ℝ A Lane)) (lane : Lane) (own : Res (LaneInfo ℝ A Lane)) :
    Res (LaneInfo ℝ A Lane) :=
  match select infos lane with
  | some li => .ok li
  | none => own

open Classical in
/-- mobil_behavior.cpp:66-177 `ChooseLaneCorridor`: `cur` is the (non-null, Plan checks it) corridor the ego is on, `target`
is `GetLaneCorridor()`, `own` is `FillLaneCorridorInformation(observed_world, lane_corr)` -/
noncomputable def mobilChoose (p : Idm.Params) (e : EndPrm) (m : MobilPrm) (vel : St → ℝ) (len : Lane → St → ℝ) (se : St)
    (own : Res (LaneInfo ℝ (Agent ℝ St Act B E Sh) Lane)) (infos : List (LaneInfo ℝ (Agent ℝ St Act B E Sh) Lane))
    (cur : Lane) (target : Option Lane) : Res (Decision × Option Lane) := do
  let li ← ownInfo infos cur own
  let aEgo ← accEgo p e vel len se cur li.front
  if infos = [] then .ok (.keep, some cur)
  else do
    let st ← mobilLoop p e m vel len se aEgo infos (fin (-1000), target)
    if st.2 ≠ some cur ∧ st.2.isSome = true then .ok (.change, st.2) else .ok (.keep, some cur)

/-- lane_change_behavior.cpp:158-185 with the override of `ChooseLaneCorridor` above: `CheckIfLaneChangeBeneficial` of
`BehaviorMobilRuleBased` -/
noncomputable def mobilBeneficial {Box O : Type} (P : Plug ℝ St Act B E Sh Box O) (G : FRPlug ℝ St Act B E Sh Box Lane)
    (pi : ℝ) (n : Nat) (vel : St → ℝ) (len : Lane → St → ℝ) (prm : Prm ℝ) (p : Idm.Params) (e : EndPrm) (m : MobilPrm)
    (lanes : List Lane) (cur : Lane) (target : Option Lane) (ego : Nat) (w : World ℝ St Act B E Sh Box O) :
    Res (Decision × Option Lane) := do
  let infos ← scan P G pi n vel len ego w lanes
  let se ← egoState ego w
  mobilChoose p e m vel len se (fill P G pi n vel len ego w cur) (filters prm infos) cur target

end
end Bark.LaneChange
