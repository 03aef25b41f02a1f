import Verif.Model.ConstAcc
import Verif.Model.FrontRear
import Verif.Model.ClosedLoop

/-!
Model of what the IDM reacts to: `BaseIDM::CalcRelativeValues` (bark/models/behavior/idm/base_idm.cpp:170-256) with the front agent of
`Model/FrontRear`, and the planning of `BaseIDM::Plan` (base_idm.cpp:366-400) from the observed world. Numbers are reals, actions are those of
`Model/ConstAcc`.
-/
namespace Bark.Lead
open Bark

/-- base_idm.cpp:188-211: the vehicle in front as (distance, velocity along the corridor, acceleration of its last action). The acceleration is only read
with a positive coolness factor; other kinds of actions abort the process. -/
structure Leader where
  distance : ℝ
  velocity : ℝ
  acc : ℝ

section
variable {St B E Sh Box O Lane : Type}

/-- base_idm.cpp:192-210 for the front agent found -/
noncomputable def leader (G : FRPlug ℝ St CAcc.Act B E Sh Box Lane) (coolness : ℝ) (lane : Lane)
    (front : Option (Agent ℝ St CAcc.Act B E Sh) × FDiff ℝ) : Res (Option Leader) :=
  match front.1 with
  | none => .ok none
  | some a =>
    match a.history.getLast? with
    | none => .error .ub
    | some h =>
      if 0 < coolness then
        match CAcc.egoAcc h.2 with
        | .error f => .error f
        | .ok acc => .ok (some ⟨front.2.lon, (G.frenet lane h.1).vlon, acc⟩)
      else .ok (some ⟨front.2.lon, (G.frenet lane h.1).vlon, 0⟩)

end

/-- base_idm.cpp:179-231: the values for a leading vehicle and the end of the lane; `len` is `LengthUntilEnd` of the corridor at the ego's position -/
noncomputable def combine (e : CAcc.LaneEnd) (len : ℝ) (lead : Option Leader) : Idm.Rel :=
  if e.brake = true ∧ (CAcc.laneEnding e len).1 = true then
    match lead with
    | none => ⟨(CAcc.laneEnding e len).2, 0, 0, true⟩
    | some l =>
      ⟨min l.distance (CAcc.laneEnding e len).2, if min l.distance (CAcc.laneEnding e len).2 = (CAcc.laneEnding e len).2 then 0 else l.velocity,
        l.acc, true⟩
  else
    match lead with
    | none => ⟨0, 10 ^ 6, 0, false⟩
    | some l => ⟨l.distance, l.velocity, l.acc, true⟩

/-- base_idm.cpp:170-256 `CalcRelativeValues`: the own last action is looked at last -/
noncomputable def relValues (e : CAcc.LaneEnd) (len : ℝ) (lead : Res (Option Leader)) (last : CAcc.Act) : Res Idm.Rel :=
  match lead with
  | .error f => .error f
  | .ok l =>
    match CAcc.egoAcc last with
    | .error f => .error f
    | .ok _ => .ok (combine e len l)

section
variable {St B E Sh Box O Lane : Type}

/-- base_idm.cpp:170-256 from the observed world: observed_world.cpp:22-52 `GetAgentInFront` with the thresholds of the behaviour; the search is over the
`maxAgents + 1` agents nearest to the ego, not over those in the corridor -/
noncomputable def observedRel (P : Plug ℝ St CAcc.Act B E Sh Box O) (G : FRPlug ℝ St CAcc.Act B E Sh Box Lane) (thr : FRParams ℝ) (maxAgents : Nat)
    (coolness : ℝ) (e : CAcc.LaneEnd) (len : ℝ) (lane : Lane) (ego : Nat) (last : CAcc.Act)
    (w : World ℝ St CAcc.Act B E Sh Box O) : Res Idm.Rel :=
  match getAgentFrontRear P G thr maxAgents false (some lane) ego w with
  | .error f => .error f
  | .ok fr => relValues e len (leader G coolness lane fr.front) last

end
end Bark.Lead
