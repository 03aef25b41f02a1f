import Verif.Model.Basic
import Mathlib.Algebra.Order.Field.Basic

/-!
Model of the scenarios made from a recorded data set:
`bark/runtime/scenario/interaction_dataset_processing/interaction_dataset_reader.py` (idr.py), `dataset_decomposer.py`
(dec.py), `agent_track_info.py` (ati.py), `scenario_track_info.py` (sti.py) and
`scenario_generation/interaction_dataset_scenario_generation_full.py` (full.py), `interaction_dataset_scenario_generation.py`
(one.py).

Time stamps are integers (milliseconds), all other numbers are exact. A track file is the list of its tracks, a track the
list of its motion states in the order of the file. Reading the file is not modelled.
-/
namespace Bark.Data

/-- a recorded motion state (of the external `dataset_reader`) -/
structure Motion (K : Type) where
  t : Int
  x : K
  y : K
  psi : K
  vx : K
  vy : K

/-- a row of a trajectory of the simulator -/
structure St (K : Type) where
  time : K
  x : K
  y : K
  theta : K
  vel : K
  deriving DecidableEq

/-- a recorded track -/
structure Track (K : Type) where
  id : Nat
  car : Bool
  length : K
  width : K
  motions : List (Motion K)

/-- ati.py:11: `int(round(t, -2))`: to hundreds, halves to the even hundred -/
def round100 (t : Int) : Int :=
  let q := t / 100
  let r := t % 100
  if r < 50 then 100 * q else if 50 < r then 100 * (q + 1) else if q % 2 = 0 then 100 * q else 100 * (q + 1)

section
variable {K : Type} [Field K] [LinearOrder K] (norm : K → K) (speed : K → K → K)

/-- idr.py:25-38 `BarkStateFromMotionState`: `norm` is `NormToPI`, `speed` the root of the sum of squares -/
def barkState (off : K × K) (toff : Int) (m : Motion K) : St K :=
  ⟨((m.t - toff : Int) : K) / 1000, m.x + off.1, m.y + off.2, norm m.psi, speed m.vx m.vy⟩

/-- idr.py:41-53 `TrajectoryFromTrack` -/
def trajectory (off : K × K) (start : Int) (stop : Option Int) (ms : List (Motion K)) : Res (List (St K)) :=
  match stop, ms.getLast? with
  | none, none => .error .thrown
  | none, some l => .ok ((ms.filter fun m => decide (start ≤ m.t ∧ m.t ≤ l.t)).map (barkState norm speed off start))
  | some e, _ => .ok ((ms.filter fun m => decide (start ≤ m.t ∧ m.t ≤ e)).map (barkState norm speed off start))

/-- `min(track.motion_states)` of the time stamps -/
def minTime : List (Motion K) → Option Int
  | [] => none
  | m :: ms =>
    match minTime ms with
    | none => some m.t
    | some t => some (if m.t ≤ t then m.t else t)

/-- idr.py:73-80 `InitStateFromTrack` -/
def initState (off : K × K) (start : Int) (ms : List (Motion K)) : Res (St K) :=
  match minTime ms with
  | none => .error .thrown
  | some t0 =>
    match ms.find? fun m => m.t = (if start < t0 then t0 else start) with
    | none => .error .thrown
    | some m => .ok (barkState norm speed off m.t m)

/-- idr.py:83-99 `GoalDefinitionFromTrack`: center of the square goal (side 12), the position of the last state -/
def goalCenter (off : K × K) (ms : List (Motion K)) : Res (K × K) :=
  match ms.getLast? with
  | none => .error .thrown
  | some m => .ok (m.x + off.1, m.y + off.2)

/-! ### decomposing a track file -/

/-- ati.py:8-12 `AgentTrackInfo` (the file name is left out) -/
structure Info where
  id : Nat
  start : Int
  stop : Int
  deriving DecidableEq

/-- ati.py:8-12 -/
def mkInfo (id : Nat) (start stop : Int) : Info := ⟨id, round100 start, round100 stop⟩

/-- dec.py:32-51 `__find_first_ts_on_map__`: `onMap` is the test of dec.py:36-45 on a state; the time of a row in
milliseconds is the time stamp of its motion state -/
def firstOnMap (onMap : St K → Bool) (off : K × K) (startOff : Int) (ms : List (Motion K)) : Res (Option Int) :=
  match ms.getLast? with
  | none => .error .thrown
  | some l =>
    match ms.find? fun m => decide (0 ≤ m.t ∧ m.t ≤ l.t) && onMap (barkState norm speed off 0 m) with
    | none => .ok none
    | some m => .ok (some (m.t + startOff))

/-- dec.py:56-74: the entry of one track; `time_stamp_ms_last` is the last time stamp of the track -/
def trackInfo (onMap : St K → Bool) (off : K × K) (startOff : Int) (maxLen : K) (tr : Track K) : Res (Option Info) :=
  match firstOnMap norm speed onMap off startOff tr.motions, tr.motions.getLast? with
  | .error f, _ => .error f
  | .ok none, _ => .ok none
  | .ok (some t), some l =>
    if tr.car = false then .ok none
    else if maxLen < tr.length then .ok none
    else .ok (some (mkInfo tr.id t l.t))
  | .ok (some _), none => .error .thrown

/-- dec.py:53-75 `__setup_agents_track_infos__` -/
def trackInfos (onMap : St K → Bool) (off : K × K) (startOff : Int) (maxLen : K) : List (Track K) → Res (List Info)
  | [] => .ok []
  | tr :: trs =>
    match trackInfo norm speed onMap off startOff maxLen tr with
    | .error f => .error f
    | .ok i =>
      match trackInfos onMap off startOff maxLen trs with
      | .error f => .error f
      | .ok is => .ok (i.toList ++ is)

/-- dec.py:83-101 `__find_other_ids__` -/
def findOthers (infos : List Info) (ego : Info) : List Info :=
  infos.filter fun o => !(decide (ego.id = o.id) || decide (o.stop ≤ ego.start) || decide (ego.stop ≤ o.start))

/-- sti.py:8-23 `ScenarioTrackInfo` -/
structure ScenInfo where
  ego : Info
  start : Int
  stop : Int
  others : List Info
  deriving DecidableEq

/-- sti.py:8-23 with the times of the ego -/
def mkScen (ego : Info) : ScenInfo := ⟨ego, round100 ego.start, round100 ego.stop, []⟩

/-- `d[k] = v` for infos by id -/
def putInfo (o : Info) : List Info → List Info
  | [] => [o]
  | p :: ps => if p.id = o.id then o :: ps else p :: putInfo o ps

/-- sti.py:32-36 `AddTrackInfoOtherAgent` -/
def addOther (s : ScenInfo) (o : Info) : Res ScenInfo :=
  if s.stop < o.start then .error .thrown else .ok { s with others := putInfo o s.others }

/-- dec.py:110-113 -/
def addOthers : ScenInfo → List Info → Res ScenInfo
  | s, [] => .ok s
  | s, o :: os =>
    match addOther s o with
    | .error f => .error f
    | .ok s' => addOthers s' os

/-- dec.py:103-122 `decompose` for the infos of a file -/
def decompose (infos : List Info) : Res (List ScenInfo) :=
  infos.mapM fun e => addOthers (mkScen e) (findOthers infos e)

/-! ### agents and scenarios -/

/-- sti.py:58-66 `GetTimeOffsetOfAgentInSec` -/
def timeOffset (s : ScenInfo) (id : Nat) : Res K :=
  if id = s.ego.id then .ok 0
  else match s.others.find? fun o => o.id = id with
    | none => .error .thrown
    | some o => .ok (((o.start - s.start : Int) : K) / 1000)

/-- sti.py:68-76 `TimeSanityCheck` -/
def sane (s : ScenInfo) : Res Unit :=
  if s.start < s.ego.start then .error .thrown else if s.ego.stop < s.stop then .error .thrown else .ok ()

/-- an agent made from a track; `recorded` is `none` if it follows a behavior model instead of the recorded trajectory -/
structure Made (K : Type) where
  id : Nat
  recorded : Option (List (St K))
  init : St K
  wheelBase : K
  radius : K
  goal : K × K
  firstValid : Option K

/-- idr.py:156-161: the time of the initial state -/
def initStart (s : ScenInfo) (id : Nat) : Int :=
  match s.others.find? fun o => o.id = id with
  | some o => if o.start < s.start then s.start else o.start
  | none => s.start

/-- idr.py:128-212 `AgentFromTrackfile`; parameters, dynamic and execution model are left out. The rectangle or limousine
is given by wheel base and radius (idr.py:56-70, 168-173). -/
def agentFrom (off : K × K) (trs : List (Track K)) (s : ScenInfo) (useModel : Bool) (id : Nat) : Res (Made K) :=
  if id = s.ego.id ∨ (s.others.any fun o => o.id = id) then
    match trs.find? fun tr => tr.id = id with
    | none => .error .thrown
    | some tr =>
      match trajectory norm speed off s.start (some s.stop) tr.motions,
        initState norm speed off (initStart s id) tr.motions, goalCenter off tr.motions with
      | .ok rows, .ok i, .ok g =>
        .ok ⟨id, if useModel then none else some rows, i, tr.length - 2 * (tr.width / 2), tr.width / 2, g, none⟩
      | _, _, _ => .error .thrown
  else .error .thrown

/-- a generated scenario -/
structure Scen (K : Type) where
  agents : List (Made K)
  evalIds : List Nat

/-- full.py:127-150: the agents of a scenario; others follow the behavior model if there is one -/
def makeAgents (off : K × K) (trs : List (Track K)) (s : ScenInfo) (model : Bool) : List Nat → Res (List (Made K))
  | [] => .ok []
  | id :: ids =>
    match agentFrom norm speed off trs s (model && decide (id ≠ s.ego.id)) id, timeOffset (K := K) s id with
    | .ok a, .ok v =>
      match makeAgents off trs s model ids with
      | .error f => .error f
      | .ok as => .ok ({ a with firstValid := some v } :: as)
    | _, _ => .error .thrown

/-- full.py:107-156 `__create_single_scenario__` -/
def singleScenario (off : K × K) (trs : List (Track K)) (model : Bool) (s : ScenInfo) : Res (Scen K) :=
  match sane s with
  | .error f => .error f
  | .ok () =>
    match makeAgents norm speed off trs s model (s.others.map Info.id ++ [s.ego.id]) with
    | .error f => .error f
    | .ok as => .ok ⟨as, [s.ego.id]⟩

/-- full.py:93-104: the loop over the scenarios of one file, which ends at the first scenario that is excluded or beyond
the wanted number -/
def fileLoop (off : K × K) (trs : List (Track K)) (model : Bool) (num : Nat) (excluded : List Nat) :
    Nat → List ScenInfo → Res (List (Scen K))
  | _, [] => .ok []
  | i, s :: ss =>
    if i < num ∧ s.ego.id ∉ excluded then
      match singleScenario norm speed off trs model s with
      | .error _ => .error .thrown
      | .ok sc =>
        match fileLoop off trs model num excluded (i + 1) ss with
        | .error f => .error f
        | .ok r => .ok (sc :: r)
    else .ok []

/-- settings of full.py:34-66 that matter here -/
structure Config (K : Type) where
  off : K × K
  startOff : Int
  maxLen : K
  model : Bool
  excluded : List Nat

/-- full.py:81-104: one track file -/
def fileScenarios (onMap : St K → Bool) (c : Config K) (num : Nat) (trs : List (Track K)) : Res (List (Scen K)) :=
  match trackInfos norm speed onMap c.off c.startOff c.maxLen trs with
  | .error f => .error f
  | .ok infos =>
    match decompose infos with
    | .error f => .error f
    | .ok ss => fileLoop norm speed c.off trs c.model num c.excluded 0 ss

/-- full.py:72-105 `create_scenarios` -/
def createScenarios (onMap : St K → Bool) (c : Config K) (num : Nat) : List (List (Track K)) → Res (List (Scen K))
  | [] => .ok []
  | f :: fs =>
    match fileScenarios norm speed onMap c num f with
    | .error e => .error e
    | .ok a =>
      match createScenarios onMap c num fs with
      | .error e => .error e
      | .ok b => .ok (a ++ b)

/-! ### replaying chosen tracks -/

/-- one.py:106-118: the agents; `models` are the ids with a behavior model of their own -/
def replayAgents (off : K × K) (trs : List (Track K)) (s : ScenInfo) (models : List Nat) : List Nat → Res (List (Made K))
  | [] => .ok []
  | id :: ids =>
    match agentFrom norm speed off trs s (decide (id ∈ models)) id with
    | .error f => .error f
    | .ok a =>
      match replayAgents off trs s models ids with
      | .error f => .error f
      | .ok as => .ok (a :: as)

/-- one.py:57-124 `create_scenarios`; the ego is `none` for the id -1, a missing end raises in `round` -/
def replay (off : K × K) (trs : List (Track K)) (ids : List Nat) (ego : Option Nat) (start : Int) (stop : Option Int)
    (models : List Nat) (num : Nat) : Res (List (Scen K)) :=
  if num ≠ 1 then .error .thrown
  else match ego, stop with
    | some e, some t =>
      match addOthers (mkScen (mkInfo e start t)) (ids.map fun i => mkInfo i start t) with
      | .error f => .error f
      | .ok s =>
        match sane s with
        | .error f => .error f
        | .ok () =>
          match replayAgents norm speed off trs s models (s.others.map Info.id ++ [e]) with
          | .error f => .error f
          | .ok as => .ok [⟨as, [e]⟩]
    | _, _ => .error .thrown

end
end Bark.Data
