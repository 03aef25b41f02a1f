import Verif.Model.Basic
import Mathlib.Algebra.Order.Field.Basic

/-!
Model of the configurable scenario generation:
`bark/runtime/scenario/scenario_generation/configurable_scenario_generation.py` (abbreviated csg.py) and the config
readers `config_readers/agent_state_geometry_config_readers.py` (asg.py),
`config_readers/controlled_agents_config_readers.py` (cac.py), `config_readers/goal_definition_config_readers.py`
(gdc.py). Numbers are an ordered field; the random generator is a stream of samples from [0,1).
Python exceptions are `Fault.thrown`.
-/
namespace Bark.Gen

variable {K : Type} [Field K] [LinearOrder K]

/-- asg.py:75-79 `random_state.uniform(range[0], range[1])` (numpy: `low + (high - low) * u` for a sample `u`) -/
def uniform (r : K × K) (u : K) : K := r.1 + (r.2 - r.1) * u

/-- an agent placed on a lane: arc length at which it was placed, pose there, velocity -/
structure Placed (K P : Type) where
  s : K
  pose : P
  velocity : K
  deriving DecidableEq

/-- asg.py:91-105: the `while` loop. `len` is `front_dist + rear_dist` of the vehicle, `dist` and `vel` the configured
ranges, `u` the samples, `k` the number of samples drawn so far, `pose s` point and tangent angle of the center line at
`s` (asg.py:93-94), `hi` is `s_end*corridor_length`. The number of iterations is bounded by fuel. -/
def place {P : Type} (len : K) (dist vel : K × K) (u : Nat → K) (pose : K → P) (hi : K) :
    (fuel : Nat) → (s : K) → (k : Nat) → Res (List (Placed K P) × Nat)
  | 0, _, _ => .error .diverges
  | fuel + 1, s, k =>
    if s < hi then
      match place len dist vel u pose hi fuel (s + (len + uniform dist (u (k + 1)))) (k + 2) with
      | .ok (l, k') => .ok (⟨s, pose s, uniform vel (u k)⟩ :: l, k')
      | .error f => .error f
    else .ok ([], k)

/-- a lane corridor, as far as placing needs it: length of the center line and poses along it -/
structure Lane (K P : Type) where
  length : K
  pose : K → P

/-- asg.py:82-106 `agents_along_lane_corridor` -/
def alongLane {P : Type} (len : K) (dist vel srange : K × K) (u : Nat → K) (fuel : Nat) (l : Lane K P) (k : Nat) :
    Res (List (Placed K P) × Nat) :=
  place len dist vel u l.pose (srange.2 * l.length) fuel (srange.1 * l.length) k

/-- python list indexing with a non-negative index -/
def index {α : Type} (l : List α) (i : Nat) : Res α :=
  match l[i]? with
  | some a => .ok a
  | none => .error .thrown

/-- asg.py:65-73 `select_lane_corridors`: the selected lane corridors with the positions reported for them; `none` and
the empty list select all lanes, which are then numbered from 1. Negative positions are not modelled. -/
def selectLanes {L : Type} (lanes : List L) : Option (List Nat) → Res (List (L × Nat))
  | some (p :: ps) => (p :: ps).mapM fun i => (index lanes i).map fun l => (l, i)
  | _ => .ok (lanes.zipIdx 1)

/-- asg.py:52-58: the loop over the selected lanes; agents with the lane position reported for them -/
def placeAll {P : Type} (len : K) (dist vel srange : K × K) (u : Nat → K) (fuel : Nat) :
    List (Lane K P × Nat) → Nat → Res (List (Placed K P × Nat) × Nat)
  | [], k => .ok ([], k)
  | (l, pos) :: ls, k =>
    match alongLane len dist vel srange u fuel l k with
    | .error f => .error f
    | .ok (a, k') =>
      match placeAll len dist vel srange u fuel ls k' with
      | .error f => .error f
      | .ok (b, k'') => .ok (a.map (fun x => (x, pos)) ++ b, k'')

/-- asg.py:29-62 `UniformVehicleDistribution.create_from_config` -/
def uniformVehicles {P : Type} (len : K) (dist vel srange : K × K) (lanePositions : Option (List Nat)) (u : Nat → K)
    (fuel : Nat) (lanes : List (Lane K P)) (k : Nat) : Res (List (Placed K P × Nat) × Nat) :=
  match selectLanes lanes lanePositions with
  | .error f => .error f
  | .ok sel => placeAll len dist vel srange u fuel sel k

/-! ### goals -/

/-- gdc.py: the goal types of `GoalGenerator` -/
inductive GoalType where
  | endOfLane
  | laneChangeRight
  | laneChangeLeft
  deriving DecidableEq

/-- gdc.py:29-52: the lane corridor on whose center line the goal is defined, given the number of lane corridors; the
limits of the goal (gdc.py:54-67) are the same for all and not modelled here -/
def goalLane (n : Nat) (pos : Nat) : GoalType → Res Nat
  | .endOfLane => if pos < n then .ok pos else .error .thrown
  | .laneChangeRight => if pos + 1 < n then .ok (pos + 1) else .error .thrown
  | .laneChangeLeft =>
    if 1 ≤ pos then (if pos - 1 < n then .ok (pos - 1) else .error .thrown) else .error .thrown

/-- gdc.py:19-27 `get_goal_definition`: unless enforced, a failing goal is replaced by the end of the lane -/
def getGoal (n pos : Nat) (t : GoalType) (enforce : Bool) : Res Nat :=
  match goalLane n pos t, enforce with
  | .ok g, _ => .ok g
  | .error f, true => .error f
  | .error _, false => goalLane n pos .endOfLane

/-- gdc.py:76-86: settings of `FixedGoalTypes` -/
structure GoalConfig where
  controlled : GoalType
  enforceControlled : Bool
  others : GoalType
  enforceOthers : Bool
  sequentialEgo : Bool
  steps : Nat

/-- gdc.py:92-103: the goal of one agent: lane of the goal and the number of times it has to be reached in sequence
(`none`: a plain goal) -/
def goalOf (c : GoalConfig) (n : Nat) (pos : Nat) (ctrl : Bool) : Res (Nat × Option Nat) :=
  if ctrl then (getGoal n pos c.controlled c.enforceControlled).map fun g =>
    (g, if c.sequentialEgo then some c.steps else none)
  else (getGoal n pos c.others c.enforceOthers).map fun g => (g, none)

/-- gdc.py:88-104 `FixedGoalTypes.create_from_config` -/
def fixedGoals (c : GoalConfig) (n : Nat) : List (Nat × Bool) → Res (List (Nat × Option Nat))
  | [] => .ok []
  | (pos, ctrl) :: l =>
    match goalOf c n pos ctrl with
    | .error f => .error f
    | .ok g =>
      match fixedGoals c n l with
      | .error f => .error f
      | .ok gs => .ok (g :: gs)

/-! ### controlled agents -/

/-- cac.py: the readers selecting the controlled agents -/
inductive Selection where
  /-- `NoneControlled` -/
  | nobody
  /-- `RandomSingleAgent` -/
  | random
  /-- `PositioningSingleAgent` with the lane position and the formula "where on lane" -/
  | positioning (lane : Nat) (whereOn : Nat → Nat)
  /-- `AgentIds` -/
  | ids (controlled : List Nat)

/-- `l[i] = True` on a list of `n` times `False` -/
def single (n i : Nat) : Res (List Bool) :=
  if i < n then .ok ((List.replicate n false).set i true) else .error .thrown

/-- cac.py:13-53 `create_from_config`: `draw` is the sample of `randint(0, n)` (an exception for `n = 0`), `lanePos` the
reported lane positions of the `n` agents, `agentIds` the ids passed on by the state reader (`none`: not passed) -/
def selectControlled (n : Nat) (draw : Nat) (lanePos : List Nat) (agentIds : Option (List Nat)) : Selection → Res (List Bool)
  | .nobody => .ok (List.replicate n false)
  | .random => if n = 0 then .error .thrown else single n draw
  | .positioning lane whereOn => single n (whereOn (lanePos.filter (· = lane)).length)
  | .ids controlled =>
    match agentIds with
    | some l => .ok (l.map fun i => controlled.contains i)
    | none => .error .thrown

/-! ### assembling the scenario -/

/-- what the config readers return for one source/sink configuration (lists per agent) and its road corridor -/
structure Source (S G B E D O C : Type) where
  states : List S
  geometries : List G
  behaviors : List B
  executions : List E
  dynamics : List D
  controlled : List Bool
  goals : List O
  corridor : C

/-- a generated agent -/
structure Agent (S G B E D O C : Type) where
  id : Nat
  state : S
  geometry : G
  behavior : B
  execution : E
  dynamic : D
  goal : O
  corridor : C
  deriving DecidableEq

section
variable {S G B E D O C : Type}

/-- csg.py:422-437 the loop of `create_source_config_agents`: agent `i` gets id `i` (csg.py:433-436, no ids are passed) -/
def buildAgents (corr : C) : Nat → List S → List G → List B → List E → List D → List O → List (Agent S G B E D O C)
  | i, s :: ss, g :: gs, b :: bs, e :: es, d :: ds, o :: os =>
    ⟨i, s, g, b, e, d, o, corr⟩ :: buildAgents corr (i + 1) ss gs bs es ds os
  | _, _, _, _, _, _, _ => []

/-- csg.py:415-437 `create_source_config_agents` and csg.py:228-230 `update_road_corridors` -/
def sourceAgents (x : Source S G B E D O C) : Res (List (Agent S G B E D O C)) :=
  let n := x.states.length
  if x.geometries.length ≠ n ∨ x.behaviors.length ≠ n ∨ x.executions.length ≠ n ∨ x.dynamics.length ≠ n ∨
      x.goals.length ≠ n ∨ x.controlled.length ≠ n then .error .thrown
  else .ok (buildAgents x.corridor 0 x.states x.geometries x.behaviors x.executions x.dynamics x.goals)

/-- csg.py:145-213: the loop over the sources: agents and flags of all sources so far; sources without agents are
skipped. The readers of later sources run after the agents of earlier ones were built; their results are given. -/
def collect : List (Source S G B E D O C) → Res (List (Agent S G B E D O C) × List Bool)
  | [] => .ok ([], [])
  | x :: xs =>
    if x.states = [] then collect xs
    else
      match sourceAgents x with
      | .error f => .error f
      | .ok as =>
        match collect xs with
        | .error f => .error f
        | .ok (bs, cs) => .ok (as ++ bs, x.controlled ++ cs)

/-- csg.py:218: `[i for i, val in enumerate(controlled_agent_ids_all) if val]` -/
def evalIds (cs : List Bool) : List Nat := (cs.zipIdx.filter (·.1)).map (·.2)

/-- csg.py:232-235 `update_agent_ids` -/
def renumber (as : List (Agent S G B E D O C)) : List (Agent S G B E D O C) :=
  as.zipIdx.map fun p => { p.1 with id := p.2 }

/-- a generated scenario -/
structure Scenario (S G B E D O C : Type) where
  agents : List (Agent S G B E D O C)
  evalAgentIds : List Nat

/-- csg.py:119-226 `create_single_scenario` after the readers -/
def scenario (xs : List (Source S G B E D O C)) : Res (Scenario S G B E D O C) :=
  match collect xs with
  | .error f => .error f
  | .ok (as, cs) => .ok ⟨renumber as, evalIds cs⟩

end
end Bark.Gen
