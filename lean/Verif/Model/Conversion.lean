import Verif.Model.Shape
import Verif.Model.Placement

/-!
Model of `bark/runtime/commons/model_json_conversion.py` (mjc.py) and of
`bark/runtime/scenario/scenario_generation/deterministic.py` (det.py). Names are lists of characters. Python's `eval` of
`Name(params)` is a lookup among the classes imported, which fails (`.thrown`) for any other text. Parameters of models are
values of a type `P`, goals and maps values of types `G` and `M`. Trajectories, which `agent_to_json` also writes, are not read
back and left out.
-/
namespace Bark.Conv

abbrev Name := List Char

/-- a class visible to Python: its name, the text its `__repr__` returns, if it has one, and whether an object can be created
from parameters alone -/
structure Class where
  name : Name
  repr : Option Name
  ctor : Bool
  deriving DecidableEq

/-- python_wrapper/models/behavior.cpp:38-457: behavior models -/
def behaviors : List Class :=
  [⟨"BehaviorModel".toList, none, true⟩,
   ⟨"BehaviorConstantAcceleration".toList, some "bark.behavior.BehaviorConstantAcceleration".toList, true⟩,
   ⟨"BehaviorIDMClassic".toList, some "bark.behavior.BehaviorIDMClassic".toList, true⟩,
   ⟨"BehaviorIDMLaneTracking".toList, some "bark.behavior.BehaviorIDMLaneTracking".toList, true⟩,
   ⟨"BehaviorLaneChangeRuleBased".toList, some "bark.behavior.BehaviorLaneChangeRuleBased".toList, true⟩,
   ⟨"BehaviorMobilRuleBased".toList, some "bark.behavior.BehaviorMobilRuleBased".toList, true⟩,
   ⟨"BehaviorIntersectionRuleBased".toList, some "bark.behavior.BehaviorIntersectionRuleBased".toList, true⟩,
   ⟨"BehaviorIDMStochastic".toList, some "bark.behavior.BehaviorIDMStochastic".toList, true⟩,
   ⟨"BehaviorMotionPrimitives".toList, none, false⟩,
   ⟨"BehaviorMPContinuousActions".toList, some "bark.behavior.BehaviorMPContinuousActions".toList, true⟩,
   ⟨"BehaviorMPMacroActions".toList, none, true⟩,
   ⟨"BehaviorRandomMacroActions".toList, none, true⟩,
   ⟨"BehaviorDynamicModel".toList, some "bark.behavior.BehaviorDynamicModel".toList, true⟩,
   ⟨"BehaviorStaticTrajectory".toList, some "bark.behavior.BehaviorStaticTrajectory".toList, true⟩,
   ⟨"BehaviorNotStarted".toList, some "bark.behavior.BehaviorNotStarted".toList, true⟩,
   ⟨"BehaviorSafety".toList, some "bark.behavior.BehaviorSafety".toList, true⟩,
   ⟨"BehaviorRSSConformant".toList, some "bark.behavior.BehaviorRSSConformant".toList, true⟩]

/-- python_wrapper/models/dynamic.cpp:23-76 -/
def dynamics : List Class :=
  [⟨"DynamicModel".toList, none, true⟩,
   ⟨"SingleTrackModel".toList, some "bark.dynamic.SingleTrackModel".toList, true⟩,
   ⟨"SingleTrackSteeringRateModel".toList, some "bark.dynamic.SingleTrackSteeringRateModel".toList, true⟩,
   ⟨"TripleIntegratorModel".toList, some "bark.dynamic.TripleIntegratorModel".toList, true⟩]

/-- python_wrapper/models/execution.cpp:21-36 -/
def executions : List Class :=
  [⟨"ExecutionModel".toList, none, true⟩,
   ⟨"ExecutionModelInterpolate".toList, some "bark.dynamic.ExecutionModelInterpolate".toList, true⟩]

/-- all classes imported by mjc.py:9-15 that are used as models -/
def classes : List Class := behaviors ++ dynamics ++ executions

/-- Python's `str` of an object: its `__repr__`, or the text of `object.__repr__` with the module path and the address -/
def str (c : Class) (path addr : Name) : Name :=
  match c.repr with
  | some r => r
  | none => '<' :: path ++ '.' :: c.name ++ " object at ".toList ++ addr ++ ['>']

/-- `s.split(".")[-1]` -/
def lastPart (s : Name) : Name := (s.reverse.takeWhile fun c => c != '.').reverse

/-- mjc.py:65-66 `convert_model` of an object -/
def nameOf (c : Class) (path addr : Name) : Name := lastPart (str c path addr)

/-- mjc.py:53-64 `convert_model` of a name, with parameters -/
def byName (cs : List Class) (n : Name) : Res Class :=
  match cs.find? fun c => decide (c.name = n) with
  | none => .error .thrown
  | some c => if c.ctor then .ok c else .error .thrown

/-- a model object: class, address and parameters -/
structure Obj (P : Type) where
  cls : Class
  path : Name
  addr : Name
  params : P

/-- an agent as far as converted -/
structure Agent (P G M : Type) where
  id : ℕ
  state : List ℝ
  behavior : Obj P
  dynamic : Obj P
  execution : Obj P
  shape : Shape.Poly
  goal : Option G
  map : Option M

/-- the dictionary of an agent; `none` is a missing key -/
structure Json (G M : Type) where
  state : Option (List ℝ)
  behavior : Option Name
  dynamic : Option Name
  execution : Option Name
  shape : Option (Shape.Pose × List Shape.Pt)
  goal : Option G
  map : Option M
  id : Option ℕ

variable {P G M : Type}

/-- mjc.py:39-51 `agent_to_json` -/
def toJson (a : Agent P G M) : Json G M where
  state := some a.state
  behavior := some (nameOf a.behavior.cls a.behavior.path a.behavior.addr)
  dynamic := some (nameOf a.dynamic.cls a.dynamic.path a.dynamic.addr)
  execution := some (nameOf a.execution.cls a.execution.path a.execution.addr)
  shape := some (a.shape.center, a.shape.pts)
  goal := none
  map := none
  id := some a.id

/-- a missing key raises -/
def key {α : Type} : Option α → Res α
  | some a => .ok a
  | none => .error .thrown

/-- mjc.py:29-31: a new object of the class named; `fresh` gives module path and address -/
def model (cs : List Class) (fresh : Class → Name × Name) (server : P) (n : Option Name) : Res (Obj P) := do
  let n ← key n
  let c ← byName cs n
  .ok ⟨c, (fresh c).1, (fresh c).2, server⟩

/-- mjc.py:26-37 `agent_from_json`; the id is the next of the counter (object.cpp:22), `big` the largest number (see
`Shape.ofPoints`). All models get the parameters passed -/
noncomputable def fromJson (big : ℝ) (cs : List Class) (fresh : Class → Name × Name) (newId : ℕ) (server : P) (j : Json G M) :
    Res (Agent P G M) := do
  let s ← key j.state
  let b ← model cs fresh server j.behavior
  let d ← model cs fresh server j.dynamic
  let e ← model cs fresh server j.execution
  let p ← key j.shape
  let g ← key j.goal
  let m ← key j.map
  .ok ⟨newId, s, b, d, e, Shape.ofPoints big p.1 p.2, some g, some m⟩

/-! ### DeterministicScenarioGeneration -/

/-- goals made by det.py:60-76 -/
inductive Goal where
  | polygon (p : Shape.Poly)
  | stateLimits (p : Shape.Poly) (lo hi : ℝ)
  | sequential (gs : List Goal)

/-- the state of an agent as given: numbers, or for every component a range -/
inductive StateSpec where
  | exact (l : List ℝ)
  | ranges (l : List (ℝ × ℝ))

/-- the parameters of an agent, det.py:57-85 -/
structure AgentSpec where
  id : ℕ
  state : StateSpec
  goalPoints : List Shape.Pt
  goalCenter : Shape.Pt
  limits : Bool
  behavior : Option Name
  dynamic : Option Name
  execution : Option Name
  shape : Option (Shape.Pose × List Shape.Pt)

/-- det.py:78-82: the state, with one random number per component -/
noncomputable def stateOf (u : ℕ → ℝ) (n : ℕ) : StateSpec → List ℝ × ℕ
  | .exact l => (l, n)
  | .ranges l => (l.zipIdx.map fun x => Place.uniform x.1.1 x.1.2 (u (n + x.2)), n + l.length)

/-- det.py:60-70: the goal that is to be reached -/
noncomputable def goalOf (big : ℝ) (a : AgentSpec) : Goal :=
  let p := Shape.translate (Shape.ofPoints big ⟨0, 0, 0⟩ a.goalPoints) a.goalCenter
  if a.limits then .stateLimits p (149 / 100) (165 / 100) else .polygon p

/-- det.py:57-86: one agent; the converter's id is replaced (85) -/
noncomputable def oneAgent (big : ℝ) (cs : List Class) (fresh : Class → Name × Name) (server : P) (map : M) (numReached : Option ℕ)
    (u : ℕ → ℝ) (n : ℕ) (a : AgentSpec) : Res (Agent P Goal M × ℕ) := do
  let g := Goal.sequential (List.replicate (numReached.getD 5) (goalOf big a))
  let s := stateOf u n a.state
  let ag ← fromJson big cs fresh 0 server ⟨some s.1, a.behavior, a.dynamic, a.execution, a.shape, some g, some map, some a.id⟩
  .ok ({ ag with id := a.id }, s.2)

/-- det.py:57-86: the agents in order -/
noncomputable def allAgents (big : ℝ) (cs : List Class) (fresh : Class → Name × Name) (server : P) (map : M) (numReached : Option ℕ)
    (u : ℕ → ℝ) : ℕ → List AgentSpec → Res (List (Agent P Goal M) × ℕ)
  | n, [] => .ok ([], n)
  | n, a :: as => do
    let (ag, n') ← oneAgent big cs fresh server map numReached u n a
    let (ags, m) ← allAgents big cs fresh server map numReached u n' as
    .ok (ag :: ags, m)

/-- det.py:51-91 `create_single_scenario`: agents and ids to evaluate -/
noncomputable def detScenario (big : ℝ) (cs : List Class) (fresh : Class → Name × Name) (server : P) (map : M)
    (numReached : Option ℕ) (controlled : Option (List ℕ)) (u : ℕ → ℝ) (n : ℕ) (as : List AgentSpec) :
    Res ((List (Agent P Goal M) × List ℕ) × ℕ) := do
  let (ags, m) ← allAgents big cs fresh server map numReached u n as
  .ok ((ags, controlled.getD [0]), m)

end Bark.Conv
