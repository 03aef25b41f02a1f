import Verif.Model.Basic

/-!
Model of `bark/python_wrapper/polymorphic_conversion.cpp`: the conversion of polymorphic C++ objects
to the tuple (object, type name) and back, inside one process.

`A` is the data of an object.  An object carries in `py` the Python instance its virtual functions
are dispatched to: only objects of classes written in Python (C++ type `PyBehaviorModel`) have one.
Trusted about pybind11: `make_tuple` of a shared pointer yields the Python object of the most derived
registered class, `cast<T>()` throws for an object whose registered class does not derive from `T` and
otherwise copy-constructs a `T`, and a copy made that way belongs to no Python instance.
`LOG(FATAL)` aborts and a bare `throw;` outside of a handler terminates; both are `thrown`.
Left out: the classes of the optional planners (`PLANNER_UCT`, `PLANNER_MIQP`, `PLANNER_RULES_MCTS`)
and the logging.
-/
namespace Bark.Py

/-- an object: dynamic type, data, Python instance its virtual functions belong to -/
structure Obj (C A : Type) where
  cls : C
  data : A
  py : Option Nat
  deriving DecidableEq, Repr

/-- first component of the tuple -/
inductive Item (C A : Type) where
  | text (s : String)
  | obj (o : Obj C A)
  deriving DecidableEq, Repr

/-- `t[0].cast<T>()` followed by `std::make_shared<T>(…)`; `bases c` are the classes other than `c` and the
common base that the Python class of `c` is declared to derive from -/
def castTo {C A : Type} [DecidableEq C] (bases : C → List C) (copy : C → A → A) (t : C) :
    Item C A → Res (Obj C A)
  | .text _ => .error .thrown
  | .obj o => if o.cls = t ∨ t ∈ bases o.cls then .ok ⟨t, copy t o.data, none⟩ else .error .thrown

/-- a type table applied to a name: the class, or `thrown` for an unknown name -/
def fromName {C A : Type} [DecidableEq C] (table : String → Option C) (bases : C → List C)
    (copy : C → A → A) (t : Item C A × String) : Res (Obj C A) :=
  match table t.2 with
  | some c => castTo bases copy c t.1
  | none => .error .thrown

/-- a type table applied to an object -/
def toName {C A : Type} (table : C → Option String) (o : Obj C A) : Res (Item C A × String) :=
  match table o.cls with
  | some n => .ok (.obj o, n)
  | none => .error .thrown

/-! ### Behaviour models -/

/-- behaviour classes of the core library (`py`: classes written in Python; `foreign`: any other
class derived from `BehaviorModel`) -/
inductive BCls where
  | constantAcceleration
  | idmLaneTracking
  | idmClassic
  | intersectionRuleBased
  | laneChangeRuleBased
  | mobilRuleBased
  | staticTrajectory
  | notStarted
  | dynamicModel
  | py
  | idmStochastic
  | mpMacroActions
  | safety
  | rssConformant
  | randomMacroActions
  | mpContinuousActions
  | foreign (n : Nat)
  deriving DecidableEq, Repr

/-- polymorphic_conversion.cpp:150-180: chain of `typeid` comparisons -/
def behaviorTo (c : BCls) : Option String :=
  if c = .constantAcceleration then some "BehaviorConstantAcceleration"
  else if c = .idmLaneTracking then some "BehaviorIDMLaneTracking"
  else if c = .idmClassic then some "BehaviorIDMClassic"
  else if c = .intersectionRuleBased then some "BehaviorIntersectionRuleBased"
  else if c = .laneChangeRuleBased then some "BehaviorLaneChangeRuleBased"
  else if c = .mobilRuleBased then some "BehaviorMobilRuleBased"
  else if c = .staticTrajectory then some "BehaviorStaticTrajectory"
  else if c = .notStarted then some "BehaviorNotStarted"
  else if c = .dynamicModel then some "BehaviorDynamicModel"
  else if c = .py then some "PyBehaviorModel"
  else if c = .idmStochastic then some "BehaviorIDMStochastic"
  else if c = .mpMacroActions then some "BehaviorMPMacroActions"
  else if c = .safety then some "BehaviorSafety"
  else if c = .rssConformant then some "BehaviorRSSConformant"
  else if c = .randomMacroActions then some "BehaviorRandomMacroActions"
  else none

/-- polymorphic_conversion.cpp:214-260: chain of name comparisons -/
def behaviorFrom (n : String) : Option BCls :=
  if n = "BehaviorConstantAcceleration" then some .constantAcceleration
  else if n = "BehaviorIDMLaneTracking" then some .idmLaneTracking
  else if n = "BehaviorIDMClassic" then some .idmClassic
  else if n = "BehaviorIntersectionRuleBased" then some .intersectionRuleBased
  else if n = "BehaviorLaneChangeRuleBased" then some .laneChangeRuleBased
  else if n = "BehaviorStaticTrajectory" then some .staticTrajectory
  else if n = "BehaviorNotStarted" then some .notStarted
  else if n = "BehaviorMobilRuleBased" then some .mobilRuleBased
  else if n = "PyBehaviorModel" then some .py
  else if n = "BehaviorDynamicModel" then some .dynamicModel
  else if n = "BehaviorIDMStochastic" then some .idmStochastic
  else if n = "BehaviorMPMacroActions" then some .mpMacroActions
  else if n = "BehaviorSafety" then some .safety
  else if n = "BehaviorRSSConformant" then some .rssConformant
  else if n = "BehaviorRandomMacroActions" then some .randomMacroActions
  else none

/-- python_wrapper/models/behavior.cpp: base classes given to `py::class_` other than `BehaviorModel`
(line 254 for the random macro actions).  The trampoline `PyBehaviorModel` shares the registration of
`BehaviorModel` (line 38), so that every behaviour can be cast to it. -/
def behaviorBases (c : BCls) : List BCls :=
  if c = .randomMacroActions then [.mpMacroActions, .py] else [.py]

/-- polymorphic_conversion.cpp:144-211 `BehaviorModelToPython`; `none` = null pointer -/
def behaviorToPython {A : Type} : Option (Obj BCls A) → Res (Item BCls A × String)
  | none => .ok (.text "None", "None")
  | some o => toName behaviorTo o

/-- polymorphic_conversion.cpp:213-300 `PythonToBehaviorModel`.  Casting an object that is not one to
the trampoline class treats it as an object of the wrong class. -/
def pythonToBehavior {A : Type} (copy : BCls → A → A) (t : Item BCls A × String) :
    Res (Option (Obj BCls A)) :=
  if t.2 = "None" then .ok none
  else match t.1 with
    | .text _ => .error .thrown
    | .obj o =>
      if behaviorFrom t.2 = some .py ∧ o.cls ≠ .py then .error .ub
      else fromName behaviorFrom behaviorBases copy t >>= fun r => .ok (some r)

/-! ### Goal definitions -/

/-- goal definition classes -/
inductive GCls where
  | polygon
  | stateLimits
  | sequential
  | stateLimitsFrenet
  | foreign (n : Nat)
  deriving DecidableEq, Repr

/-- polymorphic_conversion.cpp:304-316 -/
def goalTo (c : GCls) : Option String :=
  if c = .polygon then some "GoalDefinitionPolygon"
  else if c = .stateLimits then some "GoalDefinitionStateLimits"
  else if c = .sequential then some "GoalDefinitionSequential"
  else if c = .stateLimitsFrenet then some "GoalDefinitionStateLimitsFrenet"
  else none

/-- polymorphic_conversion.cpp:321-338 -/
def goalFrom (n : String) : Option GCls :=
  if n = "GoalDefinitionPolygon" then some .polygon
  else if n = "GoalDefinitionStateLimits" then some .stateLimits
  else if n = "GoalDefinitionSequential" then some .sequential
  else if n = "GoalDefinitionStateLimitsFrenet" then some .stateLimitsFrenet
  else none

/-- polymorphic_conversion.cpp:302-318 `GoalDefinitionToPython`; a null pointer is dereferenced -/
def goalToPython {A : Type} : Option (Obj GCls A) → Res (Item GCls A × String)
  | none => .error .ub
  | some o => toName goalTo o

/-- polymorphic_conversion.cpp:320-339 `PythonToGoalDefinition`; no two of the classes are declared to derive from each other -/
def pythonToGoal {A : Type} (copy : GCls → A → A) (t : Item GCls A × String) : Res (Obj GCls A) :=
  fromName goalFrom (fun _ => []) copy t

/-! ### Dynamic models -/

/-- dynamic model classes -/
inductive DCls where
  | singleTrackModel
  | singleTrackSteeringRateModel
  | tripleIntegratorModel
  | foreign (n : Nat)
  deriving DecidableEq, Repr

/-- polymorphic_conversion.cpp:343-350 -/
def dynamicTo (c : DCls) : Option String :=
  if c = .singleTrackModel then some "SingleTrackModel"
  else if c = .singleTrackSteeringRateModel then some "SingleTrackSteeringRateModel"
  else none

/-- polymorphic_conversion.cpp:354-364 -/
def dynamicFrom (n : String) : Option DCls :=
  if n = "SingleTrackModel" then some .singleTrackModel
  else if n = "SingleTrackSteeringRateModel" then some .singleTrackSteeringRateModel
  else none

/-- polymorphic_conversion.cpp:341-352 `DynamicModelToPython`; a null pointer is dereferenced -/
def dynamicToPython {A : Type} : Option (Obj DCls A) → Res (Item DCls A × String)
  | none => .error .ub
  | some o => toName dynamicTo o

/-- polymorphic_conversion.cpp:353-365 `PythonToDynamicModel`; no two of the classes are declared to derive from each other -/
def pythonToDynamic {A : Type} (copy : DCls → A → A) (t : Item DCls A × String) : Res (Obj DCls A) :=
  fromName dynamicFrom (fun _ => []) copy t

/-! ### Primitives -/

/-- primitive classes -/
inductive PCls where
  | gapKeeping
  | constAccStayLane
  | constAccChangeToLeft
  | constAccChangeToRight
  | foreign (n : Nat)
  deriving DecidableEq, Repr

/-- polymorphic_conversion.cpp:378-389 -/
def primitiveTo (c : PCls) : Option String :=
  if c = .gapKeeping then some "PrimitiveGapKeeping"
  else if c = .constAccStayLane then some "PrimitiveConstAccStayLane"
  else if c = .constAccChangeToLeft then some "PrimitiveConstAccChangeToLeft"
  else if c = .constAccChangeToRight then some "PrimitiveConstAccChangeToRight"
  else none

/-- polymorphic_conversion.cpp:393-410 -/
def primitiveFrom (n : String) : Option PCls :=
  if n = "PrimitiveGapKeeping" then some .gapKeeping
  else if n = "PrimitiveConstAccStayLane" then some .constAccStayLane
  else if n = "PrimitiveConstAccChangeToLeft" then some .constAccChangeToLeft
  else if n = "PrimitiveConstAccChangeToRight" then some .constAccChangeToRight
  else none

/-- polymorphic_conversion.cpp:376-391 `PrimitiveToPython`; a null pointer is dereferenced -/
def primitiveToPython {A : Type} : Option (Obj PCls A) → Res (Item PCls A × String)
  | none => .error .ub
  | some o => toName primitiveTo o

/-- polymorphic_conversion.cpp:392-412 `PythonToPrimitive`; no two of the classes are declared to derive from each other -/
def pythonToPrimitive {A : Type} (copy : PCls → A → A) (t : Item PCls A × String) : Res (Obj PCls A) :=
  fromName primitiveFrom (fun _ => []) copy t

/-! ### Label functions -/

/-- label function classes; `collisionEgo` is `GenericEgoLabelFunction<EvaluatorCollisionEgoAgent>` -/
inductive LCls where
  | safeDistance
  | laneChange
  | belowSpeedLimit
  | egoBelowSpeedLimit
  | agentNear
  | agentBeyondPoint
  | egoBeyondPoint
  | succeedingAgent
  | agentAtLaneEnd
  | leftOf
  | rightOf
  | frontOf
  | behindOf
  | egoRightmostLane
  | rightmostLane
  | egoLeftmostLane
  | onRoad
  | collisionEgo
  | constant
  | denseTraffic
  | egoAccelerate
  | relSpeed
  | foreign (n : Nat)
  deriving DecidableEq, Repr

/-- polymorphic_conversion.cpp:416-473 -/
def labelTo (c : LCls) : Option String :=
  if c = .safeDistance then some "SafeDistanceLabelFunction"
  else if c = .laneChange then some "LaneChangeLabelFunction"
  else if c = .belowSpeedLimit then some "BelowSpeedLimitLabelFunction"
  else if c = .egoBelowSpeedLimit then some "EgoBelowSpeedLimitLabelFunction"
  else if c = .agentNear then some "AgentNearLabelFunction"
  else if c = .agentBeyondPoint then some "AgentBeyondPointLabelFunction"
  else if c = .egoBeyondPoint then some "EgoBeyondPointLabelFunction"
  else if c = .succeedingAgent then some "SucceedingAgentLabelFunction"
  else if c = .agentAtLaneEnd then some "AgentAtLaneEndLabelFunction"
  else if c = .leftOf then some "LeftOfLabelFunction"
  else if c = .rightOf then some "RightOfLabelFunction"
  else if c = .frontOf then some "FrontOfLabelFunction"
  else if c = .behindOf then some "BehindOfLabelFunction"
  else if c = .egoRightmostLane then some "EgoRightmostLaneLabelFunction"
  else if c = .rightmostLane then some "RightmostLaneLabelFunction"
  else if c = .egoLeftmostLane then some "EgoLeftmostLaneLabelFunction"
  else if c = .onRoad then some "OnRoadLabelFunction"
  else if c = .collisionEgo then some "CollisionEgoLabelFunction"
  else none

/-- polymorphic_conversion.cpp:479-537 -/
def labelFrom (n : String) : Option LCls :=
  if n = "SafeDistanceLabelFunction" then some .safeDistance
  else if n = "LaneChangeLabelFunction" then some .laneChange
  else if n = "BelowSpeedLimitLabelFunction" then some .belowSpeedLimit
  else if n = "EgoBelowSpeedLimitLabelFunction" then some .egoBelowSpeedLimit
  else if n = "AgentNearLabelFunction" then some .agentNear
  else if n = "AgentBeyondPointLabelFunction" then some .agentBeyondPoint
  else if n = "EgoBeyondPointLabelFunction" then some .egoBeyondPoint
  else if n = "SucceedingAgentLabelFunction" then some .succeedingAgent
  else if n = "AgentAtLaneEndLabelFunction" then some .agentAtLaneEnd
  else if n = "LeftOfLabelFunction" then some .leftOf
  else if n = "RightOfLabelFunction" then some .rightOf
  else if n = "FrontOfLabelFunction" then some .frontOf
  else if n = "BehindOfLabelFunction" then some .behindOf
  else if n = "EgoRightmostLaneLabelFunction" then some .egoRightmostLane
  else if n = "RightmostLaneLabelFunction" then some .rightmostLane
  else if n = "EgoLeftmostLaneLabelFunction" then some .egoLeftmostLane
  else if n = "OnRoadLabelFunction" then some .onRoad
  else if n = "CollisionEgoLabelFunction" then some .collisionEgo
  else none

/-- polymorphic_conversion.cpp:414-477 `LabelToPython`; a null pointer is dereferenced -/
def labelToPython {A : Type} : Option (Obj LCls A) → Res (Item LCls A × String)
  | none => .error .ub
  | some o => toName labelTo o

/-- polymorphic_conversion.cpp:478-541 `PythonToLabel`; no two of the classes are declared to derive from each other -/
def pythonToLabel {A : Type} (copy : LCls → A → A) (t : Item LCls A × String) : Res (Obj LCls A) :=
  fromName labelFrom (fun _ => []) copy t

end Bark.Py
