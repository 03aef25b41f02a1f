import Verif.Model.PyConv
import Verif.Model.Goals
import Mathlib.Algebra.Order.Ring.Abs

/-!
Model of the `py::pickle` definitions in `bark/python_wrapper`: what `__getstate__` stores and what
`__setstate__` makes of it.  `pickle.dumps`/`loads` in between is the identity on the stored values
(trusted).  The stored tuple always has the size `__setstate__` expects, except where a model below
says otherwise.
-/
namespace Bark.Pickle

/-! ### Python values and casts -/

/-- Python values occurring in pickled label functions -/
inductive PyVal (K : Type) where
  | bool (b : Bool)
  | int (i : Int)
  | float (x : K)
  | str (s : String)
  | point (x y : K)
  deriving DecidableEq, Repr

section labels
variable {K : Type} [Ring K] [LinearOrder K]

/-- pybind11 `cast<bool>`: the truth value of a Python number; strings and points have none -/
def PyVal.castBool : PyVal K → Res Bool
  | .bool b => .ok b
  | .int i => .ok (decide (i ≠ 0))
  | .float x => .ok (decide (x ≠ 0))
  | _ => .error .thrown

/-- pybind11 `cast<double>`: any Python number -/
def PyVal.castFloat : PyVal K → Res K
  | .bool b => .ok (if b then 1 else 0)
  | .int i => .ok (i : K)
  | .float x => .ok x
  | _ => .error .thrown

/-- pybind11 `cast<int>`: integers (and booleans, which are integers in Python), no floats -/
def PyVal.castInt : PyVal K → Res Int
  | .bool b => .ok (if b then 1 else 0)
  | .int i => .ok i
  | _ => .error .thrown

/-- pybind11 `cast<unsigned int>` -/
def PyVal.castNat : PyVal K → Res Nat
  | .bool b => .ok (if b then 1 else 0)
  | .int i => if 0 ≤ i ∧ i < 4294967296 then .ok i.toNat else .error .thrown
  | _ => .error .thrown

def PyVal.castStr : PyVal K → Res String
  | .str s => .ok s
  | _ => .error .thrown

def PyVal.castPoint : PyVal K → Res (K × K)
  | .point x y => .ok (x, y)
  | _ => .error .thrown

/-! ### Label functions -/

/-- label functions built from a name only -/
inductive NameCls where
  | laneChange | rightOf | leftOf | behindOf | frontOf | onRoad | collisionEgo
  deriving DecidableEq, Repr

/-- label functions built from a name and a threshold -/
inductive ThrCls where
  | belowSpeedLimit | egoBelowSpeedLimit | agentNear | egoAccelerate | egoRightmostLane
  | rightmostLane | egoLeftmostLane | relSpeed | agentAtLaneEnd
  deriving DecidableEq, Repr

/-- label functions built from a name and a point -/
inductive PointCls where
  | agentBeyondPoint | egoBeyondPoint
  deriving DecidableEq, Repr

/-- data members of the safe distance label – safe_distance_label_function.hpp:81-91, base_label_function.hpp:31-35 -/
structure SafeDist (K : Type) where
  name : String
  toRear : Bool
  deltaEgo : K
  deltaOthers : K
  aE : K
  aO : K
  crossing : Bool
  maxAgents : Nat
  useFrac : Bool
  latThr : K
  angThr : K
  checkLat : Bool
  deriving DecidableEq, Repr

/-- data members of the label functions (`value` of the constant label: constant_label_function.hpp:22-32) -/
inductive Label (K : Type) where
  | constant (name : String) (value : Bool)
  | named (c : NameCls) (name : String)
  | thr (c : ThrCls) (name : String) (x : K)
  | point (c : PointCls) (name : String) (x y : K)
  | dense (name : String) (radius : K) (num : Int)
  | succeeding (name : String) (useFrac : Bool) (latThr : K)
  | safeDist (d : SafeDist K)
  deriving DecidableEq, Repr

/-- the class of a label, which Python stores beside the state -/
inductive LabelCls where
  | constant | named (c : NameCls) | thr (c : ThrCls) | point (c : PointCls) | dense | succeeding
  | safeDist
  deriving DecidableEq, Repr

def Label.cls : Label K → LabelCls
  | .constant .. => .constant
  | .named c _ => .named c
  | .thr c .. => .thr c
  | .point c .. => .point c
  | .dense .. => .dense
  | .succeeding .. => .succeeding
  | .safeDist _ => .safeDist

/-- safe_distance_label_function.hpp:56 `GetAngleDifferenceThreshold` returns the lateral threshold -/
def SafeDist.getAngleDifferenceThreshold (d : SafeDist K) : K := d.latThr

/-- `__getstate__` – python_wrapper/world/ltl.cpp:75-77 (constant), 94-105 (safe distance), 182-185 (dense
traffic), 459-463 (succeeding agent); name only: 164-166, 299-301, 354-356, 371-373, 388-390, 405-407,
478-480; name and threshold: 125-127, 145-147, 203-205, 222-224, 242-244, 261-263, 281-283, 316-318,
336-338; name and point: 424-426, 444-446 -/
def labelGet : Label K → List (PyVal K)
  | .constant n _ => [.str n]
  | .named _ n => [.str n]
  | .thr _ n x => [.str n, .float x]
  | .point _ n x y => [.str n, .point x y]
  | .dense n r k => [.str n, .float r, .int k]
  | .succeeding n f l => [.str n, .bool f, .float l]
  | .safeDist d => [.str d.name, .bool d.toRear, .float d.deltaEgo, .float d.deltaOthers, .float d.aE,
      .float d.aO, .bool d.crossing, .int d.maxAgents, .bool d.useFrac, .float d.latThr,
      .float d.getAngleDifferenceThreshold, .bool d.checkLat]

/-- `__setstate__` – python_wrapper/world/ltl.cpp, the second lambda of each of the above; the dense
traffic constructor takes the absolute value of the radius (dense_traffic_label_function.cpp:23), a
constant label starts with value true (constant_label_function.hpp:24), the succeeding-agent label takes
its fields in the order `t[0], t[2], t[1]` (ltl.cpp:467-469).  A tuple of another size is refused. -/
def labelSet : LabelCls → List (PyVal K) → Res (Label K)
  | .constant, [n] => n.castStr >>= fun n => .ok (.constant n true)
  | .named c, [n] => n.castStr >>= fun n => .ok (.named c n)
  | .thr c, [n, x] => n.castStr >>= fun n => x.castFloat >>= fun x => .ok (.thr c n x)
  | .point c, [n, p] => n.castStr >>= fun n => p.castPoint >>= fun p => .ok (.point c n p.1 p.2)
  | .dense, [n, r, k] => n.castStr >>= fun n => r.castFloat >>= fun r => k.castInt >>= fun k =>
      .ok (.dense n |r| k)
  | .succeeding, [n, a, b] => n.castStr >>= fun n => b.castBool >>= fun f => a.castFloat >>= fun l =>
      .ok (.succeeding n f l)
  | .safeDist, [n, tr, de, d, ae, ao, cr, ma, uf, lt, an, cl] =>
      n.castStr >>= fun n => tr.castBool >>= fun tr => de.castFloat >>= fun de =>
      d.castFloat >>= fun d => ae.castFloat >>= fun ae => ao.castFloat >>= fun ao =>
      cr.castBool >>= fun cr => ma.castNat >>= fun ma => uf.castBool >>= fun uf =>
      lt.castFloat >>= fun lt => an.castFloat >>= fun an => cl.castBool >>= fun cl =>
      .ok (.safeDist ⟨n, tr, de, d, ae, ao, cr, ma, uf, lt, an, cl⟩)
  | _, _ => .error .thrown

/-- pickling and unpickling a label -/
def labelRound (l : Label K) : Res (Label K) := labelSet l.cls (labelGet l)

end labels

/-! ### Goal definitions -/

/-- the state of a goal definition as stored: the constructor arguments of a simple goal stand for its
predicate, a sequence stores the list of its parts and nothing else -/
inductive GoalState (A : Type) where
  | leaf (p : A → Bool)
  | seq (parts : List (GoalState A))

section goals
variable {A : Type}

/-- `__getstate__` – python_wrapper/world/goal_definition.cpp:46-48, 71-73, 107-113 (simple goals), 140-147
(sequence, a part that is itself a sequence is stored in the same way); `fuel` bounds the nesting -/
def goalGet (h : Goal.Heap A) : Nat → Nat → Res (GoalState A)
  | 0, _ => .error .diverges
  | fuel + 1, g =>
    match h[g]? with
    | none => .error .ub
    | some (.leaf p) => .ok (.leaf p)
    | some (.seq subs _) => (subs.mapM (goalGet h fuel)) >>= fun ps => .ok (.seq ps)

mutual
/-- `__setstate__` – python_wrapper/world/goal_definition.cpp:49-54, 74-80, 114-123, 148-155: a new object;
a sequence starts as an empty one (`last_sequential_goal_reached_ = -1`,
goal_definition_sequential.hpp:28-30) to which the parts, each a new object
(`PythonToGoalDefinition`), are added -/
def goalSet : GoalState A → Goal.Heap A → Goal.Heap A × Nat
  | .leaf p, h => (h ++ [.leaf p], h.length)
  | .seq ps, h =>
    let r := goalSetAll ps h
    (r.1 ++ [.seq r.2 (-1)], r.1.length)
/-- the loop over the parts -/
def goalSetAll : List (GoalState A) → Goal.Heap A → Goal.Heap A × List Nat
  | [], h => (h, [])
  | p :: ps, h =>
    let r := goalSet p h
    let r' := goalSetAll ps r.1
    (r'.1, r.2 :: r'.2)
end

/-- pickling and unpickling a goal -/
def goalRound (fuel : Nat) (h : Goal.Heap A) (g : Nat) : Res (Goal.Heap A × Nat) :=
  goalGet h fuel g >>= fun s => .ok (goalSet s h)

end goals

/-! ### Behaviours -/

/-- the part of a behaviour model that planning changes: status, last trajectory, last action and
everything else (`rest`: active primitive, lane corridors, …) -/
structure Dyn (T Act R : Type) where
  status : Nat
  traj : T
  action : Act
  rest : R
  deriving DecidableEq, Repr

/-- primitives: parameters and, for `PrimitiveConstAccStayLane` only, the acceleration -/
inductive Prim (P K : Type) where
  | stay (p : P) (acc : K)
  | other (c : Py.PCls) (p : P)
  deriving DecidableEq, Repr

/-- behaviour models; `plain` are the classes with nothing but parameters -/
inductive Beh (P K T Act R L : Type) where
  | plain (c : Py.BCls) (p : P) (d : Dyn T Act R)
  | static (p : P) (t : T) (d : Dyn T Act R)
  | macro (random : Bool) (p : P) (prims : List (Prim P K)) (d : Dyn T Act R)
  | safety (p : P) (inner : Beh P K T Act R L) (d : Dyn T Act R)
  | rss (p : P) (nominal : Beh P K T Act R L) (safety : Beh P K T Act R L)
      (responses : Int × Int × Int) (limits : L) (d : Dyn T Act R)

section behaviours
variable {P K T Act R L : Type}

/-- classes outside of the library -/
def _root_.Bark.Py.BCls.isForeign : Py.BCls → Bool
  | .foreign _ => true
  | _ => false

/-- the class of a behaviour -/
def Beh.cls : Beh P K T Act R L → Py.BCls
  | .plain c .. => c
  | .static .. => .staticTrajectory
  | .macro r .. => if r then .randomMacroActions else .mpMacroActions
  | .safety .. => .safety
  | .rss .. => .rssConformant

/-- `GetParams()` -/
def Beh.params : Beh P K T Act R L → P
  | .plain _ p _ => p
  | .static p .. => p
  | .macro _ p .. => p
  | .safety p .. => p
  | .rss p .. => p

/-- Parameters and constructors the pickling relies on: `rebuild` =
`PythonToParams ∘ ParamsToPython` (polymorphic_conversion.cpp:367-374, see C38), `child` =
`AddChild("BehaviorSafety")`, `init` the planning state after construction of a class. -/
structure Env (P T Act R : Type) where
  rebuild : P → P
  child : P → P
  init : Py.BCls → P → Dyn T Act R

/-- behavior_safety.hpp:34-43: the constructor creates a lane tracking model from the child
parameters -/
def newSafety (E : Env P T Act R) (p : P) : Beh P K T Act R L :=
  .safety p (.plain .idmLaneTracking (E.child p) (E.init .idmLaneTracking (E.child p)))
    (E.init .safety p)

/-- pickling and unpickling a primitive – python_wrapper/models/behavior.cpp:282-291, 298-308, 314-323,
329-338; primitives written in Python are refused by `PrimitiveToPython` -/
def primRound (E : Env P T Act R) : Prim P K → Res (Prim P K)
  | .stay p a => .ok (.stay (E.rebuild p) a)
  | .other c p =>
    if c = .gapKeeping ∨ c = .constAccChangeToLeft ∨ c = .constAccChangeToRight then
      .ok (.other c (E.rebuild p))
    else .error .thrown

/-- `t[3].cast<bool>()` of an integer, stored as an integer again – behavior.cpp:493-495 -/
def clipResponse (i : Int) : Int := if i ≠ 0 then 1 else 0

/-- Pickling and unpickling – python_wrapper/models/behavior.cpp:62-72, 81-91, 101-111, 121-132, 141-152,
162-173, 183-193, 353-362 (dynamic model), 397-407 (not started): the parameters; 376-388: and the
trajectory; 234-251, 259-276: and the primitives; 417-435: safety; 456-500: RSS (built with `RSS`; without
it the responses and limits do not exist).  Classes without a `py::pickle` definition are refused by
Python. -/
def behRound (E : Env P T Act R) : Beh P K T Act R L → Res (Beh P K T Act R L)
  | .plain c p _ =>
    if c = .mpContinuousActions ∨ c = .py ∨ c.isForeign then .error .thrown
    else .ok (.plain c (E.rebuild p) (E.init c (E.rebuild p)))
  | .static p t _ => .ok (.static (E.rebuild p) t (E.init .staticTrajectory (E.rebuild p)))
  | .macro r p ps _ =>
    ps.mapM (primRound E) >>= fun ps' =>
    .ok (.macro r (E.rebuild p) ps'
      (E.init (if r then .randomMacroActions else .mpMacroActions) (E.rebuild p)))
  | .safety p inner _ =>
    .ok (.safety (E.rebuild p)
      (.plain .idmLaneTracking (E.rebuild inner.params) (E.init .idmLaneTracking (E.rebuild inner.params)))
      (E.init .safety (E.rebuild p)))
  | .rss p nominal safety (a, b, c) l _ =>
    .ok (.rss (E.rebuild p)
      (.plain .idmLaneTracking (E.rebuild nominal.params)
        (E.init .idmLaneTracking (E.rebuild nominal.params)))
      (newSafety E (E.rebuild safety.params)) (clipResponse a, clipResponse b, clipResponse c) l
      (E.init .rssConformant (E.rebuild p)))

end behaviours

/-! ### Agents -/

/-- data members of an agent – agent.hpp:215-227, object.hpp:51-56.  `hist` state-action history, `limit`
`max_history_length_`, `execTraj` the last trajectory of the execution model, `roadIds`/`direction` the
road of the corridor, `corridor` the corridor itself, `sensed` the world last observed.  `dyn` is the
dynamic model. -/
structure Agent (S Act Sh B D E G Rd C W : Type) where
  id : Nat
  shape : Sh
  hist : List (S × Act)
  limit : Nat
  firstValid : B
  behavior : Option D
  dyn : Option E
  execTraj : List S
  goal : Option G
  roadIds : List Nat
  direction : Rd
  corridor : Option C
  sensed : Option W

/-- How the components of an agent are converted: `behavior` with the last trajectory put back
(agent.cpp:102), `dyn`, `goal`; `lastAction` the last action of a behaviour. -/
structure AgentEnv (D E G : Type) where
  behavior : D → Res D
  dyn : E → Res E
  goal : G → Res G

section agents
variable {S Act Sh B D E G Rd C W : Type}

/-- Pickling and unpickling an agent – python_wrapper/world/agent.cpp:70-106.  `GetBehaviorTrajectory`,
`DynamicModelToPython` and `GoalDefinitionToPython` dereference the respective pointer.  The new agent is
constructed with null parameters (history limit 30, agent.cpp:33-44) and a fresh execution model
(execution.cpp:37-45); id, first valid time, history and road are set afterwards; the stored execution
trajectory is not used; the corridor, the sensed world and the 3D model are not stored. -/
def agentRound (N : AgentEnv D E G) (a : Agent S Act Sh B D E G Rd C W) :
    Res (Agent S Act Sh B D E G Rd C W) :=
  match a.behavior, a.dyn, a.goal, a.hist.getLast? with
  | some b, some d, some g, some _ =>
    N.behavior b >>= fun b' => N.dyn d >>= fun d' => N.goal g >>= fun g' =>
      .ok { id := a.id, shape := a.shape, hist := a.hist, limit := 30, firstValid := a.firstValid,
            behavior := some b', dyn := some d', execTraj := [], goal := some g',
            roadIds := a.roadIds, direction := a.direction, corridor := none, sensed := none }
  | _, _, _, _ => .error .ub

/-- agent.cpp:90-99 `UpdateStateAction` -/
def Agent.update (a : Agent S Act Sh B D E G Rd C W) (x : S × Act) :
    Agent S Act Sh B D E G Rd C W :=
  { a with hist :=
      if (a.hist ++ [x]).length > a.limit then (a.hist ++ [x]).tail else a.hist ++ [x] }

/-- a number of simulation steps, as far as the history is concerned -/
def Agent.updates (a : Agent S Act Sh B D E G Rd C W) (xs : List (S × Act)) :
    Agent S Act Sh B D E G Rd C W := xs.foldl Agent.update a

end agents

end Bark.Pickle
