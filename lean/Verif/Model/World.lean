import Verif.Model.Basic
import Mathlib.Algebra.Order.Field.Basic
import Mathlib.Algebra.Order.Field.Rat

/-!
Model of `bark/world/world.{hpp,cpp}` and `bark/world/objects/agent.{hpp,cpp}`.

Type parameters: `K` numbers (`double`), `St` vehicle state, `Act` action, `B` the state of a
behaviour model, `E` the state of an execution model, `Sh` shape, `Box` axis-aligned box,
`O` the state of the observer model.

Simplifications: behaviour/execution model pointers are non-null and not shared between agents
(aliasing is studied in `Model/Heap.lean`); dynamic model, goal definition, road corridor and
renderer are omitted (dynamic model and trajectory are part of what the execution plug-in sees);
`GetSensedWorld` is studied in `Model/Sensed.lean`.
-/
namespace Bark

/-- bark/models/behavior/behavior_model.hpp:82-86 -/
inductive BStatus where
  | notStarted
  | valid
  | expired
  deriving DecidableEq, Repr

/-- bark/models/execution/execution_model.hpp:26 -/
inductive EStatus where
  | valid
  | invalid
  deriving DecidableEq, Repr

/-- bark/world/objects/agent.hpp:214-227 (fields of `Agent`), object.hpp:78-80 (`agent_id_`, `shape_`). -/
structure Agent (K St Act B E Sh : Type) where
  id : Nat
  behavior : B
  exec : E
  history : List (St × Act)
  maxHist : Nat
  firstValid : K
  shape : Sh

/-- bark/world/world.hpp:216-227 (fields of `World`). `rtree` is the content of the boost rtree;
`mapBox` is `none` when no map is set. Objects, evaluators, renderer and the two front/rear
parameters are omitted. -/
structure World (K St Act B E Sh Box O : Type) where
  agents : OMap Nat (Agent K St Act B E Sh)
  time : K
  rtree : List (Box × Nat)
  removeAgents : Bool
  mapBox : Option Box
  observer : O

/-- The virtual methods and geometric primitives the world calls. They are arbitrary.
* `plan` – `BehaviorModel::PlanBehavior(dt, observed_world)`; the observed world is a world plus ego id
* `execute` – `ExecutionModel::Execute(time, behavior.GetLastTrajectory(), dynamic)`
* `observe` – `ObserverModel::Observe(world, id)`; may change the observer (random sampling)
* `envelope` – bounding box of the shape placed at a state
* `within box mapbox` – boost `within` -/
structure Plug (K St Act B E Sh Box O : Type) where
  status : B → BStatus
  lastAction : B → Act
  plan : B → K → World K St Act B E Sh Box O → Nat → B
  execute : E → K → B → E
  execStatus : E → EStatus
  executedState : E → St
  observe : O → World K St Act B E Sh Box O → Nat → O × World K St Act B E Sh Box O
  envelope : Sh → St → Box
  within : Box → Box → Bool

set_option linter.unusedSectionVars false

section
variable {K St Act B E Sh Box O : Type} [Field K] [LinearOrder K] [IsStrictOrderedRing K]

/-- `std::numeric_limits<double>::epsilon()` = 2⁻⁵². -/
def dblEps : K := 1 / 2 ^ 52

namespace Agent

/-- The calls through which an agent's history changes. `update b e` is `UpdateStateAction` at a
moment where the behaviour and execution model are in state `b`, `e`. -/
inductive HOp (St Act B E : Type) where
  | update (b : B) (e : E)
  | setState (s : St)

/-- agent.hpp:122 `GetCurrentState`: `history_.back().first`; undefined on an empty history. -/
def currentState (a : Agent K St Act B E Sh) : Res St :=
  match a.history.getLast? with
  | some p => .ok p.1
  | none => .error .ub

/-- agent.cpp:178-181 `IsValidAtTime` -/
def isValidAtTime (a : Agent K St Act B E Sh) (t : K) : Bool :=
  decide (a.firstValid ≤ t + dblEps)

/-- agent.cpp:19-62 constructor: history is the initial state with the behaviour's last action. -/
def mk' (P : Plug K St Act B E Sh Box O) (id : Nat) (s : St) (b : B) (e : E) (sh : Sh)
    (maxHist : Nat) (firstValid : K) : Agent K St Act B E Sh :=
  { id := id, behavior := b, exec := e, history := [(s, P.lastAction b)], maxHist := maxHist,
    firstValid := firstValid, shape := sh }

/-- agent.cpp:89-98 `UpdateStateAction`: push the executed state, drop the oldest if too long. -/
def updateStateAction (P : Plug K St Act B E Sh Box O) (a : Agent K St Act B E Sh) :
    Agent K St Act B E Sh :=
  let h := a.history ++ [(P.executedState a.exec, P.lastAction a.behavior)]
  { a with history := if h.length > a.maxHist then h.tail else h }

/-- agent.hpp:174-176 `SetCurrentState`; undefined on an empty history. -/
def setCurrentState (a : Agent K St Act B E Sh) (s : St) : Res (Agent K St Act B E Sh) :=
  match a.history.getLast? with
  | some p => .ok { a with history := a.history.dropLast ++ [(s, p.2)] }
  | none => .error .ub

/-- agent.hpp:170-172 `SetStateInputHistory` -/
def setHistory (a : Agent K St Act B E Sh) (h : List (St × Act)) : Agent K St Act B E Sh :=
  { a with history := h }

/-- one history-changing call -/
def applyH (P : Plug K St Act B E Sh Box O) (a : Agent K St Act B E Sh) :
    HOp St Act B E → Res (Agent K St Act B E Sh)
  | .update b e => .ok (updateStateAction P { a with behavior := b, exec := e })
  | .setState s => a.setCurrentState s

/-- a sequence of history-changing calls -/
def runH (P : Plug K St Act B E Sh Box O) (a : Agent K St Act B E Sh) :
    List (HOp St Act B E) → Res (Agent K St Act B E Sh)
  | [] => .ok a
  | op :: ops => do
      let a1 ← applyH P a op
      runH P a1 ops

end Agent

namespace World
variable (P : Plug K St Act B E Sh Box O)

/-- world.cpp:131-133 `AddAgent` -/
def addAgent (w : World K St Act B E Sh Box O) (a : Agent K St Act B E Sh) :
    World K St Act B E Sh Box O :=
  { w with agents := OMap.insert a.id a w.agents }

/-- world.cpp:319-323 `RemoveAgentById` -/
def removeAgentById (w : World K St Act B E Sh Box O) (id : Nat) : World K St Act B E Sh Box O :=
  { w with agents := OMap.erase id w.agents }

/-- world.hpp:206 `ClearAgents` -/
def clearAgents (w : World K St Act B E Sh Box O) : World K St Act B E Sh Box O :=
  { w with agents := [] }

/-- world.hpp:124-131 `GetAgent` (null pointer = `none`) -/
def getAgent (w : World K St Act B E Sh Box O) (id : Nat) : Option (Agent K St Act B E Sh) :=
  OMap.find id w.agents

/-- loop body of world.cpp:171-178 for all agents -/
def rtreeOf : OMap Nat (Agent K St Act B E Sh) → Res (List (Box × Nat))
  | [] => .ok []
  | (id, a) :: m => do
      let s ← a.currentState
      let r ← rtreeOf m
      .ok ((P.envelope a.shape s, id) :: r)

/-- world.cpp:169-179 `UpdateAgentRTree` -/
def updateAgentRTree (w : World K St Act B E Sh Box O) : Res (World K St Act B E Sh Box O) := do
  let r ← rtreeOf P w.agents
  .ok { w with rtree := r }

/-- world.cpp:78-81: what the loop body does to one active agent, given its observed world. -/
def planOne (dt : K) (t : K) (obs : World K St Act B E Sh Box O) (id : Nat)
    (a : Agent K St Act B E Sh) : Agent K St Act B E Sh :=
  let b := P.plan a.behavior dt obs id
  { a with
    behavior := b
    exec := if P.status b = .valid then P.execute a.exec (t + dt) b else a.exec }

/-- world.cpp:74-83: one iteration of the planning loop. `snap` is `current_world` (the clone). The
agent is mutated in place inside `w`; the observer is shared with the clone and mutated too. -/
def planBody (dt : K) (snap : World K St Act B E Sh Box O) (w : World K St Act B E Sh Box O)
    (id : Nat) : World K St Act B E Sh Box O :=
  match OMap.find id w.agents with
  | none => w
  | some a =>
    if a.isValidAtTime w.time then
      let r := P.observe w.observer snap id
      { w with
        observer := r.1
        agents := OMap.modify id (planOne P dt w.time r.2 id) w.agents }
    else w

/-- world.cpp:70-84 `PlanAgents`, visiting the agents in the order given by `order`
(the code's order is the key order, see `planAgents`). -/
def planAgentsIn (order : List Nat) (dt : K) (w : World K St Act B E Sh Box O) :
    Res (World K St Act B E Sh Box O) := do
  let w1 ← updateAgentRTree P w
  .ok (order.foldl (planBody P dt w1) w1)

/-- world.cpp:70-84 `PlanAgents` -/
def planAgents (dt : K) (w : World K St Act B E Sh Box O) : Res (World K St Act B E Sh Box O) :=
  planAgentsIn P (OMap.keys w.agents) dt w

/-- world.cpp:90-92 guard of the execute loop -/
def executes (t : K) (a : Agent K St Act B E Sh) : Bool :=
  a.isValidAtTime t && decide (P.status a.behavior = .valid) &&
    decide (P.execStatus a.exec = .valid)

/-- world.cpp:89-100 body of the execute loop for one agent (the `BARK_EXPECT_TRUE` only prints, but
`GetCurrentState` in it is undefined on an empty history). -/
def executeOne (t : K) (a : Agent K St Act B E Sh) : Res (Agent K St Act B E Sh) :=
  if executes P t a then
    match (a.updateStateAction P).currentState with
    | .ok _ => .ok (a.updateStateAction P)
    | .error f => .error f
  else .ok a

/-- world.cpp:89-100 the execute loop (every agent is updated in place independently). -/
def executeLoop (t : K) : OMap Nat (Agent K St Act B E Sh) → Res (OMap Nat (Agent K St Act B E Sh))
  | [] => .ok []
  | (id, a) :: m => do
      let a' ← executeOne P t a
      let m' ← executeLoop t m
      .ok ((id, a') :: m')

/-- world.cpp:182-197: the query `!within(query_box)` on the index, then the guarded erase. -/
def removeOutside (mapBox : Box) (w : World K St Act B E Sh Box O) :
    World K St Act B E Sh Box O :=
  let hits := w.rtree.filter (fun p => !P.within p.1 mapBox)
  hits.foldl (fun w p =>
    match w.getAgent p.2 with
    | none => w
    | some a =>
      if decide (P.status a.behavior = .valid) && a.isValidAtTime w.time then
        { w with agents := OMap.erase p.2 w.agents }
      else w) w

/-- world.cpp:199-205: erase expired agents -/
def removeExpired (w : World K St Act B E Sh Box O) : World K St Act B E Sh Box O :=
  { w with agents := w.agents.filter (fun p => !decide (P.status p.2.behavior = .expired)) }

/-- world.cpp:182-197: the removal of agents outside the map, if switched on; without a map the
bounding box query is a null dereference (world.hpp:190). -/
def removeOutMap (w : World K St Act B E Sh Box O) : Res (World K St Act B E Sh Box O) :=
  if w.removeAgents then
    match w.mapBox with
    | none => .error .ub
    | some mb => .ok (removeOutside P mb w)
  else .ok w

/-- world.cpp:181-208 `RemoveInvalidAgents` -/
def removeInvalidAgents (w : World K St Act B E Sh Box O) : Res (World K St Act B E Sh Box O) := do
  let w1 ← removeOutMap P w
  updateAgentRTree P (removeExpired P w1)

/-- world.cpp:86-104 `Execute` -/
def execute (dt : K) (w : World K St Act B E Sh Box O) : Res (World K St Act B E Sh Box O) := do
  let inc := w.time + dt
  let ags ← executeLoop P w.time w.agents
  let w2 ← removeInvalidAgents P { w with agents := ags }
  .ok { w2 with time := inc }

/-- world.cpp:65-68 `Step` -/
def step (dt : K) (w : World K St Act B E Sh Box O) : Res (World K St Act B E Sh Box O) := do
  let w1 ← planAgents P dt w
  execute P dt w1

/-- world.cpp:116-129 `GetValidAgents` -/
def getValidAgents (w : World K St Act B E Sh Box O) : OMap Nat (Agent K St Act B E Sh) :=
  w.agents.filter (fun p =>
    if P.status p.2.behavior ≠ .valid then false
    else if p.2.isValidAtTime w.time = false then false
    else true)

/-- world.cpp:106-114 `GetWorldAtTime`: on the clone, plan the execution of VALID agents and update
every agent's state. -/
def getWorldAtTime (w : World K St Act B E Sh Box O) (t : K) : World K St Act B E Sh Box O :=
  { w with
    agents := w.agents.map (fun p =>
      let a := p.2
      let a1 := if P.status a.behavior = .valid then
          { a with exec := P.execute a.exec t a.behavior } else a
      (p.1, a1.updateStateAction P)) }

/-- world.cpp:152-167 `Observe`: the observer is applied to one clone for every known id. -/
def observe (w : World K St Act B E Sh Box O) :
    List Nat → O → O × List (Nat × World K St Act B E Sh Box O)
  | [], o => (o, [])
  | id :: ids, o =>
    match OMap.find id w.agents with
    | none => observe w ids o
    | some _ =>
      let r := P.observe o w id
      let rest := observe w ids r.1
      (rest.1, (id, r.2) :: rest.2)

/-- world.cpp:217-225 / 238-247: translate index hits to agents. `keep` is the extra geometric
filter of `GetAgentsIntersectingPolygon` (constantly `true` for `GetNearestAgents`). A hit whose agent
is no longer registered is a null dereference. -/
def collectHits (keep : Agent K St Act B E Sh → Bool) (w : World K St Act B E Sh Box O) :
    List (Box × Nat) → Res (OMap Nat (Agent K St Act B E Sh))
  | [] => .ok []
  | p :: hits =>
    match w.getAgent p.2 with
    | none => .error .ub
    | some a => do
      let rest ← collectHits keep w hits
      if keep a && decide (P.status a.behavior = .valid) && a.isValidAtTime w.time then
        .ok (OMap.insert p.2 a rest)
      else .ok rest

/-- world.cpp:210-226 `GetNearestAgents`; `nearest` is boost's k-nearest query on the index. -/
def getNearestAgents (nearest : List (Box × Nat) → List (Box × Nat))
    (w : World K St Act B E Sh Box O) : Res (OMap Nat (Agent K St Act B E Sh)) :=
  collectHits P (fun _ => true) w (nearest w.rtree)

/-- world.cpp:228-249 `GetAgentsIntersectingPolygon`; `boxHit` is the box query of the index and
`collide` the exact polygon test on the agent's current polygon. -/
def getAgentsIntersectingPolygon (boxHit : Box → Bool) (collide : Agent K St Act B E Sh → Bool)
    (w : World K St Act B E Sh Box O) : Res (OMap Nat (Agent K St Act B E Sh)) :=
  collectHits P collide w (w.rtree.filter (fun p => boxHit p.1))

/-- The mutating operations of the world API. -/
inductive Op (K St Act B E Sh : Type) where
  | step (dt : K)
  | planAgents (dt : K)
  | execute (dt : K)
  | addAgent (a : Agent K St Act B E Sh)
  | removeAgent (id : Nat)
  | clearAgents
  | updateRTree

/-- One API call. -/
def apply (w : World K St Act B E Sh Box O) : Op K St Act B E Sh → Res (World K St Act B E Sh Box O)
  | .step dt => step P dt w
  | .planAgents dt => planAgents P dt w
  | .execute dt => execute P dt w
  | .addAgent a => .ok (w.addAgent a)
  | .removeAgent id => .ok (w.removeAgentById id)
  | .clearAgents => .ok w.clearAgents
  | .updateRTree => updateAgentRTree P w

/-- A sequence of API calls; stops at the first fault. -/
def run (w : World K St Act B E Sh Box O) :
    List (Op K St Act B E Sh) → Res (World K St Act B E Sh Box O)
  | [] => .ok w
  | op :: ops => do
      let w1 ← apply P w op
      run w1 ops

end World
end
end Bark
