import Verif.Model.Basic
import Mathlib.Order.Nat
import Mathlib.Logic.Function.Basic

/-!
Model of the python side that serves scenarios and runs them: `bark/runtime/scenario/scenario.py` (abbreviated
scenario.py), `bark/runtime/scenario/scenario_generation/scenario_generation.py` (sg.py), `bark/runtime/runtime.py`
(runtime.py), `bark/runtime/runtime.hpp` with its binding `bark/python_wrapper/runtime.hpp`.

Agents are python objects with identity: they live on a heap and scenarios and worlds hold references to them. The
content of an agent (state, history, models, goal, corridor) is an abstract value `A`; that no two agents share a model
object is a simplification of this file (the sharing of models between clones is modelled in `Model/Heap.lean`).
Map interfaces are values `M`: the cache of corridors inside a map interface is modelled in `Model/MapIf.lean`.
Python exceptions are `Fault.thrown`.
-/
namespace Bark.Run

/-- what the library code called from here does with contents -/
structure Code (A M F J T : Type) where
  /-- object.hpp `GetAgentId` -/
  id : A → Nat
  /-- agent.cpp:70-105 (python_wrapper/world): `copy.deepcopy` of an agent is `__getstate__` followed by
  `__setstate__` -/
  pickled : A → A
  /-- agent.cpp:183-199 `Agent::Clone` -/
  cloned : A → A
  /-- agent.cpp:100-133 `Agent::GenerateRoadCorridor`, which changes the agent in place -/
  corridor : M → A → Res A
  /-- scenario.py:117-142 `CreateMapInterface` (see `resolve` below) -/
  load : F → J → Res M
  /-- world.cpp:70-85 `PlanAgents`: new content of each agent, given the time step and all contents -/
  plan : M → T → OMap Nat A → Nat → A → A
  /-- world.cpp:87-101 `Execute` -/
  execute : M → T → OMap Nat A → Nat → A → A
  /-- world.cpp:180-208 `RemoveInvalidAgents`: the agents that stay -/
  stays : M → OMap Nat A → Nat → Bool

/-- python objects of type Agent -/
structure Heap (A : Type) where
  next : Nat
  cell : Nat → A

variable {A M F J T : Type}

/-- creation of an object -/
def Heap.alloc (h : Heap A) (a : A) : Heap A × Nat := (⟨h.next + 1, Function.update h.cell h.next a⟩, h.next)

/-- change of an object in place -/
def Heap.set (h : Heap A) (r : Nat) (a : A) : Heap A := ⟨h.next, Function.update h.cell r a⟩

/-- scenario.py:30-43 -/
structure Scenario (M F J : Type) where
  agents : List Nat
  evalIds : List Nat
  file : F
  json : Option J
  map : Option M
  observer : Bool

/-- world.hpp:216-227, as far as used here: the agents by id, the map, the observer's restriction to the evaluated
agents (scenario.py:88-91) -/
structure World (M : Type) where
  agents : OMap Nat Nat
  map : M
  observeFor : Option (List Nat)

/-- contents of the agents of a world, by id -/
def contents (h : Heap A) (w : World M) : OMap Nat A := w.agents.map fun p => (p.1, h.cell p.2)

/-- scenario.py:97-99: the loop of `_build_world_state` over the agent list (world.cpp:135-137 `AddAgent`) -/
def addAgents (c : Code A M F J T) (m : M) (h : Heap A) (ag : OMap Nat Nat) : List Nat → Res (Heap A × OMap Nat Nat)
  | [] => .ok (h, ag)
  | r :: rs =>
    match c.corridor m (h.cell r) with
    | .error f => .error f
    | .ok a => addAgents c m (h.set r a) (OMap.insert (c.id a) r ag) rs

/-- scenario.py:92-96: the map interface, created from the file when there is none. `_json_params` is `None` for a
scenario without parameters: `CreateMapInterface` uses it only for csv maps; `dflt` stands for `None`. -/
def mapOf (c : Code A M F J T) (dflt : J) (s : Scenario M F J) : Res M :=
  match s.map with
  | some m => .ok m
  | none => c.load s.file (s.json.getD dflt)

/-- scenario.py:84-101 `GetWorldState`/`_build_world_state`; the scenario keeps a map interface it created -/
def getWorld (c : Code A M F J T) (dflt : J) (h : Heap A) (s : Scenario M F J) :
    Res (Heap A × Scenario M F J × World M) :=
  match mapOf c dflt s with
  | .error f => .error f
  | .ok m =>
    match addAgents c m h [] s.agents with
    | .error f => .error f
    | .ok (h', ag) =>
      .ok (h', { s with map := some m }, ⟨ag, m, if s.observer then some s.evalIds else none⟩)

/-- `copy.deepcopy` of a list of agents: an object met before is not copied again (`memo`) -/
def deepcopy (c : Code A M F J T) (h : Heap A) (memo : List (Nat × Nat)) : List Nat → Heap A × List Nat
  | [] => (h, [])
  | r :: rs =>
    match memo.lookup r with
    | some r' =>
      let q := deepcopy c h memo rs
      (q.1, r' :: q.2)
    | none =>
      let x := h.alloc (c.pickled (h.cell r))
      let q := deepcopy c x.1 ((r, x.2) :: memo) rs
      (q.1, x.2 :: q.2)

/-- scenario.py:73-82 `copy`; `None.copy()` raises. The copied dictionaries are values here (the nested dictionaries of
`json_params` stay shared in the code). -/
def copyScenario (c : Code A M F J T) (h : Heap A) (s : Scenario M F J) : Res (Heap A × Scenario M F J) :=
  match s.json with
  | none => .error .thrown
  | some _ =>
    let q := deepcopy c h [] s.agents
    .ok (q.1, { s with agents := q.2 })

/-- scenario.py:103-110 `__getstate__`/`__setstate__`: pickling a list of scenarios and loading it -/
def reload (c : Code A M F J T) (h : Heap A) : List (Scenario M F J) → Heap A × List (Scenario M F J)
  | [] => (h, [])
  | s :: ss =>
    let q := deepcopy c h [] s.agents
    let z := reload c q.1 ss
    (z.1, { s with agents := q.2, map := none } :: z.2)

/-- in-place update of all agents of a world; `f` gives the new content of each -/
def updateAll (f : Nat → A → A) (h : Heap A) : OMap Nat Nat → Heap A
  | [] => h
  | (i, r) :: m => updateAll f (h.set r (f i (h.cell r))) m

/-- world.cpp:70-85 -/
def planWorld (c : Code A M F J T) (t : T) (h : Heap A) (w : World M) : Heap A :=
  updateAll (c.plan w.map t (contents h w)) h w.agents

/-- world.cpp:87-104 with world.cpp:180-208 -/
def executeWorld (c : Code A M F J T) (t : T) (h : Heap A) (w : World M) : Heap A × World M :=
  let h' := updateAll (c.execute w.map t (contents h w)) h w.agents
  (h', { w with agents := w.agents.filter fun p => c.stays w.map (contents h' w) p.1 })

/-- world.cpp:65-68 `World::Step` -/
def stepWorld (c : Code A M F J T) (t : T) (h : Heap A) (w : World M) : Heap A × World M :=
  executeWorld c t (planWorld c t h w) w

/-- world.hpp:232-246 `World::Clone` (`Copy` in python): new agents, same map -/
def cloneAgents (c : Code A M F J T) (h : Heap A) : OMap Nat Nat → Heap A × OMap Nat Nat
  | [] => (h, [])
  | (i, r) :: m =>
    let x := h.alloc (c.cloned (h.cell r))
    let q := cloneAgents c x.1 m
    (q.1, (i, x.2) :: q.2)

/-- see `cloneAgents` -/
def cloneWorld (c : Code A M F J T) (h : Heap A) (w : World M) : Heap A × World M :=
  let q := cloneAgents c h w.agents
  (q.1, { w with agents := q.2 })

/-- sg.py:12-25: the generator -/
structure Generator (M F J : Type) where
  list : List (Scenario M F J)
  current : Nat
  iter : Option Nat

/-- python indexing of a list: negative indices count from the end -/
def pyIndex {α : Type} (l : List α) (i : Int) : Res α :=
  let j := if i < 0 then i + l.length else i
  if j < 0 then .error .thrown
  else match l[j.toNat]? with
    | some a => .ok a
    | none => .error .thrown

/-- sg.py:43-44 `get_scenario` -/
def getScenario (c : Code A M F J T) (h : Heap A) (g : Generator M F J) (i : Int) : Res (Heap A × Scenario M F J) :=
  match pyIndex g.list i with
  | .error f => .error f
  | .ok s => copyScenario c h s

/-- sg.py:31-38 `get_next_scenario` -/
def getNext (c : Code A M F J T) (h : Heap A) (g : Generator M F J) :
    Res (Heap A × Generator M F J × Scenario M F J × Nat) :=
  let k := if g.current ≥ g.list.length then 0 else g.current
  match getScenario c h g k with
  | .error f => .error f
  | .ok (h', s) => .ok (h', { g with current := k + 1 }, s, k)

/-- sg.py:46-48 `__iter__` -/
def startIter (g : Generator M F J) : Generator M F J := { g with iter := some 0 }

/-- sg.py:50-57 `__next__`: `none` is `StopIteration`; without a preceding `__iter__` the attribute is missing -/
def nextIter (c : Code A M F J T) (h : Heap A) (g : Generator M F J) :
    Res (Option (Heap A × Generator M F J × Scenario M F J × Nat)) :=
  match g.iter with
  | none => .error .thrown
  | some k =>
    if k < g.list.length then
      match getScenario c h g k with
      | .error f => .error f
      | .ok (h', s) => .ok (some (h', { g with iter := some (k + 1) }, s, k))
    else .ok none

/-- everything the user can hold: the heap, the generator, the scenarios handed out and the worlds made -/
structure State (A M F J : Type) where
  heap : Heap A
  gen : Generator M F J
  served : List (Scenario M F J)
  worlds : List (World M)

/-- what a user does with generators, scenarios and worlds -/
inductive Op (T : Type) where
  | next
  | get (i : Int)
  | iter
  | iterNext
  | worldOf (k : Nat)
  | copyOf (k : Nat)
  | step (k : Nat) (t : T)
  | copyWorld (k : Nat)

/-- one call; calls on objects that do not exist are refused by the model (they cannot be written in python). A call
that raises leaves everything as it was: copying fails before anything is copied, loading a map before an agent is
touched, and a failing corridor (agent.cpp:104-106 dereferences the null corridor) ends the process. -/
def apply (c : Code A M F J T) (dflt : J) (st : State A M F J) : Op T → State A M F J
  | .next =>
    match getNext c st.heap st.gen with
    | .ok (h, g, s, _) => ⟨h, g, st.served ++ [s], st.worlds⟩
    | .error _ => st
  | .get i =>
    match getScenario c st.heap st.gen i with
    | .ok (h, s) => ⟨h, st.gen, st.served ++ [s], st.worlds⟩
    | .error _ => st
  | .iter => { st with gen := startIter st.gen }
  | .iterNext =>
    match nextIter c st.heap st.gen with
    | .ok (some (h, g, s, _)) => ⟨h, g, st.served ++ [s], st.worlds⟩
    | _ => st
  | .worldOf k =>
    match st.served[k]? with
    | none => st
    | some s =>
      match getWorld c dflt st.heap s with
      | .ok (h, s', w) => ⟨h, st.gen, st.served.set k s', st.worlds ++ [w]⟩
      | .error _ => st
  | .copyOf k =>
    match st.served[k]? with
    | none => st
    | some s =>
      match copyScenario c st.heap s with
      | .ok (h, s') => ⟨h, st.gen, st.served ++ [s'], st.worlds⟩
      | .error _ => st
  | .step k t =>
    match st.worlds[k]? with
    | none => st
    | some w =>
      let q := stepWorld c t st.heap w
      ⟨q.1, st.gen, st.served, st.worlds.set k q.2⟩
  | .copyWorld k =>
    match st.worlds[k]? with
    | none => st
    | some w =>
      let q := cloneWorld c st.heap w
      ⟨q.1, st.gen, st.served, st.worlds ++ [q.2]⟩

/-- a history of calls -/
def applyAll (c : Code A M F J T) (dflt : J) (st : State A M F J) (ops : List (Op T)) : State A M F J :=
  ops.foldl (apply c dflt) st

/-! ### The runtime -/

/-- what the viewer is asked to draw: contents of the world, evaluated agents and scenario index
(runtime.py:67-73) -/
structure Drawn (A : Type) where
  contents : OMap Nat A
  evalIds : List Nat
  idx : Option Nat

/-- runtime.py:22-38: attributes of the runtime object (with what the viewer was asked to draw) -/
structure Runtime (A M F J T : Type) where
  heap : Heap A
  gen : Generator M F J
  stepTime : T
  viewer : Bool
  render : Bool
  keep : Bool
  scenario : Option (Scenario M F J)
  idx : Option Nat
  world : Option (World M)
  resetCalled : Bool
  history : List (World M)
  drawn : List (Drawn A)

/-- runtime.py:44-48: the tail of `reset` once the scenario is chosen -/
def resetWith (c : Code A M F J T) (dflt : J) (r : Runtime A M F J T) (h : Heap A) (g : Generator M F J)
    (s : Scenario M F J) (idx : Option Nat) : Res (Runtime A M F J T) :=
  match getWorld c dflt h s with
  | .error f => .error f
  | .ok (h', s', w) =>
    .ok { r with heap := h', gen := g, scenario := some s', idx := idx, world := some w, resetCalled := true,
                 history := [] }

/-- runtime.py:36-48 `reset`: with a scenario given, or the next one of the generator -/
def reset (c : Code A M F J T) (dflt : J) (r : Runtime A M F J T) :
    Option (Scenario M F J) → Res (Runtime A M F J T)
  | some s => resetWith c dflt r r.heap r.gen s r.idx
  | none =>
    match getNext c r.heap r.gen with
    | .error f => .error f
    | .ok (h, g, s, k) => resetWith c dflt r h g s (some k)

/-- runtime.py:66-73 `render` -/
def renderNow (r : Runtime A M F J T) (w : World M) (evalIds : List Nat) : List (Drawn A) :=
  if r.viewer then r.drawn ++ [⟨contents r.heap w, evalIds, r.idx⟩] else r.drawn

/-- runtime.py:53-55: the snapshot at the start of the simulation -/
def firstSnapshot (c : Code A M F J T) (r : Runtime A M F J T) (w : World M) : Heap A × List (World M) :=
  if r.history = [] ∧ r.keep then
    let q := cloneWorld c r.heap w
    (q.1, [q.2])
  else (r.heap, r.history)

/-- runtime.py:63-64: the snapshot after a step -/
def snapshot (c : Code A M F J T) (keep : Bool) (h : Heap A) (hist : List (World M)) (w : World M) :
    Heap A × List (World M) :=
  if keep then
    let q := cloneWorld c h w
    (q.1, hist ++ [q.2])
  else (h, hist)

/-- runtime.py:50-64 `step`; before the first reset the assertion fails -/
def step (c : Code A M F J T) (r : Runtime A M F J T) : Res (Runtime A M F J T) :=
  match r.resetCalled, r.world, r.scenario with
  | true, some w, some s =>
    let q := firstSnapshot c r w
    let h2 := planWorld c r.stepTime q.1 w
    let d := if r.render then renderNow { r with heap := h2 } w s.evalIds else r.drawn
    let e := executeWorld c r.stepTime h2 w
    let z := snapshot c r.keep e.1 q.2 e.2
    .ok { r with heap := z.1, world := some e.2, history := z.2, drawn := d }
  | _, _, _ => .error .thrown

/-- runtime.py:75-77 `run`: it calls `self.Step()`, but the class and its bound base (python_wrapper/runtime.hpp:28-38)
define `step` only, so that the attribute lookup fails -/
def run (r : Runtime A M F J T) (steps : Nat) : Res (Runtime A M F J T) :=
  if steps = 0 then .ok r else .error .thrown

/-- runtime.py:83 `w.GetAgent(id)` followed by attribute accesses, which raise for `None` -/
def agentIn (h : Heap A) (i : Nat) (w : World M) : Res A :=
  match OMap.find i (contents h w) with
  | some a => .ok a
  | none => .error .thrown

/-- runtime.py:79-86: the evaluated agent in each snapshot, oldest first; no evaluated agent and an agent that is gone
raise -/
def timeSeries (r : Runtime A M F J T) : Res (List A) :=
  match r.scenario with
  | none => .error .thrown
  | some s =>
    match r.history, s.evalIds with
    | [], _ => .error .thrown
    | _, [] => .error .thrown
    | ws, i :: _ =>
      ws.mapM (agentIn r.heap i)

/-- a runtime class defined in python by its method `step` with an action; runtime.hpp:31-36 takes the runtime by
value: the argument is a copy of the base class subobject, whose `Step` does nothing (runtime.hpp:24-27), so the
method `_step` of the given object is not called -/
def evalRuntime {S Act : Type} (_step : S → Act → S) (s : S) (_a : Act) : S := s

/-! ### Finding the map file -/

/-- kinds of files by their extension (scenario.py:130-141) -/
inductive Kind where
  | xodr
  | csv
  | other
  deriving DecidableEq

/-- the file system: which paths are files, and which paths below the working directory match a name
(`sorted(Path().rglob(name))`) -/
structure Files (F : Type) where
  isFile : F → Bool
  found : F → List F
  kind : F → Kind
  join : F → F → F

/-- scenario.py:50-54 `full_map_file_name` -/
def fullName (fs : Files F) (dir : Option F) (f : F) : F :=
  match dir with
  | some d => fs.join d f
  | none => f

/-- scenario.py:118-129: the path that is opened -/
def resolve (fs : Files F) (f : F) : Res F :=
  if fs.isFile f then .ok f
  else match fs.found f with
    | [p] => .ok p
    | _ => .error .thrown

/-- scenario.py:130-142: which map is loaded; `none` is the empty map interface, which is kept without an error for an
unknown extension. `offsets` are the two csv parameters, missing ones raise. -/
def createMap {O : Type} (fs : Files F) (openXodr : F → M) (openCsv : F → O → M) (offsets : Option O) (f : F) :
    Res (Option M) :=
  match resolve fs f with
  | .error e => .error e
  | .ok p =>
    match fs.kind p with
    | .xodr => .ok (some (openXodr p))
    | .csv =>
      match offsets with
      | some o => .ok (some (openCsv p o))
      | none => .error .thrown
    | .other => .ok none

/-- scenario.py:144-153 `GetDatasetScenarioDescription`: any failure gives the empty description -/
def describe {V : Type} (s : Scenario M F J) (track : J → Option V) : Option (Nat × V) :=
  match s.evalIds, s.json with
  | i :: _, some j => (track j).map fun v => (i, v)
  | _, _ => none

end Bark.Run
