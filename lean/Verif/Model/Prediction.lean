import Verif.Model.Basic
import Mathlib.Algebra.Order.Field.Basic
import Mathlib.Algebra.Order.Field.Rat
import Mathlib.Order.Nat

/-!
Model of `bark/world/prediction/prediction_settings.{hpp,cpp}` and of the prediction functions of `bark/world/observed_world.cpp`.

Behaviour models are objects on a heap (`std::shared_ptr`); `B` is everything a model's `Clone` copies except its status.  Of an agent
only the pointer to its behaviour model and its first valid time stamp are kept.  `Step` of the predicted world is reduced to what it
does to the behaviour models: every agent's model is replaced by what planning makes of it (`plan`, an arbitrary function); the rest of
`Step` is in `Model/World`.
-/
namespace Bark.Pred
open Bark

/-- behavior_model.hpp:79-83 `BehaviorStatus` -/
inductive Status
  | notStarted
  | valid
  | expired
  deriving DecidableEq

/-- a behaviour model; `none` is `BehaviorNotStarted` (not_started/behavior_not_started.hpp:28-60) -/
structure Beh (B : Type) where
  body : Option B
  status : Status

/-- allocated behaviour models -/
structure Heap (B : Type) where
  next : Nat
  mem : Nat → Option (Beh B)

/-- agent.hpp: pointer to the behaviour model and `first_valid_timestamp_` -/
structure Agent (K : Type) where
  beh : Nat
  firstValid : K

/-- observed_world.hpp:42-163: the agents, `ego_agent_id_` and the world time -/
structure ObsWorld (K : Type) where
  agents : OMap Nat (Agent K)
  ego : Nat
  time : K

/-- prediction_settings.hpp:57-60; null pointers are `none`, `agents` is the `std::set` in increasing order -/
structure Settings where
  ego : Option Nat
  dflt : Option Nat
  specific : Option Nat
  agents : List Nat

section
variable {K B : Type} [Field K] [LinearOrder K] [IsStrictOrderedRing K]

/-- `std::make_shared` -/
def alloc (h : Heap B) (b : Beh B) : Heap B × Nat :=
  ({ next := h.next + 1
     mem := fun r => if r = h.next then some b else h.mem r }, h.next)

/-- `model->Clone()` (a member-wise copy, e.g. behavior_not_started.hpp:49-53); a null or dangling pointer is undefined behaviour -/
def cloneBeh (h : Heap B) : Option Nat → Res (Heap B × Nat)
  | none => .error .ub
  | some r => match h.mem r with
    | none => .error .ub
    | some b => .ok (alloc h b)

/-- observed_world.hpp:93-100 `SetEgoBehaviorModel`, `SetBehaviorModel`: an unknown id dereferences a null pointer -/
def setBeh (w : ObsWorld K) (i : Nat) (r : Nat) : Res (ObsWorld K) :=
  match OMap.find i w.agents with
  | none => .error .ub
  | some _ => .ok { w with agents := OMap.modify i (fun a => { a with beh := r }) w.agents }

/-- agent.cpp:178-181 `IsValidAtTime`; `eps` is the machine epsilon -/
def validAt (eps time : K) (a : Agent K) : Bool := decide (a.firstValid ≤ time + eps)

/-- `agent->GetBehaviorModel()` dereferenced -/
def load (h : Heap B) (r : Nat) : Res (Beh B) :=
  match h.mem r with
  | none => .error .ub
  | some b => .ok b

/-- clone `m` and give it to agent `i` -/
def assignClone (m : Option Nat) (i : Nat) (s : Heap B × ObsWorld K) : Res (Heap B × ObsWorld K) := do
  let c ← cloneBeh s.1 m
  let w ← setBeh s.2 i c.2
  .ok (c.1, w)

/-- prediction_settings.cpp:44-59, one round of the loop over the other agents -/
def defaultRound (eps : K) (st : Settings) (p : Nat × Agent K) (s : Heap B × ObsWorld K) : Res (Heap B × ObsWorld K) := do
  let b ← load s.1 p.2.beh
  if b.status = .valid ∧ validAt eps s.2.time p.2 = true then
    if p.1 ∈ st.agents then .ok s else assignClone st.dflt p.1 s
  else do
    let c := alloc s.1 { body := none, status := .notStarted }
    let w ← setBeh s.2 p.1 c.2
    .ok (c.1, w)

/-- prediction_settings.cpp:44-59: the loop -/
def defaultLoop (eps : K) (st : Settings) : List (Nat × Agent K) → Heap B × ObsWorld K → Res (Heap B × ObsWorld K)
  | [], s => .ok s
  | p :: ps, s => do
    let s1 ← defaultRound eps st p s
    defaultLoop eps st ps s1

/-- prediction_settings.cpp:62-65 -/
def specificLoop (st : Settings) : List Nat → Heap B × ObsWorld K → Res (Heap B × ObsWorld K)
  | [], s => .ok s
  | i :: is, s => do
    let s1 ← assignClone st.specific i s
    specificLoop st is s1

/-- prediction_settings.cpp:43-60: default models if there is one (the loop runs over the copy `GetOtherAgents` returns,
observed_world.hpp:81-85) -/
def defaultPart (eps : K) (st : Settings) (s : Heap B × ObsWorld K) : Res (Heap B × ObsWorld K) :=
  if st.dflt.isSome = true then defaultLoop eps st (OMap.erase s.2.ego s.2.agents) s else .ok s

/-- prediction_settings.cpp:61-66 -/
def specificPart (st : Settings) (s : Heap B × ObsWorld K) : Res (Heap B × ObsWorld K) :=
  if st.specific.isSome = true then specificLoop st st.agents s else .ok s

/-- prediction_settings.cpp:38-67 `ApplySettings` -/
def apply (eps : K) (st : Settings) (s : Heap B × ObsWorld K) : Res (Heap B × ObsWorld K) := do
  let s1 ← assignClone st.ego s.2.ego s
  let s2 ← defaultPart eps st s1
  specificPart st s2

/-! ### Predict -/

/-- the behaviour models of the agents are cloned one after the other (world.hpp:232-246, agent.cpp:183-199) -/
def cloneAll : OMap Nat (Agent K) → Heap B → Res (Heap B × OMap Nat (Agent K))
  | [], h => .ok (h, [])
  | (i, a) :: m, h => do
    let c ← cloneBeh h (some a.beh)
    let r ← cloneAll m c.1
    .ok (r.1, (i, { a with beh := c.2 }) :: r.2)

/-- observed_world.hpp:149-154 `Clone` -/
def cloneWorld (s : Heap B × ObsWorld K) : Res (Heap B × ObsWorld K) := do
  let r ← cloneAll s.2.agents s.1
  .ok (r.1, { s.2 with agents := r.2 })

/-- world.cpp:69-84 reduced to the behaviour models: each agent's model is replaced by what planning makes of it -/
def stepBeh (plan : Nat → Beh B → Beh B) : OMap Nat (Agent K) → Heap B → Heap B
  | [], h => h
  | (i, a) :: m, h =>
    stepBeh plan m { h with mem := fun r => if r = a.beh then (h.mem r).map (plan i) else h.mem r }

/-- observed_world.cpp:95-100 `Predict(time_span)` -/
def predict (plan : Nat → Beh B → Beh B) (s : Heap B × ObsWorld K) : Res (Heap B × ObsWorld K) := do
  let c ← cloneWorld s
  .ok (stepBeh plan c.2.agents c.1, c.2)

/-- `ActionToBehavior` through the cast to `BehaviorMotionPrimitives`: `setAct` is `none` for all other models, which are left as they
are (observed_world.cpp:106-114, 128-137) -/
def giveAction {A : Type} (setAct : A → B → Option B) (x : A) (b : Beh B) : Beh B :=
  match b.body with
  | none => b
  | some bd => match setAct x bd with
    | none => b
    | some bd' => { b with body := some bd' }

/-- observed_world.cpp:124-138: one action per agent id, in any order; unknown ids are skipped -/
def giveActions {A : Type} (setAct : A → B → Option B) (w : ObsWorld K) : List (Nat × A) → Heap B → Heap B
  | [], h => h
  | (i, x) :: xs, h =>
    match OMap.find i w.agents with
    | none => giveActions setAct w xs h
    | some a => giveActions setAct w xs
        { h with mem := fun r => if r = a.beh then (h.mem r).map (giveAction setAct x) else h.mem r }

/-- observed_world.cpp:119-141 `Predict(time_span, agent_action_map)`; with one pair for the ego agent it is
`Predict(time_span, ego_action)` (102-117), except that the latter dereferences a null pointer if there is no ego agent -/
def predictActions {A : Type} (setAct : A → B → Option B) (plan : Nat → Beh B → Beh B) (acts : List (Nat × A))
    (s : Heap B × ObsWorld K) : Res (Heap B × ObsWorld K) := do
  let c ← cloneWorld s
  .ok (stepBeh plan c.2.agents (giveActions setAct c.2 acts c.1), c.2)

/-- observed_world.cpp:150-166: the models are set as they are passed; unknown ids are skipped -/
def setModels : List (Nat × Nat) → OMap Nat (Agent K) → OMap Nat (Agent K)
  | [], m => m
  | (i, r) :: rs, m => setModels rs (OMap.modify i (fun a => { a with beh := r }) m)

/-- observed_world.cpp:144-169 `Predict(time_span, ego_behavior_model, other_behaviors)` -/
def predictModels (plan : Nat → Beh B → Beh B) (egoModel : Nat) (others : List (Nat × Nat)) (s : Heap B × ObsWorld K) :
    Res (Heap B × ObsWorld K) := do
  let c ← cloneWorld s
  let w : ObsWorld K := { c.2 with agents := setModels ((c.2.ego, egoModel) :: others) c.2.agents }
  .ok (stepBeh plan w.agents c.1, w)

end
end Bark.Pred
