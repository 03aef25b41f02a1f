import Verif.Model.Basic
import Mathlib.Order.Nat

/-!
Pointer-level model of cloning (C11): `World::Clone`, `Agent::Clone`, the `Clone` methods of models,
`Observe` and `Predict`. Objects live on a heap and refer to each other by `Ref` (`std::shared_ptr`).
Values (histories, trajectories, parameters, …) are abstract (`V`).
-/
namespace Bark.Ptr

abbrev Ref := Nat

/-- A heap object. `own` are the pointers that `Agent::Clone` copies deeply (for an agent: behaviour,
dynamic, execution model and goal definition, agent.cpp:183-199); `shared` are all pointers that are
copied as pointers (for an agent: road corridor, sensed world, parameters; for a model: everything). -/
structure Obj (V : Type) where
  val : V
  own : List Ref
  shared : List Ref

/-- all outgoing pointers -/
def Obj.refs {V : Type} (o : Obj V) : List Ref := o.own ++ o.shared

/-- the heap; allocation is at `next` -/
structure Heap (V : Type) where
  next : Ref
  mem : Ref → Option (Obj V)

/-- a world: world.hpp:216-227; `extra` are the pointers that the copy constructor
(world.cpp:49-63) shares: map, observer, evaluators, renderer, parameters. -/
structure WorldR where
  agents : OMap Nat Ref
  extra : List Ref

variable {V : Type}

/-- `std::make_shared` -/
def alloc (h : Heap V) (o : Obj V) : Heap V × Ref :=
  ({ next := h.next + 1, mem := fun r => if r = h.next then some o else h.mem r }, h.next)

/-- `Clone` of a behaviour / dynamic / execution model or goal: `make_shared<X>(*this)`, a member-wise copy
in which inner pointers stay shared (e.g. behavior_rss.hpp:216-220, behavior_safety.hpp:82-85,
macro_actions.cpp Clone, goal_definition_sequential.hpp:64-66, interpolate.hpp:67-71). -/
def cloneModel (h : Heap V) (r : Ref) : Res (Heap V × Ref) :=
  match h.mem r with
  | none => .error .ub
  | some o => .ok (alloc h o)

/-- the four `if (ptr) new->ptr = ptr->Clone()` of agent.cpp:186-197 -/
def cloneModels (h : Heap V) : List Ref → Res (Heap V × List Ref)
  | [] => .ok (h, [])
  | r :: rs => do
      let (h1, r') ← cloneModel h r
      let (h2, rs') ← cloneModels h1 rs
      .ok (h2, r' :: rs')

/-- agent.cpp:183-199 `Agent::Clone` -/
def cloneAgent (h : Heap V) (r : Ref) : Res (Heap V × Ref) :=
  match h.mem r with
  | none => .error .ub
  | some o => do
      let (h1, own') ← cloneModels h o.own
      .ok (alloc h1 { val := o.val, own := own', shared := o.shared })

/-- the agent loop of world.hpp:235-238 (objects are cloned alike and omitted) -/
def cloneAgents (h : Heap V) : OMap Nat Ref → Res (Heap V × OMap Nat Ref)
  | [] => .ok (h, [])
  | (i, r) :: m => do
      let (h1, r') ← cloneAgent h r
      let (h2, m') ← cloneAgents h1 m
      .ok (h2, (i, r') :: m')

/-- world.hpp:232-246 `World::Clone` -/
def cloneWorld (h : Heap V) (w : WorldR) : Res (Heap V × WorldR) := do
  let (h1, m) ← cloneAgents h w.agents
  .ok (h1, { agents := m, extra := w.extra })

/-- observer_model_none.hpp:47-53: the observed world is the given world object's pointers; world.cpp:152-167
clones the world once for all requested ids. -/
def observeNone (h : Heap V) (w : WorldR) (ids : List Nat) : Res (Heap V × List (Nat × WorldR)) := do
  let (h1, c) ← cloneWorld h w
  .ok (h1, (ids.filter (fun i => (OMap.find i w.agents).isSome)).map (fun i => (i, c)))

/-- observer_model_parametric.cpp:46-49: the parametric observer clones the world again per observation. -/
def observeParametric (h : Heap V) (w : WorldR) : List Nat → Res (Heap V × List (Nat × WorldR))
  | [] => .ok (h, [])
  | i :: ids => do
      let (h1, c) ← cloneWorld h w
      let (h2, rest) ← observeParametric h1 w ids
      .ok (h2, (i, c) :: rest)

/-- What running code can do to the heap. -/
inductive HeapOp (V : Type) where
  | write (r : Ref) (o : Obj V)
  | alloc (o : Obj V)

def execOp (h : Heap V) : HeapOp V → Heap V
  | .write r o => { h with mem := fun x => if x = r then some o else h.mem x }
  | .alloc o => (alloc h o).1

def exec (h : Heap V) (ops : List (HeapOp V)) : Heap V := ops.foldl execOp h

end Bark.Ptr
