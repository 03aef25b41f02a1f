import Verif.Model.Basic
import Mathlib.Order.Nat

/-!
Object identities: the static counter behind `Object` and the operations that create objects or
change their id.  An object is named by its handle, the position in the list of all objects created
so far (objects are never removed from the list: a handle stands for a `shared_ptr` that may have
been kept).  Simplified: only the id of an object is kept; destruction is not modelled because it
does not touch the counter.
-/
namespace Bark.Ids

/-- object.hpp:19 `typedef unsigned int AgentId` (32 bits on every supported platform) -/
def idRange : Nat := 4294967296

/-- The part of a process that concerns ids: the static counter (object.cpp:15, object.hpp:51) and
the ids of the objects created so far, in order of creation. -/
structure Proc where
  count : Nat
  ids : List Nat
  deriving DecidableEq, Repr

/-- object.cpp:15: a fresh process starts with `agent_count = 0`. -/
def Proc.start : Proc := ⟨0, []⟩

/-- What user code can do to objects. -/
inductive Op where
  /-- construct an `Object` or `Agent` -/
  | construct
  /-- `Clone()` or copy construction of the object with this handle -/
  | clone (h : Nat)
  /-- `SetAgentId` -/
  | setId (h : Nat) (id : Nat)
  /-- unpickle an agent that was pickled with this id (in this or another process) -/
  | restore (id : Nat)
  deriving DecidableEq, Repr

/-- object.cpp:17-22 `Object::Object`: `agent_id_(agent_count++)`, unsigned wrap-around -/
def construct (p : Proc) : Proc :=
  ⟨(p.count + 1) % idRange, p.ids ++ [p.count]⟩

/-- object.hpp:29-33 copy constructor, object.cpp:24-27 `Object::Clone`,
agent.cpp:183-185 `Agent::Clone` (which in addition sets the id it already has);
an unknown handle stands for a null pointer -/
def clone (p : Proc) (h : Nat) : Res Proc :=
  match p.ids[h]? with
  | some i => .ok ⟨p.count, p.ids ++ [i]⟩
  | none => .error .ub

/-- object.hpp:42 `SetAgentId` -/
def setId (p : Proc) (h id : Nat) : Res Proc :=
  match p.ids[h]? with
  | some _ => .ok ⟨p.count, p.ids.set h id⟩
  | none => .error .ub

/-- python_wrapper/world/agent.cpp:93-100 unpickling: the `Agent` constructor runs (and takes an id
from the counter), then `SetAgentId` overwrites it with the stored id. -/
def restore (p : Proc) (id : Nat) : Proc :=
  ⟨(construct p).count, p.ids ++ [id]⟩

/-- One operation. -/
def step (p : Proc) : Op → Res Proc
  | .construct => .ok (construct p)
  | .clone h => clone p h
  | .setId h id => setId p h id
  | .restore id => .ok (restore p id)

/-- A sequence of operations. -/
def run : Proc → List Op → Res Proc
  | p, [] => .ok p
  | p, o :: os => step p o >>= fun q => run q os

/-- The two id-keyed containers of a world (world.hpp: `agents_`, `objects_`), values are handles. -/
structure Store where
  agents : OMap Nat Nat
  objects : OMap Nat Nat
  deriving DecidableEq, Repr

/-- world.cpp:131-133 `AddAgent`: `agents_[agent->agent_id_] = agent` -/
def addAgent (p : Proc) (s : Store) (h : Nat) : Res Store :=
  match p.ids[h]? with
  | some i => .ok { s with agents := OMap.insert i h s.agents }
  | none => .error .ub

/-- world.cpp:135-137 `AddObject` -/
def addObject (p : Proc) (s : Store) (h : Nat) : Res Store :=
  match p.ids[h]? with
  | some i => .ok { s with objects := OMap.insert i h s.objects }
  | none => .error .ub

/-- A sequence of `AddAgent` calls. -/
def addAgents (p : Proc) : Store → List Nat → Res Store
  | s, [] => .ok s
  | s, h :: hs => addAgent p s h >>= fun s' => addAgents p s' hs

end Bark.Ids
