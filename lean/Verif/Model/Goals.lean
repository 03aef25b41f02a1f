import Verif.Model.Basic

/-!
Model of `bark/world/goal_definition/goal_definition_sequential.{hpp,cpp}`.

Goal definitions are objects on a heap (address = index), because `sequential_goals_` stores shared
pointers.  `A` is whatever `AtGoal` reads of the agent.  Goals other than the sequential one (polygon,
state limits, Frenet state limits) have no mutable state, their `AtGoal` is a function of the agent
(they are modelled in `Model/GoalLimits.lean`).
-/
namespace Bark.Goal

/-- a goal object; `subs` = `sequential_goals_`, `last` = `last_sequential_goal_reached_` –
goal_definition_sequential.hpp:61-62 -/
inductive Obj (A : Type) where
  | leaf (p : A → Bool)
  | seq (subs : List Nat) (last : Int)

/-- all goal objects -/
abbrev Heap (A : Type) := List (Obj A)

variable {A : Type}

/-- constructor from a list of goals – goal_definition_sequential.hpp:32-36 -/
def new (subs : List Nat) : Obj A := .seq subs (-1)

/-- `last_sequential_goal_reached_ = v` -/
def Obj.setLast (v : Int) : Obj A → Obj A
  | .leaf p => .leaf p
  | .seq subs _ => .seq subs v

/-- `last_sequential_goal_reached_ += 1` -/
def Obj.incLast : Obj A → Obj A
  | .leaf p => .leaf p
  | .seq subs last => .seq subs (last + 1)

/-- the comparison at the end of `AtGoal` (`int` with `size_t`) – goal_definition_sequential.cpp:35-39 -/
def Obj.finished : Obj A → Bool
  | .leaf _ => false
  | .seq subs last => decide (last = (subs.length : Int) - 1)

/-- the final test of `AtGoal` on the object at `g` -/
def finished (h : Heap A) (g : Nat) : Bool :=
  match h[g]? with
  | some o => o.finished
  | none => false

/-- `AtGoal` – goal_definition_sequential.cpp:16-40; `fuel` bounds the nesting depth.  An empty
sequence indexes out of range. -/
def atGoal (x : A) : Nat → Heap A → Nat → Res (Heap A × Bool)
  | 0, _, _ => .error .diverges
  | fuel + 1, h, g =>
    match h[g]? with
    | none => .error .ub
    | some (.leaf p) => .ok (h, p x)
    | some (.seq subs last) =>
      if last = -1 then
        match subs[0]? with
        | none => .error .ub
        | some s => do
          let r ← atGoal x fuel h s
          let h' := if r.2 then r.1.modify g (Obj.setLast 0) else r.1
          .ok (h', finished h' g)
      else if subs.length = 0 then .error .ub
      else if (subs.length : Int) - 1 ≥ last + 1 then
        match subs[(last + 1).toNat]? with
        | none => .error .ub
        | some s => do
          let r ← atGoal x fuel h s
          let h' := if r.2 then r.1.modify g Obj.incLast else r.1
          .ok (h', finished h' g)
      else .ok (h, finished h g)

/-- a history of `AtGoal` queries; returns all answers -/
def queries (fuel : Nat) (g : Nat) : List A → Heap A → Res (Heap A × List Bool)
  | [], h => .ok (h, [])
  | x :: xs, h => do
    let r ← atGoal x fuel h g
    let r' ← queries fuel g xs r.1
    .ok (r'.1, r.2 :: r'.2)

/-- `AddSequentialGoal` – goal_definition_sequential.hpp:38-40 -/
def addSequentialGoal (h : Heap A) (g s : Nat) : Heap A :=
  h.modify g (fun o => match o with
    | .leaf p => .leaf p
    | .seq subs last => .seq (subs ++ [s]) last)

/-- `GetCurrentGoal` – goal_definition_sequential.cpp:42-47; `.at` throws out of range -/
def currentGoal (h : Heap A) (g : Nat) : Res Nat :=
  match h[g]? with
  | some (.seq subs last) =>
    match subs[(if last = -1 then 0 else last).toNat]? with
    | some s => .ok s
    | none => .error .thrown
  | _ => .error .ub

/-- `GetNextGoal` – goal_definition_sequential.cpp:49-57; `none` is the null pointer -/
def nextGoal (h : Heap A) (g : Nat) : Res (Option Nat) :=
  match h[g]? with
  | some (.seq subs last) =>
    if last = -1 then
      match subs[0]? with
      | some s => .ok (some s)
      | none => .error .thrown
    else if last + 1 < (subs.length : Int) then
      match subs[(last + 1).toNat]? with
      | some s => .ok (some s)
      | none => .error .thrown
    else .ok none
  | _ => .error .ub

/-- `Clone` – goal_definition_sequential.hpp:65-67: copy constructor, i.e. the pointers to the subgoals
are copied.  Returns the address of the clone. -/
def clone (h : Heap A) (g : Nat) : Heap A × Nat :=
  match h[g]? with
  | some o => (h ++ [o], h.length)
  | none => (h, g)

end Bark.Goal
