import Verif.Model.Basic
import Mathlib.Order.Nat
import Mathlib.Algebra.Order.Field.Rat

/-!
Model of `bark/models/behavior/motion_primitives/macro_actions.cpp`, `random_macro_actions.hpp` and of the primitives in
`motion_primitives/primitives/`.

`K` are numbers, `C` lane corridors, `T` trajectories and `A` actions. Primitives are shared objects on a heap. What a primitive plans
along a corridor is an arbitrary function `gen` (it is `GenerateTrajectory` of lane tracking, modelled in `Model/Dynamics`).
-/
namespace Bark.Mac
open Bark

/-- the four primitive classes -/
inductive Kind
  | stay
  | left
  | right
  | gap
  deriving DecidableEq

/-- the parameters of a primitive: `acceleration_`, `min_length_` (change primitives), `restrict_brake_for_lane_end_` -/
structure Prim (K : Type) where
  kind : Kind
  acc : K
  minLen : K
  restrict : Bool

/-- a primitive object: its parameters, `last_action_` (primitive.hpp:94) and the last trajectory of the behaviour it also is -/
structure Obj (K A T : Type) where
  prim : Prim K
  lastAction : A
  lastTraj : T

/-- the allocated primitives -/
abbrev Heap (K A T : Type) := Nat → Option (Obj K A T)

/-- what the primitives look at in an observed world. `lane`: observed_world.cpp:76-89 (nearest lane corridor); `here`:
`GetRoadCorridor()->GetCurrentLaneCorridor(ego position)`; `sides c`: `GetLeftRightLaneCorridor` at the point of `c` nearest to the ego
(macro_actions.cpp:88-93); `remaining c`: `LengthUntilEnd` at that point; acceleration limits of the ego's dynamic model, if it is a
single track model. -/
structure View (K C : Type) where
  lane : Option C
  here : Option C
  sides : C → Option C × Option C
  remaining : C → K
  accMin : K
  accMax : K
  singleTrack : Bool

/-- primitive.hpp:33-37; `current` is never null when used (it is dereferenced in macro_actions.cpp:89) -/
structure Adj (C : Type) where
  current : C
  left : Option C
  right : Option C

/-- macro_actions.hpp: the behaviour; `active` is the discrete action set by `ActionToBehavior` (motion_primitives.hpp:48-50; an action
of another type makes `boost::get` throw and is not modelled) -/
structure Beh (C A T : Type) where
  prims : List Nat
  valid : List Nat
  check : Bool
  target : Option C
  active : Nat
  lastAction : A
  lastTraj : T

section
variable {K C A T : Type} [LinearOrder K]

/-- macro_actions.cpp:82-96 `GetCorridors`: the target corridor, initially the nearest one; null is dereferenced -/
def corridors (v : View K C) (target : Option C) : Res (Adj C) :=
  match target with
  | some c => .ok ⟨c, (v.sides c).1, (v.sides c).2⟩
  | none => match v.lane with
    | none => .error .ub
    | some c => .ok ⟨c, (v.sides c).1, (v.sides c).2⟩

/-- primitive_const_acc_change_to_left.cpp:32-49, primitive_const_acc_change_to_right.cpp:31-48 -/
def longEnough (v : View K C) (minLen : K) : Option C → Bool
  | none => false
  | some c => decide (v.remaining c ≥ minLen)

/-- `IsPreConditionSatisfied`: primitive_const_acc_stay_lane.cpp:28-41 (other dynamic models abort), primitive_const_acc_change_to_left.cpp:32-49,
primitive_const_acc_change_to_right.cpp:31-48, primitive_gap_keeping.hpp:31-35 -/
def precond (v : View K C) (a : Adj C) (p : Prim K) : Res Bool :=
  match p.kind with
  | .stay => if v.singleTrack = true then .ok (decide (p.acc ≥ v.accMin) && decide (p.acc ≤ v.accMax)) else .error .thrown
  | .left => .ok (longEnough v p.minLen a.left)
  | .right => .ok (longEnough v p.minLen a.right)
  | .gap => .ok true

/-- `SelectTargetCorridor`: primitive_const_acc_stay_lane.cpp:117-124, primitive_const_acc_change_to_left.cpp:16-31, primitive_const_acc_change_to_right.cpp:15-30, primitive_gap_keeping.hpp:50-55 -/
def select (v : View K C) (a : Adj C) (p : Prim K) : Option C :=
  match p.kind with
  | .stay => some a.current
  | .left => match a.left with
    | some c => some c
    | none => some a.current
  | .right => match a.right with
    | some c => some c
    | none => some a.current
  | .gap => v.here

/-- the corridor a primitive plans along: gap keeping ignores the target and takes the nearest corridor (primitive_gap_keeping.hpp:36-42,
base_idm.cpp:366-397) -/
def driven (v : View K C) (p : Prim K) (target : Option C) : Option C :=
  match p.kind with
  | .gap => v.lane
  | _ => target

/-- `Plan` of a primitive: primitive_const_acc_stay_lane.cpp:43-76, primitive_gap_keeping.hpp:36-42. Without a corridor the primitive's own status expires
and its last trajectory is returned. -/
def planPrim (gen : Prim K → View K C → C → T × A) (v : View K C) (target : Option C) (o : Obj K A T) : Obj K A T × T :=
  match driven v o.prim target with
  | none => (o, o.lastTraj)
  | some c => ({ o with
      lastAction := (gen o.prim v c).2
      lastTraj := (gen o.prim v c).1 }, (gen o.prim v c).1)

/-- dereferencing a pointer to a primitive -/
def load (h : Heap K A T) (r : Nat) : Res (Obj K A T) :=
  match h r with
  | none => .error .ub
  | some o => .ok o

/-- `vector::at` -/
def at' (l : List Nat) (i : Nat) : Res Nat :=
  match l[i]? with
  | none => .error .thrown
  | some x => .ok x

/-- macro_actions.cpp:102-110: the indices of the primitives whose precondition holds -/
def validFrom (h : Heap K A T) (v : View K C) (a : Adj C) : Nat → List Nat → Res (List Nat)
  | _, [] => .ok []
  | i, r :: rs => do
    let o ← load h r
    let ok ← precond v a o.prim
    let rest ← validFrom h v a (i + 1) rs
    .ok (if ok = true then i :: rest else rest)

/-- macro_actions.cpp:51-56: the valid primitives are only determined if there are none yet -/
def refresh (h : Heap K A T) (v : View K C) (a : Adj C) (b : Beh C A T) : Res (List Nat) :=
  if b.valid.isEmpty = true then validFrom h v a 0 b.prims else .ok b.valid

/-- macro_actions.cpp:47-62: the list of valid primitives kept and the index of the primitive to execute -/
def choose (h : Heap K A T) (v : View K C) (a : Adj C) (b : Beh C A T) : Res (List Nat × Nat) :=
  if b.check = true then do
    let vs ← refresh h v a b
    let j ← at' vs b.active
    .ok (vs, j)
  else .ok (b.valid, b.active)

/-- macro_actions.cpp:34-72 `Plan`; the status of the behaviour is always VALID afterwards -/
def plan (gen : Prim K → View K C → C → T × A) (v : View K C) (h : Heap K A T) (b : Beh C A T) :
    Res (Heap K A T × Beh C A T × T) := do
  let a ← corridors v b.target
  let c ← choose h v a b
  let r ← at' b.prims c.2
  let o ← load h r
  let t := select v a o.prim
  let res := planPrim gen v t o
  let h' : Heap K A T := fun q => if q = r then some res.1 else h q
  let r2 ← at' b.prims b.active
  let o2 ← load h' r2
  .ok (h', { b with
    valid := c.1
    target := t
    lastAction := o2.lastAction
    lastTraj := res.2 }, res.2)

/-- motion_primitives.hpp:48-50 `ActionToBehavior` -/
def setAction (i : Nat) (b : Beh C A T) : Beh C A T := { b with active := i }

/-- macro_actions.cpp:77-81 `GetNumMotionPrimitives` -/
def numPrimitives (b : Beh C A T) : Nat := b.prims.length

/-- macro_actions.cpp:116-121 `GetValidPrimitives` -/
def validPrimitives (b : Beh C A T) : List Nat := b.valid

/-- macro_actions.cpp:122-126 `Clone`: the primitives are shared -/
def clone (b : Beh C A T) : Beh C A T := b

/-- random_macro_actions.hpp:39-45; `draw lo hi` is the number drawn from `lo … hi`. Without primitives the upper bound is -1, which is
undefined. -/
def planRandom (gen : Prim K → View K C → C → T × A) (draw : Nat → Nat → Nat) (v : View K C) (h : Heap K A T) (b : Beh C A T) :
    Res (Heap K A T × Beh C A T × T) :=
  if b.prims.length = 0 then .error .ub else plan gen v h (setAction (draw 0 (b.prims.length - 1)) b)

/-- a sequence of actions, each planned in the world given with it -/
def run (gen : Prim K → View K C → C → T × A) : List (Nat × View K C) → Heap K A T × Beh C A T → Res (Heap K A T × Beh C A T)
  | [], s => .ok s
  | (i, v) :: xs, s => do
    let r ← plan gen v s.1 (setAction i s.2)
    run gen xs (r.1, r.2.1)

/-- `isEqual` and `typeid` comparison (primitive.hpp:80-82, primitive_const_acc_stay_lane.hpp:58-62, primitive_gap_keeping.hpp:56-60); the parameters of
lane tracking are not modelled (they are compared, see C70) -/
def primEq (p q : Prim K) : Bool :=
  decide (p.kind = q.kind) && (decide (p.kind = .gap) || decide (p.acc = q.acc))

/-- macro_actions.cpp:135-139 -/
def primsEq : List (Prim K) → List (Prim K) → Bool
  | [], [] => true
  | p :: ps, q :: qs => primEq p q && primsEq ps qs
  | _, _ => false

/-- macro_actions.cpp:129-144 `operator==` of two macro-action behaviours with the given primitives -/
def behEq (check check' : Bool) (ps qs : List (Prim K)) : Bool :=
  decide (check = check') && (decide (ps.length = qs.length) && primsEq ps qs)

end
end Bark.Mac
