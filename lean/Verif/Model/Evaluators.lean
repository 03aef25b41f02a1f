import Verif.Model.World

/-!
Model of the evaluators in `bark/world/evaluation/*.{hpp,cpp}` and `safe_distances/evaluator_safe_dist_base.hpp`,
`evaluator_static_safe_dist.cpp`, on the world of `Model/World.lean`.

Geometry enters through `poly` (`Agent::GetPolygonFromState`) and `collide`/`within` (boost); they are
arbitrary.  `EvaluationReturn` is a variant; each evaluator uses one alternative of it.
-/
namespace Bark.Eval
open Bark

set_option linter.unusedSectionVars false
section
variable {K St Act B E Sh Box O Poly : Type} [Field K] [LinearOrder K] [IsStrictOrderedRing K]
variable (P : Plug K St Act B E Sh Box O)

/-- agent.hpp `GetPolygonFromState(GetCurrentState())` -/
def polygon (poly : Sh → St → Poly) (a : Agent K St Act B E Sh) : Res Poly := do
  let s ← a.currentState
  .ok (poly a.shape s)

/-- the inner loop evaluator_collision_agents.cpp:24-34 -/
def collInner (poly : Sh → St → Poly) (collide : Poly → Poly → Bool) (id1 : Nat) (p1 : Poly) :
    List (Nat × Agent K St Act B E Sh) → Bool → Res Bool
  | [], c => .ok c
  | x :: m, c => do
    let p2 ← polygon poly x.2
    if x.1 ≠ id1 ∧ collide p1 p2 = true then .ok true
    else if c = true then .ok c
    else collInner poly collide id1 p1 m c

/-- the outer loop evaluator_collision_agents.cpp:21-35; `vs` is what the inner `GetValidAgents` returns -/
def collOuter (poly : Sh → St → Poly) (collide : Poly → Poly → Bool)
    (vs : List (Nat × Agent K St Act B E Sh)) : List (Nat × Agent K St Act B E Sh) → Bool → Res Bool
  | [], c => .ok c
  | x :: m, c => do
    let p1 ← polygon poly x.2
    let c' ← collInner poly collide x.1 p1 vs c
    collOuter poly collide vs m c'

/-- evaluator_collision_agents.cpp:16-37 -/
def collisionAgents (poly : Sh → St → Poly) (collide : Poly → Poly → Bool) (w : World K St Act B E Sh Box O) : Res Bool :=
  collOuter poly collide (World.getValidAgents P w) (World.getValidAgents P w) false

/-- the loop evaluator_collision_ego_agent.cpp:34-43 and 58-67 -/
def egoLoop (poly : Sh → St → Poly) (collide : Poly → Poly → Bool) (ego : Nat) (pe : Poly) :
    List (Nat × Agent K St Act B E Sh) → Res Bool
  | [] => .ok false
  | x :: m =>
    if ego ≠ x.2.id then do
      let p ← polygon poly x.2
      if collide pe p = true then .ok true else egoLoop poly collide ego pe m
    else egoLoop poly collide ego pe m

/-- evaluator_collision_ego_agent.cpp:21-45; `nearest s` is the query for the 4 nearest boxes to the
position of state `s` -/
def collisionEgo (poly : Sh → St → Poly) (collide : Poly → Poly → Bool)
    (nearest : St → List (Box × Nat) → List (Box × Nat)) (ego : Nat) (w : World K St Act B E Sh Box O) : Res Bool :=
  match w.getAgent ego with
  | none => .ok false
  | some a => do
    let s ← a.currentState
    let near ← World.getNearestAgents P (nearest s) w
    egoLoop poly collide ego (poly a.shape s) near

/-- the loop evaluator_static_safe_dist.cpp:47-69; `inflated` is the inflated shape placed at a state -/
def staticLoop (poly inflated : Sh → St → Poly) (collide : Poly → Poly → Bool) (ego : Nat)
    (a : Agent K St Act B E Sh) (s : St) : List (Nat × Agent K St Act B E Sh) → Res Bool
  | [] => .ok false
  | x :: m =>
    if ego ≠ x.2.id then do
      let p ← polygon poly x.2
      let q ← polygon inflated x.2
      if collide (inflated a.shape s) p = true then .ok true
      else if collide q (poly a.shape s) = true then .ok true
      else staticLoop poly inflated collide ego a s m
    else staticLoop poly inflated collide ego a s m

/-- evaluator_static_safe_dist.cpp:29-71 on the world observed by `ego` -/
def staticSafe (poly inflated : Sh → St → Poly) (collide : Poly → Poly → Bool)
    (nearest : St → List (Box × Nat) → List (Box × Nat)) (ego : Nat) (w : World K St Act B E Sh Box O) : Res Bool :=
  match w.getAgent ego with
  | none => .ok true
  | some a => do
    let s ← a.currentState
    let near ← World.getNearestAgents P (nearest s) w
    let c ← staticLoop poly inflated collide ego a s near
    .ok (!c)

/-- the loop evaluator_drivable_area.hpp:48-56; `road` is the polygon of the agent's road corridor, `none` is a
null corridor -/
def drivableLoop (poly : Sh → St → Poly) (within : Poly → Poly → Bool)
    (road : Agent K St Act B E Sh → Option Poly) : List (Nat × Agent K St Act B E Sh) → Res Bool
  | [] => .ok false
  | x :: m => do
    let p ← polygon poly x.2
    match road x.2 with
    | none => .error .ub
    | some r => if within p r = false then .ok true else drivableLoop poly within road m

/-- the value of `agent_id_` that means "all agents": `std::numeric_limits<unsigned>::max()` -/
def allAgents : Nat := 4294967295

/-- evaluator_drivable_area.hpp:31-57 -/
def drivableArea (poly : Sh → St → Poly) (within : Poly → Poly → Bool)
    (road : Agent K St Act B E Sh → Option Poly) (id : Nat) (w : World K St Act B E Sh Box O) : Res Bool :=
  if id ≠ allAgents then
    match w.getAgent id with
    | none => .ok true
    | some a => drivableLoop poly within road [(id, a)]
  else drivableLoop poly within road (World.getValidAgents P w)

/-- the loop evaluator_goal_reached.hpp:35-39: asks every agent once; `ask` is `Agent::AtGoal` (it may change
the goal objects `G`, see `Model/Goals.lean`) -/
def goalLoop {G : Type} (ask : G → Agent K St Act B E Sh → Res (G × Bool)) :
    List (Nat × Agent K St Act B E Sh) → G → Nat → Res (G × Nat)
  | [], g, n => .ok (g, n)
  | x :: m, g, n => do
    let r ← ask g x.2
    goalLoop ask m r.1 (if r.2 then n + 1 else n)

/-- evaluator_goal_reached.hpp:32-50 -/
def goalReached {G : Type} (ask : G → Agent K St Act B E Sh → Res (G × Bool)) (id : Nat)
    (w : World K St Act B E Sh Box O) (g : G) : Res (G × Bool) :=
  if id = allAgents then do
    let r ← goalLoop ask w.agents g 0
    .ok (r.1, decide (r.2 = w.agents.length))
  else
    match w.getAgent id with
    | none => .ok (g, false)
    | some a => ask g a

/-- evaluator_behavior_expired.hpp:35-46 -/
def behaviorExpired (id : Nat) (w : World K St Act B E Sh Box O) : Bool :=
  match w.getAgent id with
  | none => true
  | some a => decide (P.status a.behavior = .expired)

/-! Evaluators with state: one evaluation maps the state and the world to the new state and the result. -/

/-- evaluator_step_count.hpp:29-32 -/
def stepCount (_w : World K St Act B E Sh Box O) (n : Int) : Res (Int × Int) := .ok (n + 1, n + 1)

/-- `std::set::insert` -/
def setInsert (s : List Nat) (i : Nat) : List Nat := if i ∈ s then s else s ++ [i]

/-- evaluator_number_of_agents.cpp:18-35; the observed world has the agents of the clone -/
def numberOfAgents (id : Nat) (w : World K St Act B E Sh Box O) (seen : List Nat) : Res (List Nat × Nat) :=
  match w.getAgent id with
  | none => .ok (seen, seen.length)
  | some _ =>
    let s := (OMap.keys w.agents).foldl setInsert seen
    .ok (s, s.length)

/-- vector.hpp:19-26 `CalculateMean`, with the callers' result for an empty vector (NaN) -/
def mean (l : List K) : Res K := if l.isEmpty then .error .nan else .ok (l.foldl (· + ·) 0 / l.length)

/-- The evaluators of a mean: `value w a` is what is recorded for agent `a`, if anything.
evaluator_velocity.cpp:20-46 (`value` = velocity), evaluator_gap_distance_front.cpp:21-58 (gap to the agent in front, if
there is one), evaluator_planning_time.cpp:19-43 (solution time of the behaviour).  A NaN result is not a fault of the
evaluator: the result is an option. -/
def meanOf (value : World K St Act B E Sh Box O → Agent K St Act B E Sh → Res (Option K)) (id : Nat)
    (w : World K St Act B E Sh Box O) (vec : List K) : Res (List K × Option K) :=
  match w.getAgent id with
  | none => .ok (vec, (mean vec).toOption)
  | some a => do
    let v ← value w a
    .ok (vec ++ v.toList, (mean (vec ++ v.toList)).toOption)

/-- evaluator_safe_dist_base.hpp:23-32: `Observe({id}).at(0)` throws for an unknown agent; `check` is
`CheckSafeDistance` -/
def safeDist (check : Nat → World K St Act B E Sh Box O → Res Bool) (id : Nat) (w : World K St Act B E Sh Box O)
    (n : Int) : Res (Int × Int) :=
  match w.getAgent id with
  | none => .error .thrown
  | some _ => do
    let ok ← check id w
    let n' := n + (if ok then 0 else 1)
    .ok (n', n')

/-- a history of evaluations with the same evaluator object; all results -/
def evalAll {S R : Type} (f : World K St Act B E Sh Box O → S → Res (S × R)) :
    List (World K St Act B E Sh Box O) → S → Res (S × List R)
  | [], s => .ok (s, [])
  | w :: ws, s => do
    let r ← f w s
    let r' ← evalAll f ws r.1
    .ok (r'.1, r.2 :: r'.2)

/-! The world's own evaluators, world.hpp:221 `evaluators_` (a `std::map` from names to shared pointers).  `Ev` is
the state of all evaluator objects, by object number; `call k` is `Evaluate` of object `k`. -/

/-- world.cpp:139-142 `AddEvaluator` -/
def addEvaluator {N : Type} [LinearOrder N] (evs : OMap N Nat) (name : N) (k : Nat) : OMap N Nat := OMap.insert name k evs

/-- world.cpp:144-150 `Evaluate` -/
def evaluate {N S R : Type} (call : Nat → S → World K St Act B E Sh Box O → Res (S × R)) (w : World K St Act B E Sh Box O) :
    OMap N Nat → (Nat → S) → Res ((Nat → S) × OMap N R)
  | [], st => .ok (st, [])
  | x :: evs, st => do
    let r ← call x.2 (st x.2) w
    let r' ← evaluate call w evs (fun k => if k = x.2 then r.1 else st k)
    .ok (r'.1, (x.1, r.2) :: r'.2)

/-- world.cpp:48-64 (line 53): the copy constructor used by `Clone` copies the map of shared pointers: the clone has
the same evaluator objects -/
def cloneEvaluators {N : Type} (evs : OMap N Nat) : OMap N Nat := evs

/-- evaluator_distance_to_goal.hpp:32-44; `dist` is the distance of the agent's position to its goal's shape -/
def distanceToGoal (dist : Agent K St Act B E Sh → Res K) (id : Nat) (w : World K St Act B E Sh Box O) : Res K :=
  match w.getAgent id with
  | none => .error .ub
  | some a => dist a

end
end Bark.Eval
