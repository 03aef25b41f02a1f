import Verif.Model.Traffic
import Verif.Model.Bench
import Verif.Model.Evaluators
import Verif.Model.Goals
import Verif.Model.GoalLimits

/-!
One run of the benchmark (`Model/Bench`) of a world of vehicles with the classic IDM (`Model/Traffic`) with the evaluators for collisions, the number of steps
and the goal of one agent (`Model/Evaluators`, `Model/Goals`). Drawing is left out.
-/
namespace Bark.Flow
open Bark Bark.Ln

variable {Box Lane : Type}

/-- base_evaluator.hpp:23 `EvaluationReturn`: here a flag or a count -/
inductive Val where
  | flag (b : Bool)
  | num (n : Int)

/-- agent.hpp:122-137: what a goal definition sees of an agent -/
noncomputable def view (a : Agent ℝ V5 CAcc.Act Beh (Res (Interp.Exec V5)) Shape.Poly) : Res (Goal.AgentView Shape.Poly) :=
  match a.currentState with
  | .error f => .error f
  | .ok x => .ok ⟨((entries x).x, (entries x).y), (entries x).theta, (entries x).vel, outline a.shape x⟩

/-- agent.cpp:156-159 `Agent::AtGoal`: asks the goal definition of the agent (address `goalOf`); `depth` bounds the nesting of sequential goals -/
noncomputable def askGoal (depth : Nat) (goalOf : Nat → Nat) (h : Goal.Heap (Goal.AgentView Shape.Poly))
    (a : Agent ℝ V5 CAcc.Act Beh (Res (Interp.Exec V5)) Shape.Poly) : Res (Goal.Heap (Goal.AgentView Shape.Poly) × Bool) :=
  match view a with
  | .error f => .error f
  | .ok v => Goal.atGoal v depth h (goalOf a.id)

/-- what evaluations change: the counter of evaluator_step_count.hpp:39 and, through `AtGoal`, the goals of the agents -/
structure Memory where
  count : Int
  goals : Goal.Heap (Goal.AgentView Shape.Poly)

/-- what is simulated: the world and the memory of the evaluators -/
structure Job (Box : Type) where
  world : W Box
  memory : Memory

/-- what the run is set up with: the agent evaluated, its goals, the collision check of shapes -/
structure Task where
  depth : Nat
  goalOf : Nat → Nat
  ego : Nat
  collide : Shape.Poly → Shape.Poly → Bool

/-- `Evaluate` of the three evaluators: evaluator_collision_agents.cpp:16-37 (0), evaluator_step_count.hpp:29-32 (1), evaluator_goal_reached.hpp:32-50 (2) -/
noncomputable def call (u : Setup Box Lane) (t : Task) (k : Nat) (m : Memory) (w : W Box) : Res (Memory × Val) :=
  match k with
  | 0 =>
    match Eval.collisionAgents (plug u) outline t.collide w with
    | .error f => .error f
    | .ok b => .ok (m, .flag b)
  | 1 =>
    match Eval.stepCount w m.count with
    | .error f => .error f
    | .ok r => .ok ({ m with count := r.1 }, .num r.2)
  | _ =>
    match Eval.goalReached (askGoal t.depth t.goalOf) t.ego w m.goals with
    | .error f => .error f
    | .ok r => .ok ({ m with goals := r.1 }, .flag r.2)

/-- benchmark_runner.py:397-399: the evaluators of the run by name -/
def evaluators : OMap String Nat := [("success", 2), ("collision", 0), ("max_steps", 1)]

/-- benchmark_runner.py:406-410 `_get_evalution_dict`: the loop is that of world.cpp:144-150; every evaluator has its own memory, the goals are asked by one -/
noncomputable def evalJob (u : Setup Box Lane) (t : Task) (j : Job Box) : Res (Job Box × List (String × Val)) :=
  match Eval.evaluate (call u t) j.world evaluators (fun k => if k = 1 then ⟨j.memory.count, []⟩ else if k = 2 then ⟨0, j.memory.goals⟩ else ⟨0, []⟩) with
  | .error f => .error f
  | .ok r => .ok (⟨j.world, ⟨(r.1 1).count, (r.1 2).goals⟩⟩, r.2)

/-- benchmark_runner.py:309-380 for this world and these evaluators: new evaluators count from 0, every step is `PlanAgents` and `Execute` with the step time -/
noncomputable def simulation (u : Setup Box Lane) (t : Task) (dt : ℝ) (w : W Box) (h : Goal.Heap (Goal.AgentView Shape.Poly)) : Bench.Sim (Job Box) String Val where
  world := .ok ⟨w, ⟨0, h⟩⟩
  reset j := .ok ⟨j.world, ⟨0, j.memory.goals⟩⟩
  eval := evalJob u t
  plan j := match World.planAgents (plug u) dt j.world with
    | .error f => .error f
    | .ok w' => .ok ⟨w', j.memory⟩
  exec j := match World.execute (plug u) dt j.world with
    | .error f => .error f
    | .ok w' => .ok ⟨w', j.memory⟩

/-- the criteria of a run: success or collision, or more than `limit` steps -/
def criteria (limit : Int) : Bench.Criteria String Val :=
  .flat [("success", fun v => match v with | .flag b => b | .num _ => false), ("collision", fun v => match v with | .flag b => b | .num _ => false),
    ("max_steps", fun v => match v with | .flag _ => false | .num n => decide (n > limit))]

end Bark.Flow
