import Verif.Model.Basic
import Mathlib.Order.Nat

/-!
Model of `bark/world/evaluation/ltl/evaluator_ltl.{hpp,cpp}` (compiled with LTL_RULES).

The rule-monitor library is not part of the repository: `make` is `RuleMonitor::MakeRuleState`, `run` one
`Automaton::Evaluate` (new state and "penalty ≠ 0"), `final` is "penalty of `FinalTransit` ≠ 0" (it does not change the
state).  They are parameters; what is assumed of `make` is stated in `Spec/Ltl.lean`.
Simplification: `int`/`unsigned` counters and ids are natural numbers.
-/
namespace Bark.Ltl
open Bark

/-- a `RuleState`: the agent ids it is about and the state of its automaton -/
structure Mon (A : Type) where
  ids : List Nat
  st : A

/-- evaluator_ltl.hpp:58-66, fields; `known_agents_` is a `std::set` -/
structure Ev (A : Type) where
  safety : Nat
  known : List Nat
  mons : List (Mon A)

section
variable {A L : Type}

/-- evaluator_ltl.cpp:27-39, the constructor: a rule that is not about other agents gets its only rule state here -/
def init (specific : Bool) (global : A) : Ev A :=
  { safety := 0, known := [], mons := if specific then [] else [{ ids := [], st := global }] }

/-- evaluator_ltl.cpp:117-119 `AddKnownAgents` (`std::set::insert`) -/
def addKnown (known cur : List Nat) : List Nat := cur.foldl (fun s i => if i ∈ s then s else s ++ [i]) known

/-- evaluator_ltl.cpp:123-141 `RemoveRuleStates`: erase the rule states with an agent that is not present; the
difference of the two sorted vectors is empty iff every id is present (ids of one rule state do not repeat) -/
def removeStates (mons : List (Mon A)) (cur : List Nat) : List (Mon A) :=
  mons.filter (fun m => m.ids.all (fun i => decide (i ∈ cur)))

/-- evaluator_ltl.cpp:53-71: bookkeeping before the labels are evaluated -/
def prepare (specific : Bool) (make : List Nat → List Nat → List (Mon A)) (cur : List Nat) (e : Ev A) : Ev A :=
  if specific then
    { e with
      known := addKnown e.known cur
      mons := removeStates (e.mons ++ make cur e.known) cur }
  else e

/-- evaluator_ltl.cpp:76-97: the loop over the rule states -/
def runAll (run : L → A → A × Bool) (final : A → Bool) (labels : L) :
    List (Mon A) → Nat → Nat → List (Mon A) × Nat × Nat
  | [], s, g => ([], s, g)
  | m :: ms, s, g =>
    let r := run labels m.st
    let s' := if r.2 then s + 1 else s
    let g' := if final r.1 then g + 1 else g
    let rest := runAll run final labels ms s' g'
    ({ m with st := r.1 } :: rest.1, rest.2)

/-- evaluator_ltl.cpp:50-99 `Evaluate(observed_world)`: `cur` are the ids of the valid other agents, `labels` the labels of
this world; the result is the new evaluator and the returned number -/
def evaluateObs (specific : Bool) (make : List Nat → List Nat → List (Mon A)) (run : L → A → A × Bool)
    (final : A → Bool) (cur : List Nat) (labels : L) (e : Ev A) : Ev A × Nat :=
  let e1 := prepare specific make cur e
  let r := runAll run final labels e1.mons e1.safety 0
  ({ e1 with
      safety := r.2.1
      mons := r.1 }, r.2.1 + r.2.2)

/-- evaluator_ltl.cpp:41-48 `Evaluate(world)`; `none` is a world without the evaluator's agent -/
def evaluate (specific : Bool) (make : List Nat → List Nat → List (Mon A)) (run : L → A → A × Bool)
    (final : A → Bool) (obs : Option (List Nat × L)) (e : Ev A) : Ev A × Nat :=
  match obs with
  | none => (e, e.safety)
  | some o => evaluateObs specific make run final o.1 o.2 e

/-- a history of evaluations with one evaluator: the evaluator afterwards -/
def after (specific : Bool) (make : List Nat → List Nat → List (Mon A)) (run : L → A → A × Bool)
    (final : A → Bool) (hist : List (Option (List Nat × L))) (e : Ev A) : Ev A :=
  hist.foldl (fun e o => (evaluate specific make run final o e).1) e

/-- evaluator_ltl.cpp:100-109 `EvaluateLabels`: `std::map::insert` of a range keeps the first value of a label -/
def labelsOf {N V : Type} [LinearOrder N] (fns : List (OMap N V)) : OMap N V :=
  fns.foldl (fun m l => l.foldl (fun m p => if (OMap.find p.1 m).isSome then m else OMap.insert p.1 p.2 m) m) []

end
end Bark.Ltl
