import Verif.Model.Ltl

/-! Specification for the LTL evaluator (C43, C82). -/
namespace Bark.LtlSpec
open Bark

variable {A L : Type}

/-- What is assumed of the rule-monitor library for rules about `k` other agents: given the present and the already known
agents, `make` returns fresh monitors, at most one per tuple, only for `k`-tuples of distinct agents containing a new
one, and for all such tuples of present agents. -/
structure MakeContract (k : Nat) (start : A) (make : List Nat → List Nat → List (Ltl.Mon A)) : Prop where
  nodup : ∀ cur known, ((make cur known).map Ltl.Mon.ids).Nodup
  fresh : ∀ cur known, ∀ m ∈ make cur known, m.st = start
  sound : ∀ cur known, ∀ m ∈ make cur known, m.ids.length = k ∧ m.ids.Nodup ∧ ∃ i ∈ m.ids, i ∉ known
  complete : ∀ cur known (t : List Nat), t.length = k → t.Nodup → (∀ i ∈ t, i ∈ cur) → (∃ i ∈ t, i ∉ known) →
    ∃ m ∈ make cur known, m.ids = t

/-- the evaluations in which the evaluator's agent was there -/
def seen (hist : List (Option (List Nat × L))) : List (List Nat × L) := hist.filterMap id

/-- the state of an automaton that was started and then given the labels of the evaluations `es` -/
def runFrom (run : L → A → A × Bool) (start : A) (es : List (List Nat × L)) : A :=
  es.foldl (fun a e => (run e.2 a).1) start

/-- the tuple `t` of `k` distinct agents has been watched since the evaluations `now`: at the first of `now` some agent of `t`
is there for the first time in the whole history, and all agents of `t` are there in all of `now` -/
def WatchedSince (k : Nat) (es now : List (List Nat × L)) (t : List Nat) : Prop :=
  t.length = k ∧ t.Nodup ∧ now ≠ [] ∧ (∀ e ∈ now, ∀ i ∈ t, i ∈ e.1) ∧
    ∃ pre, es = pre ++ now ∧ ∃ i ∈ t, ∀ e ∈ pre, i ∉ e.1

/-- nobody who left comes back: who is present at two evaluations is present in between -/
def NoReturn (es : List (List Nat × L)) : Prop :=
  ∀ (a b c : Nat) x y z, a ≤ b → b ≤ c → es[a]? = some x → es[b]? = some y → es[c]? = some z →
    ∀ i, i ∈ x.1 → i ∈ z.1 → i ∈ y.1

end Bark.LtlSpec
