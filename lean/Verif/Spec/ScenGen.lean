import Verif.Model.ScenGen

/-! Specification vocabulary for the scenario generation (C129–C132). -/
namespace Bark.Gen.Spec

variable {S G B E D O C : Type}

/-- what one agent is made of: its share of the lists of its source, the road corridor of the source, and whether the
source wants it to be controlled -/
structure Row (S G B E D O C : Type) where
  state : S
  geometry : G
  behavior : B
  execution : E
  dynamic : D
  goal : O
  corridor : C
  controlled : Bool

/-- the lists of a source have one entry per agent -/
def Complete (x : Source S G B E D O C) : Prop :=
  x.geometries.length = x.states.length ∧ x.behaviors.length = x.states.length ∧
  x.executions.length = x.states.length ∧ x.dynamics.length = x.states.length ∧
  x.goals.length = x.states.length ∧ x.controlled.length = x.states.length

/-- `l` lists the agents of a source in order -/
def RowsOf (x : Source S G B E D O C) (l : List (Row S G B E D O C)) : Prop :=
  l.map Row.state = x.states ∧ l.map Row.geometry = x.geometries ∧ l.map Row.behavior = x.behaviors ∧
  l.map Row.execution = x.executions ∧ l.map Row.dynamic = x.dynamics ∧ l.map Row.goal = x.goals ∧
  l.map Row.controlled = x.controlled ∧ ∀ r ∈ l, r.corridor = x.corridor

/-- agent number `i` was made from row `r` -/
def Made (i : Nat) (a : Agent S G B E D O C) (r : Row S G B E D O C) : Prop :=
  a.id = i ∧ a.state = r.state ∧ a.geometry = r.geometry ∧ a.behavior = r.behavior ∧ a.execution = r.execution ∧
  a.dynamic = r.dynamic ∧ a.goal = r.goal ∧ a.corridor = r.corridor

/-- exactly one of the flags is set, the one at `i` -/
def Only (l : List Bool) (n i : Nat) : Prop :=
  l.length = n ∧ i < n ∧ ∀ j : Nat, l[j]? = some true ↔ j = i

/-- the lane `g` (counted from the left, starting with 0) is where a goal of type `t` lies for an agent on lane `pos` of
`n` -/
def Wanted (n pos : Nat) (t : GoalType) (g : Nat) : Prop :=
  g < n ∧ match t with
    | .endOfLane => g = pos
    | .laneChangeRight => g = pos + 1
    | .laneChangeLeft => g + 1 = pos

/-- goal lane `g` for an agent on lane `pos`: the wanted one, or, if there is no such lane and the goal is not enforced,
the own lane -/
def GoalOn (n pos : Nat) (t : GoalType) (enforce : Bool) (g : Nat) : Prop :=
  Wanted n pos t g ∨ (enforce = false ∧ (∀ g', ¬ Wanted n pos t g') ∧ Wanted n pos .endOfLane g)

end Bark.Gen.Spec
