import Verif.Model.Conversion
import Verif.Spec.Shape
import Mathlib.Data.List.Forall2

/-!
Specification vocabulary for the conversion of agents (C171, C172).
-/
namespace Bark.Conv.Spec

/-- objects of the class show the path of their class: some prefix, a dot, and the name -/
def ShowsItself (c : Class) : Prop := ∃ pre : Name, c.repr = some (pre ++ '.' :: c.name)

/-- objects of the class can be made by name -/
structure Known (cs : List Class) (c : Class) : Prop where
  mem : c ∈ cs
  ctor : c.ctor = true
  unique : ∀ d ∈ cs, d.name = c.name → d = c

/-- a component of a state is the one given, or lies in the range given -/
def Fits : StateSpec → List ℝ → Prop
  | .exact l, s => s = l
  | .ranges l, s => List.Forall₂ (fun r x => r.1 ≤ x ∧ x ≤ r.2) l s

/-- the goal has the outline given, moved to its center -/
def GoalAt (a : AgentSpec) (p : Shape.Poly) : Prop :=
  ∀ q, q ∈ p.pts ↔ ∃ x ∈ a.goalPoints, q = (x.1 + a.goalCenter.1, x.2 + a.goalCenter.2)

variable {P M : Type}

/-- an agent is made as given -/
structure Made (numReached : ℕ) (server : P) (map : M) (a : AgentSpec) (ag : Agent P Goal M) : Prop where
  id : ag.id = a.id
  state : Fits a.state ag.state
  behavior : a.behavior = some ag.behavior.cls.name
  dynamic : a.dynamic = some ag.dynamic.cls.name
  execution : a.execution = some ag.execution.cls.name
  goal : ∃ g p, ag.goal = some (.sequential (List.replicate numReached g)) ∧ GoalAt a p ∧
    (a.limits = false → g = .polygon p) ∧ (a.limits = true → g = .stateLimits p (149 / 100) (165 / 100))
  map : ag.map = some map

end Bark.Conv.Spec
