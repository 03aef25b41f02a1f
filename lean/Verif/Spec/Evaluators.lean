import Verif.Spec.World

/-! Specifications for the evaluators (C40–C42, C80, C81), independent of the model's helpers. -/
namespace Bark.EvalSpec
open Bark
set_option linter.unusedSectionVars false
variable {K St Act B E Sh Box O : Type} [Field K] [LinearOrder K] [IsStrictOrderedRing K]

/-- agent `a` is registered in `w` under `id`, takes part in the simulation, has a valid behaviour, and its current
state is `s` -/
def Takes (P : Plug K St Act B E Sh Box O) (w : World K St Act B E Sh Box O) (id : Nat)
    (a : Agent K St Act B E Sh) (s : St) : Prop :=
  OMap.find id w.agents = some a ∧ P.status a.behavior = .valid ∧ a.firstValid ≤ w.time + 1 / 2 ^ 52 ∧
    a.history.getLast?.map Prod.fst = some s

/-- `r` is an answer to the query for the `k` nearest of `l` -/
def IsKNearest {α D : Type} [LinearOrder D] (k : Nat) (dist : α → D) (l r : List α) : Prop :=
  r.length = min k l.length ∧ List.Subperm r l ∧ ∀ x ∈ r, ∀ y ∈ l, y ∉ r → dist x ≤ dist y

/-- the answers of the agents in order, with the effects of asking (`AtGoal` moves sequential goals on) -/
inductive Asked {G A : Type} (ask : G → A → Res (G × Bool)) : List A → G → List Bool → G → Prop
  | nil (g : G) : Asked ask [] g [] g
  | cons {a : A} {as : List A} {g g' g'' : G} {b : Bool} {bs : List Bool} :
      ask g a = .ok (g', b) → Asked ask as g' bs g'' → Asked ask (a :: as) g (b :: bs) g''

/-- ids seen in those worlds of a history in which agent `id` is registered -/
def seenIds (id : Nat) (ws : List (World K St Act B E Sh Box O)) : List Nat :=
  (ws.filter (fun w => (OMap.find id w.agents).isSome)).flatMap (fun w => w.agents.map Prod.fst)

/-- the values recorded for agent `id` in a history of worlds: none in a world without the agent or without a value -/
def recorded (value : World K St Act B E Sh Box O → Agent K St Act B E Sh → Option K) (id : Nat)
    (ws : List (World K St Act B E Sh Box O)) : List K :=
  ws.filterMap (fun w => (OMap.find id w.agents).bind (value w))

end Bark.EvalSpec
