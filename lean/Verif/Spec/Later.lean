import Verif.Model.World

/-! Vocabulary of C215: the same world at a later time. -/
namespace Bark.Later
open Bark
set_option linter.unusedSectionVars false

section
variable {K St Act B E Sh Box O : Type} [Field K] [LinearOrder K] [IsStrictOrderedRing K]

/-- the agent as it would be `τ` later: it enters `τ` later, its past states (`fSt`), behaviour (`fB`) and execution model (`fE`) are those `τ` later -/
def agent (τ : K) (fSt : St → St) (fB : B → B) (fE : E → E) (a : Agent K St Act B E Sh) : Agent K St Act B E Sh :=
  { id := a.id, behavior := fB a.behavior, exec := fE a.exec, history := a.history.map (fun p => (fSt p.1, p.2)), maxHist := a.maxHist,
    firstValid := a.firstValid + τ, shape := a.shape }

/-- the world as it would be `τ` later: clock and agents; index, map and observer are the same -/
def world (τ : K) (fSt : St → St) (fB : B → B) (fE : E → E) (w : World K St Act B E Sh Box O) : World K St Act B E Sh Box O :=
  { agents := w.agents.map (fun p => (p.1, agent τ fSt fB fE p.2)), time := w.time + τ, rtree := w.rtree, removeAgents := w.removeAgents,
    mapBox := w.mapBox, observer := w.observer }

/-- the same call `τ` later: an agent added is the one `τ` later -/
def op (τ : K) (fSt : St → St) (fB : B → B) (fE : E → E) : World.Op K St Act B E Sh → World.Op K St Act B E Sh
  | .addAgent a => .addAgent (agent τ fSt fB fE a)
  | o => o

/-- every call but the second half of a step alone -/
def Whole : World.Op K St Act B E Sh → Prop
  | .execute _ => False
  | _ => True

/-- the models do not look at the clock as such: `τ` later they do the same `τ` later. What was executed is only asked for where something was -/
structure Timeless (P : Plug K St Act B E Sh Box O) (τ : K) (fSt : St → St) (fB : B → B) (fE : E → E) : Prop where
  status : ∀ b, P.status (fB b) = P.status b
  action : ∀ b, P.lastAction (fB b) = P.lastAction b
  plan : ∀ b dt w i, P.plan (fB b) dt (world τ fSt fB fE w) i = fB (P.plan b dt w i)
  execute : ∀ e t b, P.execute (fE e) (t + τ) (fB b) = fE (P.execute e t b)
  execStatus : ∀ e, P.execStatus (fE e) = P.execStatus e
  observe : ∀ o w i, P.observe o (world τ fSt fB fE w) i = ((P.observe o w i).1, world τ fSt fB fE (P.observe o w i).2)
  envelope : ∀ sh s, P.envelope sh (fSt s) = P.envelope sh s
  executed : ∀ o w i dt e b, P.status (P.plan b dt (P.observe o w i).2 i) = .valid →
    P.execStatus (P.execute e (w.time + dt) (P.plan b dt (P.observe o w i).2 i)) = .valid →
    P.executedState (fE (P.execute e (w.time + dt) (P.plan b dt (P.observe o w i).2 i))) =
      fSt (P.executedState (P.execute e (w.time + dt) (P.plan b dt (P.observe o w i).2 i)))

end
end Bark.Later
