import Verif.Model.World

/-! Specifications for the world properties, written without the model's helper functions. -/
namespace Bark.Spec
set_option linter.unusedSectionVars false
variable {K St Act B E Sh Box O : Type} [Field K] [LinearOrder K] [IsStrictOrderedRing K]

/-- simulated time an API call is supposed to consume -/
def duration : World.Op K St Act B E Sh → K
  | .step dt => dt
  | .execute dt => dt
  | _ => 0

/-- the last `n` entries of a log -/
def lastN {α : Type} (n : Nat) (l : List α) : List α := l.drop (l.length - n)

/-- what everything executed so far becomes by one history-changing call: an update appends, setting
the current state corrects the newest entry -/
def logStep (P : Plug K St Act B E Sh Box O) (log : List (St × Act)) :
    Agent.HOp St Act B E → List (St × Act)
  | .update b e => log ++ [(P.executedState e, P.lastAction b)]
  | .setState s => log.dropLast ++ (log.getLast?.map (fun p => (s, p.2))).toList

/-- an agent takes part in the simulation at time `t` (up to the code's epsilon) -/
def Active (t : K) (a : Agent K St Act B E Sh) : Prop := a.firstValid ≤ t + 1 / 2 ^ 52

/-- registry content as a function of the operation history -/
def registry (f : Nat → Option (Agent K St Act B E Sh)) :
    World.Op K St Act B E Sh → (Nat → Option (Agent K St Act B E Sh))
  | .addAgent a => fun i => if i = a.id then some a else f i
  | .removeAgent id => fun i => if i = id then none else f i
  | .clearAgents => fun _ => none
  | _ => f

/-- the observer is stateless: observing does not change it -/
def Stateless (P : Plug K St Act B E Sh Box O) : Prop := ∀ o w i, (P.observe o w i).1 = o

/-- agent `id` is registered and active in `w` -/
def activeId (w : World K St Act B E Sh Box O) (id : Nat) : Bool :=
  match w.getAgent id with
  | some a => decide (a.firstValid ≤ w.time + 1 / 2 ^ 52)
  | none => false

/-- an agent after planning, if `obs` is what it observes: an active agent replans and, if the new
behaviour is valid, plans its execution up to the end of the step; an inactive agent does nothing -/
def planned (P : Plug K St Act B E Sh Box O) (t dt : K) (obs : World K St Act B E Sh Box O)
    (id : Nat) (a : Agent K St Act B E Sh) : Agent K St Act B E Sh :=
  if a.firstValid ≤ t + 1 / 2 ^ 52 then
    { a with
      behavior := P.plan a.behavior dt obs id,
      exec := if P.status (P.plan a.behavior dt obs id) = .valid
        then P.execute a.exec (t + dt) (P.plan a.behavior dt obs id)
        else a.exec }
  else a

/-- an agent after execution: an active agent with valid behaviour and execution moves -/
def moved (P : Plug K St Act B E Sh Box O) (t : K) (a : Agent K St Act B E Sh) :
    Agent K St Act B E Sh :=
  if a.firstValid ≤ t + 1 / 2 ^ 52 ∧ P.status a.behavior = .valid ∧ P.execStatus a.exec = .valid then
    { a with
      history := lastN (max a.history.length a.maxHist)
        (a.history ++ [(P.executedState a.exec, P.lastAction a.behavior)]) }
  else a

/-- an agent is taken out of the world: expired, or removal is on, it is active with a valid behaviour
and its box before the step was not inside the map -/
def dropped (P : Plug K St Act B E Sh Box O) (w : World K St Act B E Sh Box O)
    (boxBefore : Box) (a : Agent K St Act B E Sh) : Prop :=
  P.status a.behavior = .expired ∨
  (w.removeAgents = true ∧ a.firstValid ≤ w.time + 1 / 2 ^ 52 ∧ P.status a.behavior = .valid ∧
    ∃ mb, w.mapBox = some mb ∧ P.within boxBefore mb = false)

/-- does the spatial index only mention registered agents after `op`, if it did so before? -/
def synced (b : Bool) : World.Op K St Act B E Sh → Bool
  | .removeAgent _ => false
  | .clearAgents => false
  | .addAgent _ => b
  | _ => true

end Bark.Spec
