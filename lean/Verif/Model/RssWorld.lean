import Verif.Model.RssEval

/-!
How an observed world is handed to the RSS library: `bark/world/evaluation/rss/rss_interface.cpp` (rssi.cpp).

The library's map matching, scene creation and range check are parameters. Numbers are exact; ENU coordinates, headings and speeds of the
library are plain numbers here.
-/
namespace Bark.RssEval

/-- state.hpp: time, position, orientation, velocity -/
structure RSt where
  t : ℝ
  x : ℝ
  y : ℝ
  th : ℝ
  v : ℝ

/-- polygon.hpp:72-75: the distances of a shape -/
structure Ext where
  front : ℝ
  rear : ℝ
  left : ℝ
  right : ℝ

/-- the agent as used here; the history is oldest first -/
structure RAgent where
  id : Nat
  history : List RSt
  shape : Ext

/-- the matched object without the result of the map matching: `enuPosition` -/
structure MObj where
  cx : ℝ
  cy : ℝ
  heading : ℝ
  length : ℝ
  width : ℝ

/-- `RssObjectData`: id, whether it is the ego vehicle, matched object, speed, angular velocity, orientation, dynamics -/
structure ObjData (D : Type) where
  id : Nat
  ego : Bool
  box : MObj
  speed : ℝ
  turn : ℝ
  heading : ℝ
  dyn : D

/-- rssi.cpp:44-78 `GenerateMatchObject` up to the map matching -/
def matchObject (s : RSt) (sh : Ext) : MObj := ⟨s.x, s.y, s.th, sh.front + sh.rear, sh.left + sh.right⟩

/-- agent.hpp: `GetCurrentState`, the last entry of the history -/
def curState (a : RAgent) : Res RSt :=
  match a.history.getLast? with
  | some s => .ok s
  | none => .error .ub

/-- rssi.cpp:212-229, 294-303, 320-336: what is said about an agent -/
noncomputable def objData {D : Type} (rnd : ℝ → ℝ) (ego : Bool) (d : D) (a : RAgent) : Res (ObjData D) :=
  match curState a with
  | .error f => .error f
  | .ok s =>
    match angularVelocity rnd (a.history.map fun q => (q.t, q.th)) with
    | .error f => .error f
    | .ok w => .ok ⟨a.id, ego, matchObject s a.shape, s.v, w, s.th, d⟩

/-- rssi.cpp:320-344: the scenes of the agents given, in order; `append` is `appendScenes` for the ego, its route and another -/
noncomputable def scenesOf {D R S : Type} (rnd : ℝ → ℝ) (append : ObjData D → Option R → ObjData D → List S) (ego : ObjData D) (route : Option R)
    (dOthers : D) : List RAgent → Res (List S)
  | [] => .ok []
  | a :: as =>
    match objData rnd false dOthers a with
    | .error f => .error f
    | .ok o =>
      match scenesOf rnd append ego route dOthers as with
      | .error f => .error f
      | .ok ss => .ok (append ego route o ++ ss)

/-- the settings of the interface (rss_interface.hpp:85-110) and the parts of the library used -/
structure RssSet (R S : Type) where
  rnd : ℝ → ℝ
  ph : Physics ℝ
  dEgo : Dynamics ℝ
  dOthers : Dynamics ℝ
  scaling : ℝ
  /-- `GenerateRoute` from the matched object to the goal -/
  route : MObj → ℝ × ℝ → Option R
  append : ObjData (Dynamics ℝ) → Option R → ObjData (Dynamics ℝ) → List S
  /-- `withinValidInputRange` of the world with a time and scenes -/
  valid : ℝ → List S → Bool

/-- rssi.cpp:260-284 on agents: those considered. The position of an agent is that of its state. -/
noncomputable def relevantAgents {R S : Type} (c : RssSet R S) (ego : Nat) (s : RSt) (agents : List RAgent) : Res (List RAgent) :=
  match agents with
  | [] => .ok []
  | a :: as =>
    if a.id ≠ ego then
      match curState a with
      | .error f => .error f
      | .ok q =>
        match relevantAgents c ego s as with
        | .error f => .error f
        | .ok rs =>
          if √((s.x - q.x) * (s.x - q.x) + (s.y - q.y) * (s.y - q.y)) < (maxStop c.ph c.dEgo s.v + maxStop c.ph c.dOthers q.v) * c.scaling then
            .ok (a :: rs)
          else .ok rs
    else relevantAgents c ego s as

/-- rssi.cpp:397-434 `GenerateRSSWorld` with 286-347 `CreateWorldModel`: the time and the scenes handed over, and whether they are in the
library's range. A missing goal is dereferenced; that the goal is outside the corridor is only logged; that there is no route is ignored. -/
noncomputable def rssWorld {R S : Type} (c : RssSet R S) (agents : OMap Nat RAgent) (ego : Nat) (goal : Option (ℝ × ℝ)) :
    Res (Bool × ℝ × List S) :=
  match OMap.find ego agents with
  | none => .error .ub
  | some e =>
    match goal with
    | none => .error .ub
    | some g =>
      match objData c.rnd true c.dEgo e, curState e with
      | .ok eo, .ok s =>
        match relevantAgents c ego s (agents.map Prod.snd) with
        | .error f => .error f
        | .ok rs =>
          match scenesOf c.rnd c.append eo (c.route eo.box g) c.dOthers rs with
          | .error f => .error f
          | .ok ss => .ok (c.valid (s.t + 1) ss, s.t + 1, ss)
      | .error f, _ => .error f
      | _, .error f => .error f

/-- rssi.cpp:80-114 `FillRSSDynamics`, the part used here; `get` is `GetReal` of the parameter tree given -/
noncomputable def fillDynamics (get : String → ℝ → ℝ) : Dynamics ℝ where
  accLonMax := get "AccLonMax" (17 / 10)
  accLatMax := get "AccLatBrakeMax" (2 / 10)
  brakeMax := get "BrakeLonMax" (-(17 / 10))
  brakeMin := get "BrakeLonMin" (-(169 / 100))
  responseTime := get "TimeResponse" (2 / 10)

end Bark.RssEval
