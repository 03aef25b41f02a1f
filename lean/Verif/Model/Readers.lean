import Verif.Model.PServer
import Verif.Model.Dataset
import Verif.Model.ScenGen

/-!
Model of the remaining config readers of
`bark/runtime/scenario/scenario_generation/config_readers/`: `behavior_model_config_readers.py` (bmc.py),
`dynamic_model_config_readers.py` (dmc.py), `execution_model_config_readers.py` (emc.py), the track reader of
`agent_state_geometry_config_readers.py` (asg.py), and of `configurable_scenario_generation.py` (csg.py):
how a reader is found, in which order the readers run, and how scenarios are made one after the other.

A configuration is a parameter server (`Model/PServer`). A created model is described by its type and the server it was
given; `reg` says which types exist and what a constructor does to its server (it stores the values it falls back to).
A type that is not a valid name makes `eval` raise, so it is not in `reg`. `str` and `name` pack and unpack strings as
plain values, `names` a list of strings. The random state `G` is a parameter with `randint`.
-/
namespace Bark.Read
open Bark.PS Bark.Par

variable {A G : Type}

/-- which constructors exist (bmc.py:38-40 `eval("{}(params)".format(model_type))`) and what they do to their server -/
abbrev Registry (A : Type) := Str → Option (Srv A → Res (Srv A))

/-- a created model: its type and where in the configuration its parameters are (`none`: in a server of its own) -/
structure Made where
  type : Str
  server : Option (List Str)
  deriving DecidableEq

/-- a stored string; anything else is no type -/
def typeOf (name : A → Option Str) : Val A → Option Str
  | .leaf a => name a
  | _ => none

/-- bmc.py:38-40, 103-105, dmc.py:30-32: create one model with the server `v`; something that is no server is refused by
the constructor -/
def make (reg : Registry A) (t : Option Str) (v : Val A) : Res (Val A) :=
  match t.bind reg, v with
  | some f, .child c => (f c).map .child
  | _, _ => .error .thrown

/-- bmc.py:32-35, dmc.py:22-24: one model per agent, all with the same server -/
def makeAll (reg : Registry A) (t : Option Str) : Nat → Val A → Res (Val A)
  | 0, v => .ok v
  | n + 1, v => match make reg t v with
      | .error e => .error e
      | .ok v' => makeAll reg t n v'

/-- `AddChild(name)` for a name without `::`: the child, an empty server if there was none (parameters.py:366-392) -/
def childOf (k : Str) (s : Srv A) : Val A := (find k s).getD (.child .nil)

/-- `"ModelType"` -/
def kType : Str := "ModelType".toList
/-- `"ModelParams"` -/
def kParams : Str := "ModelParams".toList
/-- `"ModelTypesList"` -/
def kTypes : Str := "ModelTypesList".toList

/-- bmc.py:25-36 `FixedBehaviorType.create_from_config` (`dflt` "BehaviorIDMClassic") and dmc.py:17-25
`FixedDynamicType.create_from_config` (`dflt` "SingleTrackModel") for `n` agents: the models and the configuration
afterwards -/
def fixed (ws : Char → Bool) (str : Str → A) (name : A → Option Str) (reg : Registry A) (dflt : Str) (n : Nat) (s : Srv A) :
    Res (List Made × Srv A) :=
  match getItemD ws kType (.leaf (str dflt)) s with
  | .error e => .error e
  | .ok (s1, v) =>
    match makeAll reg (typeOf name v) n (childOf kParams s1) with
    | .error e => .error e
    | .ok p => .ok (List.replicate n ⟨(typeOf name v).getD [], some [kParams]⟩, put kParams p s1)

/-- emc.py:18-25, 30-33 `FixedExecutionType.create_from_config` (`dflt` "ExecutionModelInterpolate"): every model gets a new
server, which is not kept -/
def fixedExecution (ws : Char → Bool) (str : Str → A) (name : A → Option Str) (reg : Registry A) (dflt : Str) (n : Nat) (s : Srv A) :
    Res (List Made × Srv A) :=
  match getItemD ws kType (.leaf (str dflt)) s with
  | .error e => .error e
  | .ok (s1, v) =>
    match (List.replicate n ()).mapM fun _ => make reg (typeOf name v) (.child .nil) with
    | .error e => .error e
    | .ok ps => .ok (ps.map fun _ => ⟨(typeOf name v).getD [], none⟩, s1)

/-- one `AddChild(model_type)` and construction in `ModelParams` (bmc.py:84-85, 95-97) -/
def makeIn (reg : Registry A) (t : Str) : Val A → Res (Val A)
  | .child c => match make reg (some t) (childOf t c) with
      | .error e => .error e
      | .ok v => .ok (.child (put t v c))
  | _ => .error .thrown

/-- bmc.py:83-85: the defaults of all types are stored -/
def storeDefaults (reg : Registry A) : List Str → Val A → Res (Val A)
  | [], v => .ok v
  | t :: ts, v => match makeIn reg t v with
      | .error e => .error e
      | .ok v' => storeDefaults reg ts v'

/-- bmc.py:92-100: a type is drawn for every agent -/
def sampleLoop (randint : Nat → G → Nat × G) (reg : Registry A) (types : List Str) : Nat → G → Val A → Res (List Made × G × Val A)
  | 0, g, v => .ok ([], g, v)
  | n + 1, g, v =>
    if types.length = 0 then .error .thrown
    else match types[(randint types.length g).1]? with
      | none => .error .thrown
      | some t => match makeIn reg t v with
          | .error e => .error e
          | .ok v' => match sampleLoop randint reg types n (randint types.length g).2 v' with
              | .error e => .error e
              | .ok (ms, g', v'') => .ok (⟨t, some [kParams, t]⟩ :: ms, g', v'')

/-- bmc.py:77-101 `SampleBehaviorType.create_from_config` (`dflt` ["BehaviorIDMClassic", "BehaviorMobilRuleBased"]) -/
def sampled (ws : Char → Bool) (strs : List Str → A) (names : A → Option (List Str)) (randint : Nat → G → Nat × G) (reg : Registry A)
    (dflt : List Str) (n : Nat) (g : G) (s : Srv A) : Res (List Made × G × Srv A) :=
  match getItemD ws kTypes (.leaf (strs dflt)) s with
  | .error e => .error e
  | .ok (s1, .leaf a) => match names a with
      | none => .error .thrown
      | some types => match storeDefaults reg types (childOf kParams s1) with
          | .error e => .error e
          | .ok v => match sampleLoop randint reg types n g v with
              | .error e => .error e
              | .ok (ms, g', v') => .ok (ms, g', put kParams v' s1)
  | .ok (_, _) => .error .thrown

/-- bmc.py:51-67 `InteractionDataBehaviors.create_from_config`: track `i` for agent `i`; `replay` is `BehaviorFromTrack` -/
def trackBehaviors {T B : Type} (replay : T → Res B) (tracks : List T) (n : Nat) : Res (List B) :=
  (List.range n).mapM fun i => match tracks[i]? with
    | none => .error .thrown
    | some t => replay t

/-! ### reading tracks -/

section
variable {K : Type} [Field K] [LinearOrder K] (norm : K → K) (speed : K → K → K)

/-- what the reader returns: initial states, shapes (length, width), tracks, lane positions, start and end time -/
structure Tracks (K : Type) where
  states : List (Data.St K)
  shapes : List (K × K)
  tracks : List (Data.Track K)
  lanes : List (List Nat)
  start : Option Int
  stop : Option Int

/-- asg.py:144-150 `find_lane_positions`: the lane corridors that contain the position -/
def lanePositions (covers : List (K → K → Bool)) (s : Data.St K) : List Nat :=
  (covers.zipIdx.filter fun p => p.1 s.x s.y).map (·.2)

/-- first and last time stamp of a track (the data set reader takes them from its motions) -/
def firstTime (t : Data.Track K) : Option Int := (t.motions.head?).map (·.t)
/-- `track.time_stamp_ms_last` -/
def lastTime (t : Data.Track K) : Option Int := (t.motions.getLast?).map (·.t)

/-- asg.py:119-138: the loop over the track ids; the times that were not configured are set by the first track -/
def readTracks (off : K × K) (file : List (Data.Track K)) (covers : List (K → K → Bool)) :
    List Nat → Option Int → Option Int → Res (Tracks K)
  | [], start, stop => .ok ⟨[], [], [], [], start, stop⟩
  | i :: is, start, stop =>
    match file.find? fun t => t.id = i with
    | none => .error .thrown
    | some t =>
      let start' := start.or (firstTime t)
      let stop' := stop.or (lastTime t)
      match start' with
      | none => .error .thrown
      | some b =>
        match Data.initState norm speed off b t.motions with
        | .error e => .error e
        | .ok s =>
          match readTracks off file covers is start' stop' with
          | .error e => .error e
          | .ok r => .ok ⟨s :: r.states, (t.length, t.width) :: r.shapes, t :: r.tracks, lanePositions covers s :: r.lanes, r.start, r.stop⟩

end

/-! ### scenario generation -/

/-- csg.py:439-455 `eval_configuration`: the reader of that name, built in or of the last added module that has it -/
def findReader {R : Type} (builtin : Str → Option R) (modules : List (Str → Option R)) (t : Str) : Res R :=
  match builtin t with
  | some r => .ok r
  | none => match (modules.filterMap fun m => m t).getLast? with
      | some r => .ok r
      | none => .error .thrown

/-- the readers of one source: each works on the state `σ` of the generation (random state and all parameter servers) -/
structure SourceReaders (σ S Gm B E D O C Kw : Type) where
  corridor : Res C
  states : C → σ → Res ((List S × List Gm × Kw) × σ)
  behaviors : C → List S → Kw → σ → Res ((List B × Kw) × σ)
  executions : C → List S → Kw → σ → Res ((List E × Kw) × σ)
  dynamics : C → List S → Kw → σ → Res ((List D × Kw) × σ)
  controlled : C → List S → Kw → σ → Res ((List Bool × Kw) × σ)
  goals : C → List S → List Bool → Kw → σ → Res (List O × σ)

section
variable {σ S Gm B E D O C Kw Obs : Type}

/-- csg.py:131-143: states and shapes of all sources, before any model is made -/
def readStates : List (SourceReaders σ S Gm B E D O C Kw) → σ → Res (List (C × List S × List Gm × Kw) × σ)
  | [], w => .ok ([], w)
  | r :: rs, w => match r.corridor with
      | .error e => .error e
      | .ok c => match r.states c w with
          | .error e => .error e
          | .ok ((ss, gs, kw), w') => match readStates rs w' with
              | .error e => .error e
              | .ok (xs, w'') => .ok ((c, ss, gs, kw) :: xs, w'')

/-- csg.py:157-201: models, controlled agents and goals of one source, in this order, each reader getting what the earlier
ones passed on (`merge` is `{**a, **b}`) -/
def readModels (merge : Kw → Kw → Kw) (r : SourceReaders σ S Gm B E D O C Kw) (c : C) (ss : List S) (gs : List Gm) (kw : Kw) (w : σ) :
    Res (Gen.Source S Gm B E D O C × σ) := do
  let x1 ← r.behaviors c ss kw w
  let x2 ← r.executions c ss (merge kw x1.1.2) x1.2
  let x3 ← r.dynamics c ss (merge (merge kw x1.1.2) x2.1.2) x2.2
  let x4 ← r.controlled c ss (merge (merge (merge kw x1.1.2) x2.1.2) x3.1.2) x3.2
  let x5 ← r.goals c ss x4.1.1 (merge (merge (merge (merge kw x1.1.2) x2.1.2) x3.1.2) x4.1.2) x4.2
  .ok (⟨ss, gs, x1.1.1, x2.1.1, x3.1.1, x4.1.1, x5.1, c⟩, x5.2)

/-- csg.py:145-213: the loop over the sources: one without agents is skipped -/
def readSources (merge : Kw → Kw → Kw) : List (SourceReaders σ S Gm B E D O C Kw × (C × List S × List Gm × Kw)) → σ →
    Res (List (Gen.Source S Gm B E D O C) × σ)
  | [], w => .ok ([], w)
  | (r, c, ss, gs, kw) :: rest, w =>
    if ss.length = 0 then readSources merge rest w
    else match readModels merge r c ss gs kw w with
      | .error e => .error e
      | .ok (x, w') => match Gen.sourceAgents x with
          | .error e => .error e
          | .ok _ => match readSources merge rest w' with
              | .error e => .error e
              | .ok (xs, w'') => .ok (x :: xs, w'')

/-- csg.py:119-226 `create_single_scenario` -/
def createSingle (merge : Kw → Kw → Kw) (rs : List (SourceReaders σ S Gm B E D O C Kw)) (observer : σ → Res (Obs × σ)) (w : σ) :
    Res ((Gen.Scenario S Gm B E D O C × Obs) × σ) := do
  let a ← readStates rs w
  let b ← readSources merge (rs.zip a.1) a.2
  let sc ← Gen.scenario b.1
  let o ← observer b.2
  .ok ((sc, o.1), o.2)

/-- csg.py:107-117 `create_scenarios`: `single i` makes scenario `i` -/
def createFrom {Sc : Type} (single : Nat → σ → Res (Sc × σ)) (i : Nat) : Nat → σ → Res (List Sc × σ)
  | 0, w => .ok ([], w)
  | n + 1, w => match single i w with
      | .error e => .error e
      | .ok (sc, w') => match createFrom single (i + 1) n w' with
          | .error e => .error e
          | .ok (scs, w'') => .ok (sc :: scs, w'')

/-- csg.py:107-117 `create_scenarios(params, num_scenarios)` -/
def createScenarios {Sc : Type} (single : Nat → σ → Res (Sc × σ)) (n : Nat) (w : σ) : Res (List Sc × σ) := createFrom single 0 n w

end
end Bark.Read
