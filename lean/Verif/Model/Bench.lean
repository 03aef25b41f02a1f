import Verif.Model.Basic
import Mathlib.Order.Nat

/-!
Model of the benchmark runner: `bark/benchmark/benchmark_runner.py`, `benchmark_runner_mp.py`, `benchmark_result.py` and the
iteration of `runtime/scenario/scenario_generation/scenario_generation.py`. Python exceptions are `.thrown`. Logging, the viewer,
pandas' column handling and the parallel execution itself (ray) are not modelled; a data frame is a list of rows, a row is a config
index and the rest of the row. A zip archive is its results (if present) and its members; the name of a member lists the config
indices in it, so it is represented by that list.
-/
namespace Bark.Bench

/-! ### Benchmark configs -/

/-- benchmark_result.py:35-45 `BenchmarkConfig`: index, behaviour, scenario set, scenario index, scenario -/
structure Config (B N S : Type) where
  idx : Nat
  beh : B
  set : N
  scen : Nat
  scenario : S

/-- scenario_generation.py:51-63: iterating over a scenario generator gives its scenarios with their index; benchmark_runner.py
stops at the first index that reaches `num` (`None` and 0 both mean no limit: `if num_scenarios and …`, lines 219-220) -/
def taken {S : Type} (num : Option Nat) (scens : List S) : List (Nat × S) :=
  let l := (List.range scens.length).zip scens
  match num with
  | none => l
  | some 0 => l
  | some k => l.takeWhile (fun x => !(decide (x.1 ≥ k)))

/-- benchmark_runner.py:216-238: append the configs of one generator for one behaviour -/
def addSet {B N S : Type} (num : Option Nat) (b : B) (acc : List (Config B N S)) (g : N × List S) : List (Config B N S) :=
  (taken num g.2).foldl (fun acc x => acc ++ [⟨acc.length, b, g.1, x.1, x.2⟩]) acc

/-- benchmark_runner.py:211-239 `_create_configurations_from_database` (240-256 `_create_configurations_from_scenario_generation` is
the case of one generator) -/
def configs {B N S : Type} (num : Option Nat) (behs : List B) (db : List (N × List S)) : List (Config B N S) :=
  behs.foldl (fun acc b => db.foldl (addSet num b) acc) []

/-- scenario_generation.py:33-40 `get_next_scenario`: index to give out and the new counter -/
def nextScenario (n cur : Nat) : Res (Nat × Nat) :=
  let i := if cur ≥ n then 0 else cur
  if i < n then .ok (i, i + 1) else .error .thrown

/-! ### Selection of evaluators and terminal criteria -/

/-- benchmark_runner.py:61-73 `_GetScenarioEvaluators`; `sub` is Python's substring test, `none` is `None` -/
def scenarioEvaluators {N E : Type} (sub : N → N → Bool) (specific : List (N × E)) (dflt : Option E) (set : N) : Res (Option E) :=
  if specific.length > 1 then
    match specific.filter (fun x => sub x.1 set) with
    | [] => .ok dflt
    | [x] => .ok (some x.2)
    | _ => .error .thrown
  else .ok dflt

/-- terminal criteria: for all scenario sets, or a dictionary of them (benchmark_runner.py:404-409) -/
inductive Criteria (N V : Type) where
  | flat (c : List (N × (V → Bool)))
  | nested (c : List (N × List (N × (V → Bool))))

/-- a dictionary read by key: `KeyError` if absent -/
def item {N V : Type} [DecidableEq N] (d : List (N × V)) (n : N) : Res V :=
  match d.find? (fun x => decide (x.1 = n)) with
  | some x => .ok x.2
  | none => .error .thrown

/-- benchmark_runner.py:420-428 `_is_terminal_for_scen_set`: the names of the criteria met -/
def metCriteria {N V : Type} [DecidableEq N] (ev : List (N × V)) : List (N × (V → Bool)) → Res (List N)
  | [] => .ok []
  | c :: cs => do
    let v ← item ev c.1
    let why ← metCriteria ev cs
    .ok (if c.2 v then c.1 :: why else why)

/-- benchmark_runner.py:405-418 `_is_terminal`: terminal or not, and why. An empty dictionary of criteria is replaced by a list,
which has no `values` (line 130). -/
def isTerminal {N V : Type} [DecidableEq N] (sub : N → N → Bool) (crit : Criteria N V) (ev : List (N × V)) (set : N) : Res (List N) :=
  match crit with
  | .flat [] => .error .thrown
  | .nested [] => .error .thrown
  | .flat c => metCriteria ev c
  | .nested c =>
    match c.filter (fun x => sub x.1 set) with
    | [x] => metCriteria ev x.2
    | _ => .error .thrown

/-! ### One benchmark run -/

/-- what a run does with a world: creation (`GetWorldState`), creation of the evaluators, evaluation (which may change the
evaluators, kept in the world), planning, execution -/
structure Sim (W N V : Type) where
  world : Res W
  reset : W → Res W
  eval : W → Res (W × List (N × V))
  plan : W → Res W
  exec : W → Res W

/-- the entry "Terminal" of a result -/
inductive Why (N : Type) where
  | names (l : List N)
  | exception
  deriving DecidableEq

/-- benchmark_runner.py:375-380: the result of a run (without the description of the config) and the recorded worlds -/
structure Outcome (W N V : Type) where
  steps : Nat
  ev : List (N × V)
  why : Why N
  hist : List W

/-- benchmark_runner.py:337-373: the loop; `n` bounds the number of rounds. Exceptions from evaluation, planning and execution are
caught, those from the terminal criteria are not. -/
def loop {W N V : Type} [DecidableEq N] (sim : Sim W N V) (terminal : List (N × V) → Res (List N)) (keep : Bool) :
    Nat → W → Nat → List W → Res (Outcome W N V)
  | 0, _, _, _ => .error .diverges
  | n + 1, w, step, hist =>
    match sim.eval w with
    | .error .thrown => .ok ⟨step, [], .exception, hist⟩
    | .error f => .error f
    | .ok (w1, ev) =>
      match terminal ev with
      | .error f => .error f
      | .ok (x :: xs) => .ok ⟨step, ev, .names (x :: xs), hist⟩
      | .ok [] =>
        match sim.plan w1 with
        | .error .thrown => .ok ⟨step, ev, .exception, hist⟩
        | .error f => .error f
        | .ok w2 =>
          match sim.exec w2 with
          | .error .thrown => .ok ⟨step, ev, .exception, hist⟩
          | .error f => .error f
          | .ok w3 => loop sim terminal keep n w3 (step + 1) (if keep then hist ++ [w3] else hist)

/-- what `_run_benchmark_config` returns: a pair, or, when the world could not be created, only the dictionary -/
inductive Ret (W N V : Type) where
  | pair (o : Outcome W N V)
  | dictOnly

/-- benchmark_runner.py:309-380 `_run_benchmark_config` -/
def runConfig {W N V : Type} [DecidableEq N] (sim : Sim W N V) (terminal : List (N × V) → Res (List N)) (keep : Bool) (n : Nat) :
    Res (Ret W N V) :=
  match sim.world with
  | .error .thrown => .ok .dictOnly
  | .error f => .error f
  | .ok w =>
    match sim.reset w with
    | .error f => .error f
    | .ok w1 => do
      let o ← loop sim terminal keep n w1 0 (if keep then [w] else [])
      .ok (.pair o)

/-- benchmark_runner.py:273-274 (and 305): the result is unpacked into two variables; the dictionary has more than two keys, so this
raises `ValueError` -/
def unpack {W N V : Type} : Ret W N V → Res (Outcome W N V)
  | .pair o => .ok o
  | .dictOnly => .error .thrown

/-! ### Result archives -/

/-- names of the files in the checkpoint directory: the checkpoint of a runner (of actor `i`), its temporary file, the merged
results (benchmark_runner.py:165-175, 262-263, benchmark_runner_mp.py:62-63), other archives -/
inductive FName where
  | ckpt (actor : Option Nat)
  | tmp (actor : Option Nat)
  | merged
  | other (n : Nat)
  deriving DecidableEq

/-- members of one kind of an archive, in archive order: the indices in the name, and the pickled dictionary -/
abbrev Parts (X : Type) := List (List Nat × List (Nat × X))

/-- an archive: `benchmark.results` if present, members with configs, members with histories -/
structure Zip (V C H : Type) where
  results : Option (List (Nat × V))
  configs : Parts C
  hist : Parts H

/-- an archive without members -/
def Zip.empty {V C H : Type} : Zip V C H := ⟨none, [], []⟩

/-- the files of the directory -/
abbrev Dir (V C H : Type) := FName → Option (Zip V C H)

/-- write a file -/
def Dir.set {V C H : Type} (d : Dir V C H) (f : FName) (z : Option (Zip V C H)) : Dir V C H :=
  fun g => if g = f then z else d g

/-- benchmark_result.py:66-76 `BenchmarkResult` -/
structure BR (V C H : Type) where
  dict : List (Nat × V)
  frame : Option (List (Nat × V))
  configs : List (Nat × C)
  hist : List (Nat × H)
  file : Option FName

variable {V C H : Type}

/-- benchmark_result.py:66-76 with only a file name -/
def BR.new (f : FName) : BR V C H := ⟨[], none, [], [], some f⟩

/-- benchmark_result.py:78-82 `get_data_frame` -/
def BR.getFrame (b : BR V C H) : List (Nat × V) :=
  match b.frame with
  | none => b.dict
  | some l => if l.length < b.dict.length then b.dict else l

/-- benchmark_result.py:84-87 `get_result_dict` -/
def BR.getDict (b : BR V C H) : List (Nat × V) :=
  match b.dict, b.frame with
  | [], some l => l
  | d, _ => d

/-- benchmark_result.py:99-106 `get_benchmark_config_indices` -/
def BR.indices (b : BR V C H) : List Nat :=
  match b.getFrame with
  | x :: l => (x :: l).map Prod.fst
  | [] => b.configs.map Prod.fst

/-- pieces of length `k`, at most `n` of them -/
def chunks {α : Type} (k : Nat) : Nat → List α → List (List α)
  | 0, _ => []
  | _ + 1, [] => []
  | n + 1, a :: l => (a :: l).take k :: chunks k n ((a :: l).drop k)

/-- benchmark_result.py:236-237: add a member unless its name is taken -/
def addPart {X : Type} (ps : Parts X) (c : List (Nat × X)) : Parts X :=
  if c.map Prod.fst ∈ ps.map Prod.fst then ps else ps ++ [(c.map Prod.fst, c)]

/-- benchmark_result.py:214-238 `_save_and_split`; `bytes` is the pickled size, `maxB` the maximal size of a member -/
def saveSplit {X : Type} (bytes : List (Nat × X) → Nat) (maxB : Nat) (ps : Parts X) (items : List (Nat × X)) : Res (Parts X) :=
  let num := (bytes items + maxB - 1) / maxB
  if num = 0 then .error .thrown
  else
    let per := items.length / num
    if per = 0 then .error .thrown
    else
      let m := items.foldl (fun m x => OMap.insert x.1 x.2 m) ([] : OMap Nat X)
      .ok ((chunks per m.length m).foldl addPart ps)

/-- benchmark_result.py:240-249 `remove_result_file_from_dumped` -/
def removeResults (d : Dir V C H) (f : FName) : Dir V C H :=
  match d f with
  | some z => d.set f (some { z with results := none })
  | none => d

/-- pickled sizes of configs and histories, and the maximal size of a member (benchmark_result.py:282, 1000 MB) -/
structure Sizes (C H : Type) where
  conf : List (Nat × C) → Nat
  hist : List (Nat × H) → Nat
  maxB : Nat

/-- benchmark_result.py:256-267 `_dump_benchmark_configs`, `_dump_histories`: nothing to do if there are none -/
def dumpParts {X : Type} (bytes : List (Nat × X) → Nat) (maxB : Nat) (on : Bool) (ps : Parts X) (items : List (Nat × X)) : Res (Parts X) :=
  if on && !items.isEmpty then saveSplit bytes maxB ps items else .ok ps

/-- benchmark_result.py:283-285: the file of the result is renamed if it has another name -/
def renamed (b : BR V C H) (d : Dir V C H) (f : FName) : Dir V C H × Bool :=
  match b.file with
  | some g =>
    if f = g then (d, false)
    else
      match d g with
      | some z => ((d.set g none).set f (some z), true)
      | none => (d, false)
  | none => (d, false)

/-- benchmark_result.py:282-296 `dump` -/
def dump (sz : Sizes C H) (b : BR V C H) (d : Dir V C H) (f : FName) (dc dh append : Bool) : Res (BR V C H × Dir V C H) :=
  let r := renamed b d f
  let app := append || r.2
  let d1 := if app then removeResults r.1 f else r.1
  let base := if app then (d1 f).getD Zip.empty else Zip.empty
  do
    let cs ← dumpParts sz.conf sz.maxB dc base.configs b.configs
    let hs ← dumpParts sz.hist sz.maxB dh base.hist b.hist
    .ok ({ b with file := some f, frame := some b.getFrame }, d1.set f (some ⟨some b.getFrame, cs, hs⟩))

/-- benchmark_result.py:299-309 `move_files` -/
def moveParts {X : Type} (src dst : Parts X) : Res (Parts X) :=
  if src.any (fun x => decide (x.1 ∈ dst.map Prod.fst)) then .error .thrown else .ok (dst ++ src)

/-- benchmark_result.py:337-341: move the members of one archive to another -/
def moveAll (d : Dir V C H) (src dst : FName) : Res (Dir V C H) :=
  match d src, d dst with
  | some zs, some zd => do
    let cs ← moveParts zs.configs zd.configs
    let hs ← moveParts zs.hist zd.hist
    .ok (d.set dst (some { zd with configs := cs, hist := hs }))
  | _, _ => .error .thrown

/-- benchmark_result.py:311-341 `extend`; the frame cached in the other result is not recorded -/
def extend (sz : Sizes C H) (b o : BR V C H) (fileLevel : Bool) (d : Dir V C H) : Res (BR V C H × Dir V C H) :=
  if o.indices = [] then .ok (b, d)
  else if o.indices.any (fun i => decide (i ∈ b.indices)) then .error .thrown
  else
    let b1 : BR V C H := { b with dict := b.dict ++ o.getDict, frame := some (b.getFrame ++ o.getFrame) }
    if fileLevel then
      match b.file, o.file with
      | some f, some g => do
        let r ← dump sz b1 (removeResults d f) f true true true
        let d2 ← moveAll r.2 g f
        .ok (r.1, d2)
      | _, _ => .error .thrown
    else .ok ({ b1 with configs := b1.configs ++ o.configs,
                        hist := o.hist.foldl (fun h x => h.filter (fun y => !(decide (y.1 = x.1))) ++ [x]) b1.hist }, d)

/-- benchmark_result.py:337-352: the states the directory goes through while `extend` with `file_level` works, one of which a crash
leaves behind: before, after the old results were removed, after the results were written again, after the members were moved. (The
single writes of members are not distinguished.) -/
def extendStates (sz : Sizes C H) (b o : BR V C H) (d : Dir V C H) (f g : FName) : List (Dir V C H) :=
  let b1 : BR V C H := { b with dict := b.dict ++ o.getDict, frame := some (b.getFrame ++ o.getFrame) }
  d :: removeResults d f ::
    match dump sz b1 (removeResults d f) f true true true with
    | .error _ => []
    | .ok r => r.2 ::
      match moveAll r.2 g f with
      | .error _ => []
      | .ok d2 => [d2]

/-- benchmark_result.py:270-280 `load_results` -/
def loadResults (d : Dir V C H) (f : FName) : Res (BR V C H) :=
  match d f with
  | some z =>
    match z.results with
    | some l => .ok ⟨[], some l, [], [], some f⟩
    | none => .error .thrown
  | none => .error .thrown

/-- a Python dictionary: replace the value of a key or append it -/
def dput {X : Type} (m : List (Nat × X)) (x : Nat × X) : List (Nat × X) :=
  if x.1 ∈ m.map Prod.fst then m.map (fun y => if y.1 = x.1 then x else y) else m ++ [x]

/-- benchmark_result.py:176-212 `_load_and_merge` with `_find_files_to_load`; no or an empty list of wanted indices means all -/
def loadParts {X : Type} (ps : Parts X) (wanted : List Nat) : List (Nat × X) :=
  let files := if wanted = [] then ps else ps.filter (fun p => wanted.any (fun i => decide (i ∈ p.1)))
  (files.flatMap Prod.snd).foldl dput []

/-- benchmark_result.py:160-174 `load_benchmark_configs`; `none` asks for all -/
def loadConfigs (d : Dir V C H) (b : BR V C H) (wanted : Option (List Nat)) : Res (BR V C H) :=
  match b.file with
  | none => .error .thrown
  | some f =>
    match d f with
    | none => .error .thrown
    | some z =>
      let w := (wanted.getD []).filter (fun i => !(decide (i ∈ b.configs.map Prod.fst)))
      .ok { b with configs := b.configs ++ loadParts z.configs w }

/-! ### Runs over all configs, with checkpoints -/

/-- variables of `run`, benchmark_runner.py:258-264 -/
structure RunSt (V C H : Type) where
  last : List (Nat × V)
  lastHist : List (Nat × H)
  lastConf : List (Nat × C)
  res : BR V C H
  dir : Dir V C H

/-- benchmark_runner.py:283-287, 291-296: dump the results since the last checkpoint and append them to the checkpoint -/
def checkpoint (sz : Sizes C H) (actor : Option Nat) (keep : Bool) (s : RunSt V C H) : Res (RunSt V C H) := do
  let r ← dump sz ⟨s.last, none, s.lastConf, s.lastHist, some (.tmp actor)⟩ s.dir (.tmp actor) true keep false
  let e ← extend sz s.res r.1 true r.2
  .ok { s with res := e.1, dir := e.2 }

/-- is a checkpoint due after `k` configs (benchmark_runner.py:282) -/
def due (every : Option Nat) (k : Nat) : Bool :=
  match every with
  | some (c + 1) => decide (k % (c + 1) = 0)
  | _ => false

/-- benchmark_runner.py:265-290: the configs one after the other, `k` of them done before; `run` gives row and history of a config -/
def runLoop (sz : Sizes C H) (actor : Option Nat) (keep : Bool) (every : Option Nat) (run : Nat → C → Res (V × H)) :
    List (Nat × C) → Nat → RunSt V C H → Res (RunSt V C H)
  | [], _, s => .ok s
  | c :: cs, k, s => do
    let r ← run c.1 c.2
    let s1 : RunSt V C H := { s with last := s.last ++ [(c.1, r.1)], lastHist := dput s.lastHist (c.1, r.2), lastConf := s.lastConf ++ [c] }
    if due every (k + 1) then do
      let s2 ← checkpoint sz actor keep s1
      runLoop sz actor keep every run cs (k + 1) { s2 with last := [], lastHist := [], lastConf := [] }
    else runLoop sz actor keep every run cs (k + 1) s1

/-- benchmark_runner.py:258-299 `run`: result and directory -/
def runAll (sz : Sizes C H) (actor : Option Nat) (keep : Bool) (every : Option Nat) (run : Nat → C → Res (V × H)) (toRun : List (Nat × C))
    (existing : BR V C H) (d : Dir V C H) : Res (BR V C H × Dir V C H) := do
  let s ← runLoop sz actor keep every run toRun 0 ⟨[], [], [], BR.new (.ckpt actor), d⟩
  let s' ← checkpoint sz actor keep s
  extend sz s'.res existing true (s'.dir.set (.tmp actor) none)

/-- benchmark_runner.py:177-199 `merge_checkpoint_benchmark_results`; `files` is what `glob` returns -/
def mergeCkpts (sz : Sizes C H) (d : Dir V C H) (files : List FName) : Res (BR V C H × Dir V C H) := do
  let m ← (match d .merged with
    | some _ => loadResults d .merged
    | none => .ok (BR.new .merged))
  let r ← files.foldlM (fun (x : BR V C H × Dir V C H) f => do
    let l ← loadResults x.2 f
    extend sz x.1 l true x.2) (m, d)
  .ok (r.1, fun f => if f ∈ files ∧ f ≠ .merged then none else r.2 f)

/-- benchmark_runner.py:201-209 `get_configs_to_run` -/
def configsToRun (confs : List (Nat × C)) (existing : BR V C H) : List (Nat × C) :=
  confs.filter (fun c => !(decide (c.1 ∈ existing.indices)))

/-- benchmark_runner.py:142-162 with `merge_existing`, then `run`: resuming -/
def resume (sz : Sizes C H) (keep : Bool) (every : Option Nat) (run : Nat → C → Res (V × H)) (confs : List (Nat × C)) (d : Dir V C H)
    (files : List FName) : Res (BR V C H × Dir V C H) := do
  let m ← mergeCkpts sz d files
  runAll sz none keep every run (configsToRun confs m.1) m.1 m.2

/-- benchmark_runner.py:142-144: the result taken for existing when nothing is merged -/
def noExisting : BR V C H := BR.new .merged

/-! ### Parallel runs -/

/-- every `n`-th element from the `i`-th on: Python's `l[i::n]` -/
def stride {α : Type} (n i : Nat) (l : List α) : List α :=
  ((List.range l.length).zip l).filterMap (fun x => if i ≤ x.1 ∧ (x.1 - i) % n = 0 then some x.2 else none)

/-- benchmark_runner_mp.py:115-116: the configs of each actor; the number of actors is `num_cpus / per` rounded down -/
def split {α : Type} (cpus per : Nat) (l : List α) : List (List α) :=
  (List.range (cpus / per)).map (fun i => stride (cpus / per) i l)

/-- benchmark_runner_mp.py:131-140 `run` of the parallel runner: the actors' results (each with its file) are put together -/
def gather (sz : Sizes C H) (results : List (BR V C H)) (existing : BR V C H) (d : Dir V C H) : Res (BR V C H × Dir V C H) := do
  let r ← results.foldlM (fun (x : BR V C H × Dir V C H) o => extend sz x.1 o true x.2) (BR.new (.ckpt none), d)
  extend sz r.1 existing true r.2

end Bark.Bench
