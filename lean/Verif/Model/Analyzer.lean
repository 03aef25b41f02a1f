import Verif.Model.Basic
import Mathlib.Data.List.Dedup
import Mathlib.Data.List.Sort
import Mathlib.Order.Nat
import Mathlib.Algebra.Order.Field.Rat

/-!
Model of `bark/benchmark/benchmark_analyzer.py` and of the selection and trajectory dump in `scenario_dumper.py`.
A data frame is the list of its rows. Criteria are given as tests of rows (the function applied to the column). pandas'
`sort_values` is a parameter, because its default order of rows with equal keys is unspecified. `None` and an empty list
are not distinguished where the code tests for truth.
-/
namespace Bark.Anl

/-- a row of the data frame: `config_idx`, `scen_idx` and the evaluation columns -/
structure Row (V : Type) where
  config : ℕ
  scen : ℕ
  vals : V

variable {V : Type}

/-- `sort_values` by a key -/
abbrev Sorter (V : Type) := (Row V → ℕ) → List (Row V) → List (Row V)

/-- the dictionary `{x: i for i, x in enumerate(l)}`: the last position -/
def lastPos : List ℕ → ℕ → ℕ
  | [], _ => 0
  | _ :: l, x => if x ∈ l then lastPos l x + 1 else 0

/-- benchmark_analyzer.py:22-27 `get_scenario_ids` -/
def scenarioIds (srt : Sorter V) (df : List (Row V)) (cs : List ℕ) : List ℕ :=
  (srt (fun r => lastPos cs r.config) (df.filter fun r => decide (r.config ∈ cs))).map fun r => r.scen

/-- benchmark_analyzer.py:36-38 -/
def satisfied (df : List (Row V)) (criteria : List (Row V → Bool)) : List (Row V) :=
  criteria.foldl (fun d f => d.filter f) df

/-- benchmark_analyzer.py:39-40 -/
def wanted (srt : Sorter V) (df : List (Row V)) (scens asIn : List ℕ) : List ℕ :=
  if asIn = [] then scens else scenarioIds srt df asIn

/-- benchmark_analyzer.py:41-42 -/
def within (d : List (Row V)) (inConfigs : List ℕ) : List (Row V) :=
  if inConfigs = [] then d else d.filter fun r => decide (r.config ∈ inConfigs)

/-- benchmark_analyzer.py:43-49 -/
def bySc (srt : Sorter V) (d : List (Row V)) (scens : List ℕ) : List (Row V) :=
  if scens = [] then d
  else
    let d' := d.filter fun r => decide (r.scen ∈ scens)
    let found := scens.filter fun s => decide (s ∈ d'.map fun r => r.scen)
    srt (fun r => lastPos found r.scen) d'

/-- benchmark_analyzer.py:34-52 `find_configs` -/
def findConfigs (srt : Sorter V) (df : List (Row V)) (criteria : List (Row V → Bool)) (scens asIn inConfigs : List ℕ) :
    List ℕ :=
  (bySc srt (within (satisfied df criteria) inConfigs) (wanted srt df scens asIn)).map fun r => r.config

/-- benchmark_analyzer.py:55-60: the common scenarios, sorted -/
def matching (srt : Sorter V) (df : List (Row V)) (first : List ℕ) (others : List (List ℕ)) : List ℕ :=
  (((scenarioIds srt df first).filter fun s => others.all fun cs => decide (s ∈ scenarioIds srt df cs)).dedup).insertionSort
    (· ≤ ·)

/-- benchmark_analyzer.py:61-66, one list -/
def congruentList (srt : Sorter V) (df : List (Row V)) (ms cs : List ℕ) : Res (List ℕ) :=
  let c := findConfigs srt df [] ms [] cs
  if scenarioIds srt df c = ms then .ok c else .error .thrown

/-- benchmark_analyzer.py:54-67 `make_scenarios_congruent` -/
def congruent (srt : Sorter V) (df : List (Row V)) : List (List ℕ) → Res (List (List ℕ))
  | [] => .error .thrown
  | cs :: css => (cs :: css).mapM (congruentList srt df (matching srt df cs css))

/-! ### showing histories -/

/-- what is drawn: the entry of the history and the time set, as a multiple of the step time -/
structure Frame (S : Type) where
  shown : S
  step : ℕ
  deriving DecidableEq

/-- benchmark_analyzer.py:122-131: what viewer shows in a step (counted from 1); an empty history raises -/
def frameOf {S : Type} (h : List S) (step : ℕ) : Res (Frame S) :=
  let i := if h.length < step then h.length - 1 else step - 1
  match h[i]? with
  | some s => .ok ⟨s, i⟩
  | none => .error .thrown

/-- the loop benchmark_analyzer.py:118-146; one list of frames per step, one frame per viewer -/
def renderLoop {S : Type} (hs : List (List S)) : ℕ → ℕ → Res (List (List (Frame S)))
  | 0, _ => .error .diverges
  | fuel + 1, step => do
    let fs ← hs.mapM fun h => frameOf h step
    if hs.any fun h => decide (step ≤ h.length) then do
      let rest ← renderLoop hs fuel (step + 1)
      .ok (fs :: rest)
    else .ok [fs]

/-- a configuration as the analyzer uses it: its history and its step time, if its parameters have one -/
structure Conf (S : Type) where
  history : Option (List S)
  stepTime : Option ℚ

/-- benchmark_analyzer.py:96-101: the step time -/
def stepTime {S : Type} (c : Conf S) : ℚ := c.stepTime.getD (1 / 5)

/-- benchmark_analyzer.py:84-107 for one position: histories and the variable `sim_time`, which stays that of the last
viewer; `none` if a configuration is missing. Position past the end of a list and `len(None)` raise -/
def collect {S : Type} (get : ℕ → Option (Conf S)) (k : ℕ) : List (List ℕ) → Option ℚ → Res (Option (List (List S) × Option ℚ))
  | [], t => .ok (some ([], t))
  | cs :: css, _ =>
    match cs[k]? with
    | none => .error .thrown
    | some c =>
      match get c with
      | none => .ok none
      | some cf => do
        let rest ← collect get k css (some (stepTime cf))
        match rest, cf.history with
        | none, _ => .ok none
        | some _, none => .error .thrown
        | some (hs, t), some h => .ok (some (h :: hs, t))

/-- benchmark_analyzer.py:79-110 from position `k` on for `n` positions: the frames shown, with the step time used -/
def visualizeFrom {S : Type} (get : ℕ → Option (Conf S)) (fuel : ℕ) (lists : List (List ℕ)) :
    ℕ → ℕ → Res (List (Option ℚ × List (List (Frame S))))
  | 0, _ => .ok []
  | n + 1, k => do
    match ← collect get k lists none with
    | none => .ok []
    | some (hs, t) => do
      let fs ← renderLoop hs fuel 1
      let rest ← visualizeFrom get fuel lists n (k + 1)
      .ok ((t, fs) :: rest)

/-- benchmark_analyzer.py:69-110 `visualize` for a positive `real_time_factor` and lists of configurations -/
def visualize {S : Type} (get : ℕ → Option (Conf S)) (fuel : ℕ) (lists : List (List ℕ)) (viewers : ℕ) :
    Res (List (Option ℚ × List (List (Frame S)))) :=
  if lists.length ≠ viewers then .error .thrown
  else
    match lists with
    | [] => .error .thrown
    | cs :: _ => visualizeFrom get fuel lists cs.length 0

/-! ### dumping -/

/-- scenario_dumper.py:41-54: which configurations are exported. `ord` is the order in which Python enumerates a set -/
def exported (ord : List ℕ → List ℕ) (srt : Sorter V) (df : List (Row V)) (filter : List (Row V → Bool)) (idx : List ℕ) :
    Res (List ℕ) :=
  let found := if filter.isEmpty then [] else findConfigs srt df filter [] [] []
  if found ≠ [] ∧ idx ≠ [] then .ok (ord ((found.filter fun c => decide (c ∈ idx)).dedup))
  else if found = [] ∧ idx ≠ [] then .ok idx
  else if found ≠ [] ∧ idx = [] then .ok found
  else .error .thrown

/-- scenario_dumper.py:97-100: the table of an agent map (id, history of states) -/
def table {X : Type} (agents : OMap ℕ (List X)) : List (ℕ × X) := agents.flatMap fun a => a.2.map fun s => (a.1, s)

end Bark.Anl
