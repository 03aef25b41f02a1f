import Verif.Model.Basic
import Mathlib.Algebra.Order.Ring.Int

/-!
Model of the search for scenarios in recorded data with a moving window:
`bark/runtime/scenario/scenario_generation/config_readers/agent_state_geometry_config_readers.py:150-302`
`InteractionDataWindowStatesGeometries` (abbreviated asg.py). Times are integers (milliseconds). Lane positions of a
vehicle at a time and the test whether it is inside the road are parameters.
-/
namespace Bark.Win

/-- a track: id and recorded time span -/
structure Tr where
  id : Nat
  first : Int
  last : Int
  deriving DecidableEq

/-- asg.py:158-168: the settings -/
structure Cfg where
  windowLength : Int
  skipScenarios : Int
  skipSearch : Int
  minTime : Int
  maxTime : Int
  onlyOneLane : Bool
  minimum : List Nat

section
variable (lanesAt : Nat → Int → Res (List Nat)) (within : Nat → Int → Bool) (c : Cfg)

/-- asg.py:281-287 `find_track_ids` -/
def findIds (trs : List Tr) (ws we : Int) : List Nat :=
  (trs.filter fun t => decide (we ≤ t.last ∧ t.first ≤ ws)).map Tr.id

/-- asg.py:251-261: the lane a vehicle is counted on, if any; `lanesAt` raises if there is no recorded state at that time -/
def laneOf (ws : Int) (id : Nat) : Res (Option Nat) :=
  match lanesAt id ws with
  | .error f => .error f
  | .ok [] => .ok none
  | .ok (p :: ps) =>
    if c.onlyOneLane && decide (ps ≠ []) then .ok none
    else if within id ws then .ok (some p) else .ok none

/-- asg.py:249-261: the vehicles with their lanes -/
def perLane (ws : Int) : List Nat → Res (List (Nat × Nat))
  | [] => .ok []
  | id :: ids =>
    match laneOf lanesAt within c ws id with
    | .error f => .error f
    | .ok o =>
      match perLane ws ids with
      | .error f => .error f
      | .ok l => .ok ((o.toList.map fun p => (p, id)) ++ l)

/-- the vehicles on lane `p` -/
def onLane (l : List (Nat × Nat)) (p : Nat) : List Nat := (l.filter fun x => decide (x.1 = p)).map Prod.snd

/-- asg.py:263-271: the vehicles of the window, if there are enough on every lane; `p` is the current lane -/
def pick (l : List (Nat × Nat)) : Nat → List Nat → Option (List Nat)
  | _, [] => some []
  | p, m :: ms =>
    if (onLane l p).length < m then none
    else (pick l (p + 1) ms).map fun r => onLane l p ++ r

/-- asg.py:234-276 `find_track_ids_moving_window`: the window is moved before every look; fuel bounds the loop -/
def search (trs : List Tr) : Nat → Int → Res (List Nat × Int)
  | 0, _ => .error .diverges
  | n + 1, ws =>
    if c.maxTime < ws + c.skipSearch + c.windowLength then .ok ([], ws + c.skipSearch)
    else match findIds trs (ws + c.skipSearch) (ws + c.skipSearch + c.windowLength) with
      | [] => search trs n (ws + c.skipSearch)
      | id :: ids =>
        match perLane lanesAt within c (ws + c.skipSearch) (id :: ids) with
        | .error f => .error f
        | .ok l =>
          match pick l 0 c.minimum with
          | some r => .ok (r, ws + c.skipSearch)
          | none => search trs n (ws + c.skipSearch)

/-- a scenario found: ids, file, beginning of the window (its end is `window_length` later) -/
structure Found where
  ids : List Nat
  file : Nat
  start : Int
  deriving DecidableEq

/-- asg.py:185-196: the loop over the files, the remaining ones from file number `i` -/
def scan (fuel : Nat) : Nat → List (List Tr) → Int → Res Found
  | _, [], _ => .error .thrown
  | i, f :: fs, ws =>
    match search lanesAt within c f fuel ws with
    | .error e => .error e
    | .ok (ids, ws') => if ids ≠ [] then .ok ⟨ids, i, ws'⟩ else scan fuel (i + 1) fs c.minTime

/-- asg.py:170-196: the next scenario; `none` for the first one of a generation, otherwise file and window of the one
before -/
def nextScenario (fuel : Nat) (files : List (List Tr)) : Option (Nat × Int) → Res Found
  | none => scan lanesAt within c fuel 0 files c.minTime
  | some (i, ws) => scan lanesAt within c fuel i (files.drop i) (ws + c.skipScenarios)

end
end Bark.Win
