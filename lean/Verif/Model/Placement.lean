import Verif.Model.LineOps

/-!
Model of the generators that place vehicles along lanes: `config_with_ease.py` (cwe.py) and
`uniform_vehicle_distribution.py` (uvd.py) in `bark/runtime/scenario/scenario_generation/`.

Random numbers: `np.random.uniform(lo, hi)` is `lo + (hi - lo) * u` for the next number `u` of `[0, 1)` of the one global
generator; the sequence of these numbers is a parameter `u : ℕ → ℝ`, with a counter threaded through. `np.random.randint` is a
parameter. Reals are exact. Python exceptions are `.thrown`. Road and lane corridor lookup is a parameter (modelled in
`Model/Corridor`, `Model/MapIf`); lines are those of `Model/Line`. Not modelled: dynamic and execution models and parameters
given to the agents (a fresh object per agent), shapes, the map file, `UpdateAgentRTree`.
-/
namespace Bark.Place

open Ln

/-- `np.random.uniform(lo, hi)` -/
def uniform (lo hi u : ℝ) : ℝ := lo + (hi - lo) * u

/-- initial state of an agent: cwe.py:86, uvd.py:226 (time 0) -/
structure State where
  pos : Pt
  angle : ℝ
  vel : ℝ

/-! ### ConfigWithEase -/

/-- cwe.py:31-56: settings of a lane corridor. `sMin` is stored, behaviors are references to objects -/
structure Cfg where
  sMin : ℝ
  sMax : ℝ
  dsMin : ℝ
  dsMax : ℝ
  minVel : ℝ
  maxVel : ℝ
  behavior : ℕ
  controlledBehavior : Option ℕ
  controlledIds : Option (List ℕ)
  laneId : Option ℕ

/-- what the map gives for a corridor: the lane corridor at the source, if source and sink are given and found, and the lane
corridors' center lines of the road corridor, if there is one -/
structure Road where
  current : Option Line
  lanes : Option (List Line)

/-- cwe.py:113-126: the center line used, `none` if no position can be given -/
def centerOf (c : Cfg) (r : Road) : Res (Option Line) :=
  match r.lanes with
  | none => .ok none
  | some ls =>
    match r.current with
    | some l => .ok (some l)
    | none =>
      match c.laneId with
      | none => .error .thrown
      | some i =>
        match ls[i]? with
        | none => .error .thrown
        | some l => .ok (some l)

/-- cwe.py:73-86, 127-134 called until there is no position: states from `_current_s = s` on; `n` counts the random numbers -/
noncomputable def placeLoop (c : Cfg) (l : Line) (u : ℕ → ℝ) : ℕ → ℕ → ℝ → Res (List State × ℕ)
  | 0, _, _ => .error .diverges
  | fuel + 1, n, s => do
    let q ← pointAtS l s
    let a ← tangentAngleAtS l s
    if s > c.sMax then .ok ([], n)
    else do
      let (rest, m) ← placeLoop c l u fuel (n + 2) (s + uniform c.dsMin c.dsMax (u n))
      .ok (⟨q, a, uniform c.minVel c.maxVel (u (n + 1))⟩ :: rest, m)

/-- cwe.py:266-269 for one corridor: the first position is drawn from the spacing (127-128) -/
noncomputable def placeCfg (c : Cfg) (r : Road) (u : ℕ → ℝ) (fuel n : ℕ) : Res (List State × ℕ) := do
  match ← centerOf c r with
  | none => .ok ([], n)
  | some l => placeLoop c l u fuel (n + 1) (uniform 0 c.dsMax (u n))

/-- an agent of a scenario: id, state and behavior model (`none` is Python's `None`) -/
structure Ag where
  id : ℕ
  state : State
  behavior : Option ℕ

/-- cwe.py:197-204 `controlled_behavior_model`: without a value if a model is given -/
def controlledModel (c : Cfg) : Option ℕ :=
  match c.controlledBehavior with
  | none => some c.behavior
  | some _ => none

/-- cwe.py:268-287: the agents of a corridor get ascending ids from `first` -/
def agentsOf (c : Cfg) (first : ℕ) (states : List State) : List Ag :=
  states.zipIdx.map fun x => ⟨first + x.2, x.1, some c.behavior⟩

/-- cwe.py:178-184, 290-297: the controlled agent of a corridor, chosen by `pick` (`np.random.randint`) -/
def control (c : Cfg) (pick : ℕ → ℕ) (as : List Ag) : Res (List Ag × List ℕ) :=
  match c.controlledIds with
  | none => .ok (as, [])
  | some _ =>
    if as.length = 0 then .error .thrown
    else
      match as[pick as.length]? with
      | none => .error .thrown
      | some a => .ok (as.set (pick as.length) { a with behavior := controlledModel c }, [a.id])

/-- cwe.py:240-301 `create_single_scenario`: agents and ids to evaluate, for the corridors in order. The id is counted up once
more after the last agent of a corridor (287). `pick k` is the choice for the `k`-th corridor -/
noncomputable def scenario (u : ℕ → ℝ) (pick : ℕ → ℕ → ℕ) (fuel : ℕ) : List (Cfg × Road) → ℕ → ℕ → ℕ →
    Res (List Ag × List ℕ × ℕ)
  | [], _, _, n => .ok ([], [], n)
  | (c, r) :: cs, k, first, n => do
    let (states, n') ← placeCfg c r u fuel n
    let (as, ids) ← control c (pick k) (agentsOf c first states)
    let (as', ids', m) ← scenario u pick fuel cs (k + 1) (first + states.length + 1) n'
    .ok (as ++ as', ids ++ ids', m)

/-! ### UniformVehicleDistribution -/

/-- uvd.py settings of the other vehicles, with the extent of the vehicles -/
structure Uvd where
  front : ℝ
  rear : ℝ
  distMin : ℝ
  distMax : ℝ
  velMin : ℝ
  velMax : ℝ

/-- the loop uvd.py:220-239 -/
noncomputable def alongLoop (c : Uvd) (l : Line) (u : ℕ → ℝ) (sEnd : ℝ) : ℕ → ℕ → ℝ → Res (List State × ℕ)
  | 0, _, _ => .error .diverges
  | fuel + 1, n, s =>
    if s < sEnd then do
      let q ← pointAtS l s
      let a ← tangentAngleAtS l s
      let (rest, m) ← alongLoop c l u sEnd fuel (n + 2)
        (s + (c.front + c.rear + uniform c.distMin c.distMax (u (n + 1))))
      .ok (⟨q, a, uniform c.velMin c.velMax (u n)⟩ :: rest, m)
    else .ok ([], n)

/-- uvd.py:207-240 `place_agents_along_linestring`; also the line afterwards: `Reverse` works in place -/
noncomputable def along (c : Uvd) (l : Line) (u : ℕ → ℝ) (fuel n : ℕ) (sStart sEnd : ℝ) : Res ((List State × ℕ) × Line) :=
  if sEnd < sStart then (alongLoop c (reverse l) u sStart fuel n sEnd).map fun x => (x, reverse l)
  else (alongLoop c l u sEnd fuel n sStart).map fun x => (x, l)

/-- center lines of the lane corridors of the map -/
abbrev Lines := ℕ → Line

/-- uvd.py:252-283 `center_line_between_source_and_sink`: the corridor containing source and sink with their arc lengths;
without one `None` is returned, which cannot be unpacked -/
noncomputable def between (corr : Pt → Pt → Option ℕ) (m : Lines) (src sink : Pt) : Res (ℕ × ℝ × ℝ) :=
  match corr src sink with
  | none => .error .thrown
  | some k => do
    let s0 ← nearestS (m k) src
    let s1 ← nearestS (m k) sink
    .ok (k, s0, s1)

/-- uvd.py:104-123: the other vehicles. `center_line` is a reference into the lane corridor
(python_wrapper/world/map.cpp:121, lane_corridor.hpp:39), so that the map changes -/
noncomputable def others (corr : Pt → Pt → Option ℕ) (c : Uvd) (u : ℕ → ℝ) (fuel : ℕ) : List (Pt × Pt) → Lines → ℕ →
    Res (List State × Lines × ℕ)
  | [], m, n => .ok ([], m, n)
  | (src, sink) :: rest, m, n => do
    let (k, s0, s1) ← between corr m src sink
    let ((states, n'), l') ← along c (m k) u fuel n s0 s1
    let (states', m', n'') ← others corr c u fuel rest (fun j => if j = k then l' else m j) n'
    .ok (states ++ states', m', n'')

/-- uvd.py:136-147: the state of the ego vehicle on its route -/
noncomputable def egoState (corr : Pt → Pt → Option ℕ) (m : Lines) (u : ℕ → ℝ) (n : ℕ) (velMin velMax : ℝ) (src sink : Pt) :
    Res State := do
  let (k, s0, s1) ← between corr m src sink
  let s := uniform s0 s1 (u n)
  let q ← pointAtS (m k) s
  let a ← tangentAngleAtS (m k) s
  .ok ⟨q, a, uniform velMin velMax (u (n + 1))⟩

/-- the agents of uvd.py: created one after the other they have ascending ids (object.cpp:22) -/
def created (first : ℕ) (states : List State) : List (ℕ × State) := states.zipIdx.map fun x => (first + x.2, x.1)

/-- uvd.py:98-205 `create_single_scenario`: agents and ids to evaluate; without a route the ego vehicle is one of the others,
which is appended once more (130-134, 165) -/
noncomputable def uvdScenario (corr : Pt → Pt → Option ℕ) (c : Uvd) (u : ℕ → ℝ) (fuel : ℕ) (sources : List (Pt × Pt))
    (route : Option (Pt × Pt)) (egoVel : ℝ × ℝ) (m : Lines) (first n : ℕ) : Res (List (ℕ × State) × List ℕ × Lines) := do
  let (states, m', n') ← others corr c u fuel sources m n
  let as := created first states
  match route with
  | some (src, sink) => do
    let e ← egoState corr m' u n' egoVel.1 egoVel.2 src sink
    .ok (as ++ [(first + states.length, e)], [first + states.length], m')
  | none =>
    match as[as.length / 4]? with
    | none => .error .thrown
    | some a => .ok (as ++ [a], [a.1], m')

/-- uvd.py:109-115, 152-158, 176-182: the corners of the goal region of a sink -/
noncomputable def goalBox (sink : Pt) : List Pt :=
  [(-3 / 2, 0), (-3 / 2, 8), (3 / 2, 8), (3 / 2, 0)].map fun p => (p.1 + sink.1, p.2 + sink.2)

end Bark.Place
