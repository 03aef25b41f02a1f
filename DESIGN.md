# Formal model of bark-simulator/bark (Lean 4)

## Layout
* `properties.jsonl` – the English properties (C01…).
* `lean/Verif/Model/*.lean` – the model of the code, one file per subsystem; every definition cites file and lines of /repo.
* `lean/Verif/Spec/*.lean` – small specifications that do not mention the model's helpers.
* `lean/Verif/Props/*.lean` – property theorems, non-vacuity examples, and proved negations where the code violates the property.
* `seeded/LOG.jsonl` – mutation experiments; `MANIFEST.json` – property → theorem map.

## Modelling conventions
* C++ objects are immutable records; a mutating method returns the new record. `std::map` is a key-sorted association list (`OMap`), `std::vector` a `List`.
* Undefined behaviour (null dereference, `back()` of an empty vector, index out of range), C++ exceptions (`at`) and non-termination are distinct outcomes (`Res`, or fuel that is proved sufficient / proved never to suffice), not assumed away.
* `double` is modelled by an arbitrary ordered field `K` (rational code) or by ℝ (trigonometry, square roots), comparison-only code by an arbitrary linear order. Rounding, NaN and infinities are not modelled, except where a definition says so: `Model/Num` adds the outcomes NaN/±∞ for the divisions and powers of IDM, and `Fault.nan` marks a 0/0 in geometry.
* Plug-in behaviour/execution/observer models are arbitrary functions (parameters), so the theorems hold for every plug-in.
* Boost.Geometry predicates (within, collide, envelope, rtree `nearest`), Boost graph search and the LTL monitor library are parameters with an explicit contract, or are re-modelled at the level of their documented behaviour.
* `BARK_EXPECT_TRUE` only prints (util.hpp:22-40); it is a no-op in the model.

## Trusted base
* Lean 4.33.0 kernel; axioms at most `propext`, `Classical.choice`, `Quot.sound`.
* The reading of the C++ (nothing is executed); the cited lines are the tie.
* Mathlib definitions used in statements (`Real.cos`, `Real.sqrt`, `List.Pairwise`, …).

## Per-property plan
| id | model | proof idea |
|---|---|---|
| C01 | `Model/World` step machine with op language | induction on op list |
| C02 | `Model/World` planAgents as a loop threading agent map; snapshot cloned first | loop = pointwise map; permutation invariance |
| C03, C04 | `Model/Agent` history push/erase; max 0 gives UB outcome | refinement to `lastN` of the full log; witness for 0 |
| C05–C07, C10 | `Model/World` removeInvalidAgents, getValidAgents, rtree snapshot | filter characterisation; witness world for C07 |
| C08 | `OMap` refinement to functions | induction on op list |
| C09 | rtree as list of (id,box); query result null ⇒ UB | invariant "index ids ⊆ registry" over ops; UB witness |
| C11 | `Model/Heap` – references and heap for agents / models | reachability disjointness, write-through-clone invariance |
| C12 | `Model/World` observe | filterMap characterisation |
| C13 | `Model/Sensed` chain of sensed worlds | depth grows by one per step |
| C14, C15 | `Model/FrontRear` loop | loop invariant (argmin); negation witness for rear |
| C16 | `Model/FrontRear` frenet difference | case analysis against interval-gap spec |
| C17, C18 | `Model/Interpolate` | search-loop lemmas; witness of wrong segment and sticky status |
| C19, C20 | `Model/StaticTraj` | interpolation index lemmas |
| C21–C25 | `Model/Idm` | ordered field inequalities; induction over trajectory; witnesses |
| C26, C27 | `Model/Dynamics` | algebra; clamp |
| C28–C30 | `Model/Line` | induction on points; convex projection |
| C31 | `Model/Angle` | floor-based characterisation over ℝ |
| C32–C34 | `Model/Roadgraph` | graph invariants; Dijkstra contract; witness |
| C35 | `Model/Corridor` | fuel/termination by acyclicity; SetLaneCorridor invariant |
| C36, C72 | `Model/PlanView` | sampling loop invariant; trigonometric identities and derivatives |
| C37, C38, C70, C71 | `Model/Params` (heap of `SetterParams` objects) | refinement of the heap to a map (path, type) → value, by induction over histories of calls; condensed list = graph of that map |
| C39, C74, C75 | `Model/Goals` (heap of goal objects) | plan relation (unmet simple goals left to right) stepped by each query; greedy = subsequence; witnesses |
| C73, C76 | `Model/GoalLimits` | angle wrap lemma; tangents at vertices |
| C77–C79 | `Model/LineOps` | nearest point lemma; angle sign; case analysis of end pairs |
| C40–C42, C80, C81 | `Model/Evaluators` | characterisations and induction |
| C43, C82 | `Model/Ltl` | invariant over presence histories |
| C44, C83–C85 | `Model/SafeDistance` | kinematics over an ordered field, all t |
| C45, C46, C86 | `Model/LaneChange` (on `Model/FrontRear`, `Model/Idm`) | filter/argmax lemmas |
| C87 | `Model/Intersection` | first-hit lemmas; signs of angle differences |
| C47, C88–C91 | `Model/Stochastic` (distribution objects on a heap; engine and normal quantile are parameters) | reverse induction over planning calls |
| C48, C92, C93 | `Model/Prediction` (behaviours on a heap; planning is a parameter) | map update characterisation; frame lemmas |
| C49 | `Model/Observer` (+ `Model/Heap` observe) | rotation algebra; witness |
| C50, C94–C96 | `Model/Primitives` (primitives on a heap; trajectory generation is a parameter) | step lemma, induction over planning histories |
| C51 | `Model/ActionDriven` | induction over rows |
| C52 | `Model/Ids` | induction |
| C53 | `Model/Corridor` | argmin |
| C54 | `Model/PyConv` (the five name tables as chains of string comparisons; copy constructors are parameters) | case analysis over classes, arbitrary strings |
| C100–C103 | `Model/Pickle` (state tuples with pybind casts; goals on the heap of `Model/Goals`; params rebuild = C38) | induction over goal trees, step lists and primitive lists |
| C104–C107 | `Model/Labels` (lane corridor queries from `Model/Corridor`, geometry as functions of corridor and position, worlds from `Model/World`) | case analysis on the corridor queries; ordered-field arithmetic; find/erase/filter lemmas for the agent map |
| C108–C110 | `Model/Frenet` (over ℝ, on `Model/Line`, `Model/Angle`) | decomposition along tangent and normal; minimality of the foot point; angle uniqueness |
| C111–C114 | `Model/MapIf` (on `Model/Corridor`, `Model/Roadgraph`) | invariant of the cache over histories; shortest-path and k-nearest contracts; pigeonhole for the hash; concrete maps |
| C115–C121 | `Model/Bench` (benchmark runner and result archives; the simulation, pickled sizes and substring test are parameters; logging, viewer, pandas columns and ray are not modelled) | induction over configs with an invariant of checkpoint file, temporary file and pending results; relational characterisation of one run; concrete runs |
| C122–C128 | `Model/PServer` (the Python `ParameterServer` as a tree; sharing of children between servers, the store after an exception, descriptions and logging are not modelled; stripped characters and Python's equality are parameters) | mutual induction over stores, per-key relations lifted to paths; invariant over histories of calls; concrete stores for the violations |
| C129–C133 | `Model/ScenGen`, `Model/Overlap` (Python scenario generation: lists per source, placement with a stream of samples and fuel, goals as lane positions, selection of controlled agents; bounding box tree and polygon test are parameters; route generation, agent models and reader parameters are not modelled) | inductions over sources, lanes and the placement loop; invariant over the search for collisions and over the marks; deletion of descending indices; concrete configurations for the violations |
| C134–C138 | `Model/Dataset`, `Model/Window` (Python readers of recorded data: tracks as lists of motion states with integer milliseconds, decomposition, generation per file, replay, moving window with fuel; map membership, lane positions and vehicle parameters are parameters; reading the csv files, agent models and controllers are not modelled) | induction over tracks, files and windows; independent specs `Spec/Dataset`, `Spec/Window`; violations as proved witnesses; termination for positive steps for every sufficient fuel |
| C139–C142 | `Model/RssEval` (evaluator and interface around the RSS library: copies kept, extraction, relevant agents, choice of the route, turn rate, safety polygon over ℝ with exact angles; the library – map matching, routing, scenes, check, physics – is a parameter) | induction over histories of calls and responses; physics as a hypothesis `RightPhysics` with a proved instance; signs of angle differences through sines |
| C143–C150 | `Model/Runtime` (scenario.py, scenario_generation.py, runtime.py, runtime.hpp: agents are objects on a heap, scenarios and worlds hold references; planning, execution, pickling, cloning and corridors are functions on contents; file system as a parameter) | invariant over arbitrary histories of calls (stored agents untouched, served scenarios apart); a runtime's history embedded into such a history; snapshots by induction on steps |
| C151–C156 | `Model/Shape` (commons.hpp Shape, polygon.hpp, standard_shapes.cpp, agent.cpp GetPolygonFromState over ℝ; outer rings as point lists; boost's transformers, envelope, correct and area after their documentation, `union_` and `buffer` as parameters) | coordinates in the frame of the center for all points, shoelace sums under affine maps and reversal, extents as attained maxima carried along point-wise relations; proved counterexamples for swapped and stale distances, rotation about a displaced center, one-sided inflation and lost parts |
| C157–C162 | `Model/LaneLine` (opendrive/commons.hpp CreateLineWithOffsetFromLine, lane.cpp append), `Model/Xodr` (xodr_parser.py on an element tree; Python's `int`/`float`, boost `simplify`, `odrSpiral` as parameters; exceptions as `thrown`; C++ map of roads, lanes, junctions) | records and elements related by `Forall₂`, permutations for dictionaries and sorting, induction over roads, sections and lanes with a lane counter; a document worked out; proved counterexamples for offsets, section starts, missing links, refusals |
| C163–C166 | `Model/Analyzer` (benchmark_analyzer.py find_configs, get_scenario_ids, make_scenarios_congruent, visualize, _render_histories; scenario_dumper.py selection and trajectory table; data frames as lists of rows, criteria as tests, `sort_values` as a parameter) | permutation and order of rows for any sort, uniqueness of configurations, induction over steps of the display; a table worked out; proved counterexamples for empty lists and filters |
| C167–C172 | `Model/Placement` (config_with_ease.py, uniform_vehicle_distribution.py on lines of `Model/Line`; random numbers as a sequence in [0,1), `randint` and corridor lookup as parameters), `Model/Conversion` (model_json_conversion.py, deterministic.py; classes and their texts as a table, polygons of `Model/Shape`) | loops with fuel shown to end by the spacing, arcs related to states by `Forall₂`, chains of gaps, ascending ids; `decide` only over the complete table of classes; proved counterexamples |
| C173–C176 | `Model/ConstAcc` (primitive_const_acc_stay_lane.cpp with idm_lane_tracking.cpp over ℝ, steering towards the corridor as a parameter, IDM of `Model/Idm`; behav_macro_actions_from_param_server.hpp with the primitives of `Model/Primitives` on a heap) | the loop related to Euler steps with their accelerations and gaps, closed form of the speed by induction, histories by induction over plans |
| C177–C179 | `Model/SafeArea` (evaluator_safe_dist_drivable_area.cpp with shapes of `Model/Shape`; CalculateLatAccelerationMaxAtFrenetAngle of single_track.hpp over ℝ; label functions agent_near, succeeding_agent, generic_ego, constant; inclusion and distance of polygons are parameters) | extents of the enlarged outline transported to the road's frame; front agent from C14; induction over evaluations |
| C180–C183 | `Model/ClosedLoop`: the world of `Model/World` with the behaviours of `Model/StaticTraj`, `Model/ActionDriven` (constant acceleration) and `Model/Idm` and the execution of `Model/Interpolate` plugged in; other agents, observer and leaders stay arbitrary; vehicles along a centre line are (time, arc length, velocity) | induction over the steps with an invariant on the executed row; one-step lemma from `step_effect`, C02, C17, C24, C51; Bernoulli's inequality and 1+x ≤ exp x for C183 |
| C184 | `Model/IdmLeader`: CalcRelativeValues of base_idm.cpp on the front agent of `Model/FrontRear`, lane end of `Model/ConstAcc`, actions as a sum type | case analysis; nearest vehicle among the nearest agents considered from C14; acceleration order from the closed form C23 |
| C185–C189 | viewer.py camera, choice and colours of drawn agents, video_renderer, threaded_viewer, buffered viewers, renderer.hpp (Model/Viewer.lean) | arithmetic of the range; induction over frame sequences with a growing colour dictionary; induction over recorded worlds / queued times / buffer additions. matplotlib, pygame, ffmpeg not modelled |
| C190 | `Model/PickleGeo` (getter and setter of each pickle on the line, polygon, execution and conversion models) | uniqueness of the arc-length table, ring orientation under rigid motions, extents as maxima |
| C191 | `Model/Multivariate` (over ℝ; normal pairs of the engine and the eigen solver are parameters, the solver by its contract) | matrix algebra, spectral theorem for the existence of the decomposition, induction over draws |
| C192 | `Model/Readers` (on the parameter server model; constructors and `randint` are parameters) | induction over agents, types, tracks, sources and scenarios |
| C193 | `Model/Spiral` (reals; coefficient tables exact) | derivative of the phase, fundamental theorem; Taylor bounds of `exp` and kernel arithmetic over ℚ for the rational approximation |
| C194 | `Model/Steering` (reals; front axle, frenet state, steering law) | nearest point of the line, derivative of the front axle, monotone tangent; induction over the planned points |
| C195, C196 | `Model/Bounds` (reals; the spline is a parameter) | extrema of lists; C07 for the removal; floor and ceiling of the quotient |
| C197 | models of C182, `Spec/Follow` | braking-distance invariant; per plan either every acceleration is the strongest braking, or there is room for a whole step at full acceleration (quadratic in the closing speed); induction over steps |
| C198 | `Model/Pick`: choice of the corridor, `Plan` of the base IDM and of lane changing behaviours, lines followed | case analysis on the choice; frenet angle as smallest turn (C31), outline placed (C152) |
| C199 | `Model/Pick.classic`: rows of `Model/Idm` as points and tangents of the centre line | induction over the rows; Lipschitz continuity of points at arc length (C29) with clamped arc length |
| C200 | models of C182, `Spec/Platoon` | potential (gap plus difference of braking ways) against the hardest braking of the discretised motion; per plan either braking as hard as possible all the time or the desired gap is below twice the gap, which leaves room for a whole step; induction over steps with one state per agent |
| C201 | `Model/Traffic`: the plug of `Model/World` composed from `Model/IdmLeader`, `FrontRear`, `Pick`, `Idm`, `Interpolate`, `ShapeExt`, `Frenet`; `Spec/Traffic` | Frenet coordinates on a straight line are exact; the search finds the next vehicle (C184); per agent one plan of C200's kind; the invariant is handed on by every step for all agents at once; half-plane separation of the outlines for the evaluator (C40) |
| C202, C203 | as C201 with an abstract lane (`Setting` in `Props/Traffic`): positions on a simple polyline are their own nearest points, tangents are headings (C61) | the proof of C201 over the abstract lane; for the front vehicle the exact free motion per step and two potentials (velocity short of 15, way lost) |
| C204 | `Model/GoalRun` plugs the world of `Model/Traffic`, the evaluators of `Model/Evaluators` and the goal heap of `Model/Goals` into the runner of `Model/Bench` | induction over the remaining steps with the stretches still to be reached; one step of the front vehicle (`front_step`, from C203) cannot jump over a stretch |
| C205 | as C202 | a vehicle with 300 m of room ahead accelerates almost freely (`far_acc`), so position plus 8.83 s times velocity grows by 13.4 m/s; one with less room is where the vehicle ahead was shortly before; invariant over all vehicles with an allowance of 436 m per vehicle ahead, induction over the steps |
| C206 | as C204 | as C204 with the invariant of C205 in place of the motion of the front vehicle |
| C207 | `Model/RoadArea.lean` on the graph of `Model/Roadgraph.lean`: lane boundaries, lane polygons, stored polygons | neighbour queries of C32; induction over the vertices and the route |
| C208 | `Model/RoadArea.lean`: union, growing, shrinking as parameters with a contract (`Spec/RoadArea.lean`: areas as sets of points) | fold over the lanes with the invariant "the area so far is the union so far"; the contract is met by intervals on a line (examples) |
| C209 | `Model/RssWorld.lean`: what is handed to the RSS library; map matching, scene creation and range check are parameters | case analysis of the loops; the box as a set of points, rotation by the orientation inverted |
| C210–C212 | no new model: `Model/Line`, `Frenet`, `Steering`, `Dynamics`, `Pick`, `Shape`, `Bounds` | `Spec/Rigid*` define a change of coordinates (turn and shift) and what it means for a line, a state or a state vector to be the same in the new coordinates. Equivariance is proved from the segments up (scalar products, distances and interpolation), through the searches and loops by induction, to whole planned trajectories; bounding boxes are shown to break it |
| C213 | no new model: the traffic of C201 and the evaluators of C40/C42 | `Spec/TrafficEval` describes the strip a straight lane covers and what a containment test has to accept; vehicle bodies stay in it because hulls of points of a convex set do; no two bodies meet by C201, so no evaluator can answer yes |
| C214 | no new model: the world of C01–C12 | registry calls are total and touch only the id-ordered registry; two ordered registries with the same lookup are equal, hence so is everything computed afterwards |
| C215 | no new model: the world of C01–C12 and the traffic of C201 | `Spec/Later*` define a world, a call, a behaviour and an execution model some time later. Every loop of a step is shown to commute with the shift by induction; for the classic IDM the searches, the trajectory and the interpolation are shown to commute as well, and that a valid execution always has a state because the trajectory ends at the end of the step |
| C216 | no new model: the traffic of C201 and C202 | `Spec/TrafficAhead` says when two worlds agree on a group of vehicles that has nothing else ahead. Induction over the steps with the invariant of C201 for both worlds: the vehicle reacted to is the nearest ahead (unique, since vehicles are clear of each other), so it is in the group and the same in both worlds; the trajectory depends on nothing else; the order is kept, so the group still has nothing else ahead. |
| C217 | `Model/SourceSink`: `get_road_corridor_from_source_sink` for any JSON value, on the map interface of C111–C113 | `Spec/SourceSink` says what two points and road ids are as JSON. Case analysis on the value, then C112's route theorem. Road ids and whole first numbers are refuted by theorems for all maps. |
| C218 | `Model/Traffic`, `Model/FrontRear`, `Spec/Lanes`, `Props/Lanes`, `Props/LanesRun` | vehicles of parallel lanes are passed over by the front/rear search (lateral difference, or the angle of oncoming ones); so the run of the world restricted to a lane is the run of that lane alone (`PartOf` is kept by every step), to which the single-lane invariant of C201 applies; bodies on different lanes are separated sideways; hiding by more vehicles than are looked at is proved with a witness |
| C219 | `Model/Mixed`, `Spec/Mixed`, `Props/Mixed`, `Props/MixedRun`, `Spec/MixedLong`, `Props/MixedLong` (runs of any length) | `mixed` replaces the planner of the foreign vehicles by an arbitrary function, `drive` takes a new one for every step; the contract (`Decent`) speaks of states before and after a step only. An IDM vehicle moves as in a world of IDM vehicles (`same_effect`), so the estimates of C201 apply to it; the induction over the vehicles ahead uses the contract where the vehicle is foreign. A hard stop is proved with a witness |
| C220 | `Model/ReplayMixed`, `Spec/ReplayMixed`, `Props/ReplayMixed`, `Props/ReplayLong` (runs of any length, winding lanes) | the planner of C219 is the replaying behaviour; by C19/C20 its trajectory begins and ends on the recording at the ends of the step and by C17 execution takes its last row, so the contract of C219 follows from what is assumed of the recordings |
| C221 | `Model/Mixed`, `Model/ReplayMixed`, `Spec/ReplayMixed` (`Kept`, `Replayed`), `Props/ReplayAnyone` | induction over the steps with the step lemma of C220, freed of what it assumed about the other vehicles; a witness run shows that replayed vehicles do not react |
| C222 | `Model/World`, `Model/FrontRear`, `Model/Traffic`, `Model/Evaluators`, `Spec/Rename`, `Props/Rename`, `Props/RenameTraffic` | every operation on the registry commutes with an order preserving renaming (induction over the registry), hence planning, execution and removal; the front/rear search and so the plan of the IDM commute with it; a witness for the order |
| C223 | `Model/Dynamics`, `Model/Steering`, `Model/TrackLimits`, `Spec/TrackLimits`, `Props/TrackLimits` | induction over the rows with the step of C26, the acceleration bounds of C21, the steering bounds of C27 and C59; case analysis of the check |
| C224 | `Model/ConstTraffic`, `Spec/ConstTraffic`, `Props/ConstTraffic` | the trajectory of the vehicle from C51, mapped to the line; it is `Decent` in the sense of C219, and induction over the steps with the step lemma of C219; for drives of any length the vehicle ahead bounds the others (`Led`) |
| C55, C97–C99 | `Model/Rss` (inner behaviours on a heap; planning, rating and corridors are parameters; restrictions over ℝ) | step lemmas, induction over planning histories, derivatives |
| C56 | `Model/ShapeExt` | corner maxima over ℝ |
| C57 | `Model/Idm` | witness; constant-acceleration characterisation |
| C58–C60 | `Model/Dynamics` | angle lemmas; tan monotonicity; induction over points |
| C61, C62, C64 | `Model/Line` | search lemmas; walk along the line |
| C63 | `Model/World` | pointwise characterisation |
| C65–C68 | `Model/Roadgraph` | graph invariants of the generated map, path enumeration, witnesses |
| C69 | `Model/Corridor` | case analysis of the query |

## Assumptions worth naming
* Planning does not write to the shared snapshot: `ObserverModelNone` gives all observed worlds of one step the agent pointers of the single clone made at the start of `PlanAgents` (world.cpp, observer_model_none.hpp); a plug-in that mutated its observed world would be seen by later agents. In `Model/World` a plan is a function of the observed value (C02); the aliasing itself is stated in `Props/Heap` (`C11_observations_alias`).
