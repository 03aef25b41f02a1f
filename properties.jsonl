{"id": "C01", "title": "World clock is the sum of step lengths", "statement": "Starting from world time t0, after any sequence of World::Step(dt_i) calls GetWorldTime() equals t0 plus the sum of the dt_i; adding, removing or clearing agents, observing, cloning, predicting or querying never changes it.", "quantifier": "every world, every finite sequence of API operations, every dt", "why_tests_cant": "sequences of steps interleaved with other API calls are unbounded", "anchors": ["bark/world/world.cpp: World::Step, World::Execute", "bark/world/world.hpp: GetWorldTime"]}
{"id": "C02", "title": "Planning is simultaneous", "statement": "Within one Step, what each agent plans and executes depends only on the world as it was before the step (and on that agent's own models), never on what another agent planned earlier in the same step; with a stateless observer the result is the same for every order in which agents are visited.", "quantifier": "every set of agents, every behaviour/execution model, every iteration order", "why_tests_cant": "orders grow factorially and models are arbitrary plug-ins", "anchors": ["bark/world/world.cpp: World::PlanAgents, World::Execute"]}
{"id": "C03", "title": "State history is bounded and ordered", "statement": "An agent's state/action history never exceeds its configured maximum length if that is >=1 (and 1 if it is 0), its last entry is the state and action most recently executed, and after any number of updates it is exactly the last max(1,max-length) entries of everything ever executed (in order).", "quantifier": "every history, every update sequence, every maximum length", "why_tests_cant": "unbounded number of updates and all maximum lengths", "anchors": ["bark/world/objects/agent.cpp: Agent::UpdateStateAction", "bark/world/objects/agent.hpp: GetCurrentState, GetStateInputHistory"]}
{"id": "C04", "title": "Current state is always defined", "statement": "No sequence of world operations (adding, removing, stepping, planning, executing, index updates) can make reading an agent's current state fail; GetCurrentState() is well defined after construction and after every update, for every MaxHistoryLength (including 0, where one entry is kept). The only API way to lose it is SetStateInputHistory with an empty history.", "quantifier": "every maximum history length, every update sequence, every sequence of world operations, arbitrary plug-in models", "why_tests_cant": "the claim ranges over unbounded operation sequences and arbitrary model plug-ins", "anchors": ["bark/world/objects/agent.cpp: Agent::Agent, Agent::UpdateStateAction", "bark/world/objects/agent.hpp: GetCurrentState, SetStateInputHistory", "bark/world/world.cpp: World::Step"]}
{"id": "C05", "title": "Step removes exactly the expired agents", "statement": "If removal of out-of-map agents is off, the agents after a Step are exactly those whose behaviour status after planning is not EXPIRED; ids are unchanged and no agent is invented.", "quantifier": "every world and every behaviour model", "why_tests_cant": "all status combinations across arbitrarily many agents", "anchors": ["bark/world/world.cpp: World::RemoveInvalidAgents"]}
{"id": "C06", "title": "Agents not (yet) active are untouched by a step", "statement": "An agent whose first-valid timestamp lies in the future of the world time, keeps its behaviour model state, execution state and history through Step; an agent whose planned behaviour or execution status is not VALID keeps its history.", "quantifier": "every world, every step", "why_tests_cant": "all timestamps and statuses", "anchors": ["bark/world/world.cpp: World::PlanAgents, World::Execute", "bark/world/objects/agent.cpp: Agent::IsValidAtTime"]}
{"id": "C07", "title": "Out-of-map removal", "statement": "With removal enabled a Step removes an active agent whose behaviour is valid exactly if the box around its outline before the step is not inside the map's box. (So an agent that leaves the map during a step is still there after it; shown separately.)", "quantifier": "every world and map box", "why_tests_cant": "needs all motions across the boundary", "anchors": ["bark/world/world.cpp: World::RemoveInvalidAgents, World::UpdateAgentRTree, World::PlanAgents"]}
{"id": "C08", "title": "Agent registry is a map", "statement": "AddAgent/RemoveAgentById/ClearAgents/GetAgent/GetAgents behave like a finite map keyed by agent id: lookup after any operation sequence returns the latest agent added under that id and not removed since; iteration is in increasing id order without duplicates.", "quantifier": "every operation sequence", "why_tests_cant": "unbounded operation sequences", "anchors": ["bark/world/world.cpp: AddAgent, RemoveAgentById", "bark/world/world.hpp: GetAgent, ClearAgents"]}
{"id": "C09", "title": "Spatial queries agree with the registry", "statement": "After any history that ends in a step or an update of the spatial index, followed by additions only, nearest-agent queries never fail and return exactly those found agents that are registered, active and VALID; right after the step or update polygon queries return exactly the active VALID agents the polygon meets. (Removing an agent without such an update makes the next query dereference null; shown separately.)", "quantifier": "every operation sequence followed by a query", "why_tests_cant": "history dependent; crash needs a specific interleaving", "anchors": ["bark/world/world.cpp: GetNearestAgents, GetAgentsIntersectingPolygon, UpdateAgentRTree, RemoveAgentById"]}
{"id": "C10", "title": "Valid agents", "statement": "GetValidAgents returns exactly the registered agents whose behaviour status is VALID and whose first-valid timestamp has been reached, under unchanged ids.", "quantifier": "every world", "why_tests_cant": "all status/time combinations", "anchors": ["bark/world/world.cpp: World::GetValidAgents"]}
{"id": "C11", "title": "Predictive lookup does not disturb the world", "statement": "GetWorldAtTime, Observe and Predict work on copies: whatever is then done to the copy through what it reaches, the agents of the original world and the objects they own themselves stay as they were, as long as no shared object leads back to them, and every agent of the copy is a distinct, equal copy. (Inner models of composite models, evaluators, map and observations are shared; shown separately.)", "quantifier": "every world, every sequence of mutations of the copy", "why_tests_cant": "aliasing shows only after particular mutation sequences", "anchors": ["bark/world/world.hpp: World::Clone", "bark/world/objects/agent.cpp: Agent::Clone", "bark/world/observed_world.cpp: Predict"]}
{"id": "C12", "title": "Observation skips unknown agents", "statement": "World::Observe(ids) returns one observed world for each requested id that exists, in request order, and nothing for unknown ids.", "quantifier": "every id list and world", "why_tests_cant": "all lists incl. duplicates and unknown ids", "anchors": ["bark/world/world.cpp: World::Observe"]}
{"id": "C13", "title": "Retained observations are bounded", "statement": "The memory reachable from an agent through GetSensedWorld does not grow with the number of steps. (Violated: each sensed world holds cloned agents which hold the previous sensed world, so the chain grows by one per step.)", "quantifier": "every number of steps", "why_tests_cant": "needs unboundedly many steps", "anchors": ["bark/world/world.cpp: World::PlanAgents", "bark/world/objects/agent.cpp: Agent::Agent(const Agent&)"]}
{"id": "C14", "title": "Front agent is the nearest one ahead", "statement": "GetAgentFrontRearForId returns as front an agent, different from the ego, that qualifies (VALID, active, within lateral and angular thresholds, at or beyond the longitudinal threshold) and no qualifying agent among those considered is strictly closer ahead; none iff none qualifies. Restricted to the lane corridor every agent touching it is considered. (In the default mode only the MaxAgentsFrontRear+1 nearest are considered and the leader can be missed; shown separately.)", "quantifier": "every set of candidate agents and thresholds", "why_tests_cant": "all orderings and ties", "anchors": ["bark/world/world.cpp: World::GetAgentFrontRearForId"]}
{"id": "C15", "title": "Rear agent is the nearest one behind", "statement": "GetAgentFrontRearForId returns as rear a qualifying agent behind the threshold and none is closer behind. (Violated: the furthest one behind is returned; with at most one qualifying agent behind, it is right.)", "quantifier": "every set of candidate agents and thresholds", "why_tests_cant": "needs two or more agents behind", "anchors": ["bark/world/world.cpp: World::GetAgentFrontRearForId"]}
{"id": "C16", "title": "Frenet difference measures the gap between shapes", "statement": "The longitudinal difference between two vehicles is the signed bumper-to-bumper gap between their frenet intervals and is flagged zeroed exactly when the intervals overlap; likewise laterally if the other vehicle is not to the right or reaches equally far to both sides. (Otherwise the lateral gap is wrong by the difference of the side extensions; shown separately.)", "quantifier": "all pairs of frenet states and shape extensions", "why_tests_cant": "continuous domain with sign cases", "anchors": ["bark/commons/transformation/frenet_state.cpp: FrenetStateDifference::FrenetStateDifference"]}
{"id": "C17", "title": "Execution state lies on the planned trajectory at the requested time", "statement": "If the requested time is a time stamp of the trajectory, the executed state is that trajectory row; between two stamps it is the linear interpolation of the neighbouring rows. (Violated beyond the first segment: the lower row is always row 0; holds for the first segment and for the exact matches the search finds.)", "quantifier": "every trajectory and time", "why_tests_cant": "all lengths and times", "anchors": ["bark/models/execution/interpolation/interpolate.cpp: ExecutionModelInterpolate::Execute, CheckIfWorldTimeIsExact, FindClosestLowerTrajectoryRow"]}
{"id": "C18", "title": "Invalid execution is reported", "statement": "As long as no request failed before, a request within the time span of an increasing trajectory is served and reported VALID; one that cannot be served is reported INVALID and leaves the executed state unchanged; every result is one of these two. (INVALID is never reset by later requests; shown separately.)", "quantifier": "every sequence of execute calls", "why_tests_cant": "needs call sequences", "anchors": ["bark/models/execution/interpolation/interpolate.cpp: ExecutionModelInterpolate::Execute"]}
{"id": "C19", "title": "Static trajectory replay", "statement": "A static-trajectory plan for [t,t+dt] inside the recorded time range starts exactly at t, ends exactly at t+dt, has strictly increasing times, and all interior rows are recorded rows; every row lies on the piecewise-linear interpolation of the recording.", "quantifier": "every strictly increasing recording, every t and dt>0 in range", "why_tests_cant": "all recordings and offsets", "anchors": ["bark/models/behavior/static_trajectory/behavior_static_trajectory.cpp: BehaviorStaticTrajectory::Plan, calculate_interpolated_state"]}
{"id": "C20", "title": "Static trajectory lifecycle", "statement": "Behaviour status is NOT_STARTED before the recording starts, EXPIRED once its end is reached by the planning horizon, and VALID in between; as time advances it never goes back.", "quantifier": "every recording and every increasing sequence of times", "why_tests_cant": "all time sequences", "anchors": ["bark/models/behavior/static_trajectory/behavior_static_trajectory.cpp: BehaviorStaticTrajectory::UpdateBehaviorStatus"]}
{"id": "C21", "title": "IDM acceleration is within its bounds", "statement": "With sensible parameters (positive maximal acceleration and comfortable braking, non-zero desired velocity, coolness factor in [0,1), lower bound at most upper bound) the acceleration used by IDM behaviours is a number in [lower bound, upper bound] whatever the traffic situation, except exactly for a zero gap to a leader that drives in the opposite direction at one critical speed while the coolness factor is positive. (There, and with maximal acceleration 0 or coolness factor 1 at zero gap, it is NaN; shown separately.)", "quantifier": "all velocities, distances (incl. <=0) and parameters with lower<=upper", "why_tests_cant": "continuous domain incl. division by zero", "anchors": ["bark/models/behavior/idm/base_idm.cpp: BaseIDM::GetTotalAcc, CalcIDMAcc"]}
{"id": "C22", "title": "IDM free road behaviour", "statement": "Without interaction the IDM acceleration is non-increasing in velocity above zero, zero at desired velocity, and positive (negative) below (above) it.", "quantifier": "all velocities and parameters", "why_tests_cant": "continuous domain", "anchors": ["bark/models/behavior/idm/base_idm.cpp: CalcFreeRoadTerm, CalcRawIDMAcc"]}
{"id": "C23", "title": "IDM interaction monotonicity", "statement": "With sensible parameters and for fixed velocities a smaller gap to the leader never increases the IDM acceleration, for every coolness factor in [0,1) (if the factor is positive, for vehicles that do not drive backwards); for a fixed gap a slower leader never increases it as long as the desired gap to the faster one is not negative (and, with a positive coolness factor, if the leader does not accelerate). (For much faster leaders it does; shown separately.)", "quantifier": "all gaps and velocities", "why_tests_cant": "continuous domain", "anchors": ["bark/models/behavior/idm/base_idm.cpp: CalcInteractionTerm"]}
{"id": "C24", "title": "IDM velocity stays in bounds", "statement": "With sensible parameters (see C21), at least two trajectory points and minimum at most maximum velocity, planning yields a trajectory whose computed velocities lie within [min velocity, max velocity] and whose times are equally spaced from the current world time to the planning horizon.", "quantifier": "every situation and horizon", "why_tests_cant": "arbitrary many points", "anchors": ["bark/models/behavior/idm/idm_classic.cpp: GenerateTrajectory", "bark/models/behavior/idm/base_idm.cpp"]}
{"id": "C25", "title": "IDM never drives backwards", "statement": "The arc length along an IDM trajectory never decreases when minimum velocity >= 0. (Violated: position integrates the unclamped motion, so a braking vehicle at standstill moves backwards.)", "quantifier": "every situation", "why_tests_cant": "needs braking below zero velocity", "anchors": ["bark/models/behavior/idm/idm_classic.cpp: GenerateTrajectory"]}
{"id": "C26", "title": "Integrators advance time", "statement": "Euler and RK4 integration of the single-track models by any sequence of step lengths advance the state's time by exactly their sum, and velocity by the sum of step length times acceleration input; the single-track model with steering-rate input likewise. (The triple integrator does not: its time derivative is the time itself; refuted by a separate theorem.)", "quantifier": "all states, inputs and dt", "why_tests_cant": "continuous domain", "anchors": ["bark/models/dynamic/integration.hpp: euler_int, rk4", "bark/models/dynamic/single_track.hpp: StateSpaceModel", "bark/models/dynamic/triple_integrator.hpp"]}
{"id": "C27", "title": "Steering command saturation", "statement": "With limiting switched on the computed steering angle never exceeds the configured maximum in magnitude. (Without the flag it is unbounded; shown by a separate theorem.)", "quantifier": "all geometry", "why_tests_cant": "continuous domain", "anchors": ["bark/models/dynamic/single_track.hpp: CalculateSteeringAngle"]}
{"id": "C28", "title": "Arc length parametrisation", "statement": "For every polyline, after any sequence of operations that ends with adding a point, appending, concatenating, or rebuilding, the stored arc-length table starts at 0, is non-decreasing, has one entry per point and ends at the polyline length. (Reverse keeps the old table and Translate drops it, until the next such operation; shown separately.)", "quantifier": "all polylines and construction sequences", "why_tests_cant": "arbitrary many points/ops", "anchors": ["bark/geometry/line.hpp: Line_t::AddPoint, RecomputeS, AppendLinestring, Reverse, Translate"]}
{"id": "C29", "title": "Point at arc length", "statement": "On a polyline of at least two points with an up-to-date arc-length table GetPointAtS returns the first point for s<=0, the last point for s>=Length, and otherwise a point on the segment containing s at the right fraction; points at arc lengths s and s' are at most |s-s'| apart.", "quantifier": "all polylines and s", "why_tests_cant": "continuous and unbounded size", "anchors": ["bark/geometry/line.hpp: GetPointAtS, GetSegmentEndIdx"]}
{"id": "C30", "title": "Nearest point on line", "statement": "For a polyline of at least two points without coinciding neighbours GetNearestPointAndS returns a point of the polyline that is at least as close as every other point of it, and its arc length. (Next to a duplicated point the result is NaN, and shorter lines are degenerate; shown separately.)", "quantifier": "all polylines without repeated points and all query points", "why_tests_cant": "continuous and unbounded size", "anchors": ["bark/geometry/line.hpp: GetNearestPointAndS"]}
{"id": "C31", "title": "Angle normalisation", "statement": "Normalising an angle returns the unique equivalent angle (modulo 2*pi) in the documented half-open range; the signed angle difference is in [-pi,pi), is a shortest rotation between the directions, and antisymmetric except for opposite directions; AngleDiff is its size exactly if it is at most pi. (It is not wrapped, so larger values occur; shown separately.)", "quantifier": "all reals", "why_tests_cant": "continuous domain", "anchors": ["bark/geometry/angle.hpp: Norm0To2PI, NormToPI, SignedAngleDiff, AngleDiff"]}
{"id": "C32", "title": "Lane graph neighbours are consistent", "statement": "Inner and outer neighbour lookups are inverse to each other within a road built from lane positions; left and right lane lookups of a forward lane are mirrored for a backward lane and never lead to a different road; the left and right boundary of a lane are its own line and that of its inner neighbour, whichever lies on that side in the driving direction asked for; the list of all lane ids has every lane but the reference lanes once.", "quantifier": "all road layouts", "why_tests_cant": "all layouts", "anchors": ["bark/world/map/roadgraph.cpp: GenerateNeighbours, GetInnerNeighbor, GetOuterNeighbor, GetLeftLane, GetRightLane"]}
{"id": "C33", "title": "Lane path search", "statement": "FindPath between two lanes returns a sequence starting and ending at the requested lanes, each consecutive pair joined by an edge of an allowed type, of minimal cost; it is empty iff the goal is unreachable.", "quantifier": "all graphs and lane pairs", "why_tests_cant": "unbounded graphs", "anchors": ["bark/world/map/roadgraph.cpp: FindPath, FindDrivableLanePath", "bark/world/map/roadgraph_impl.hpp"]}
{"id": "C34", "title": "Road-id based corridor generation succeeds on known roads", "statement": "GenerateRoadCorridor(start_road,end_road) yields a corridor when the roads exist and are connected. (Violated: the driving-direction lookup never reports success so the result is always null.)", "quantifier": "all maps", "why_tests_cant": "all maps", "anchors": ["bark/world/map/roadgraph.cpp: GetDrivingDirectionsForRoadId", "bark/world/map/map_interface.cpp: GenerateRoadCorridor"]}
{"id": "C35", "title": "Lane corridors partition the drivable lanes", "statement": "After corridor generation every drivable non-reference lane of the roads belongs to a lane corridor, the corridor of a lane also contains all lanes reached by following next-lane links, the corridor list has no duplicates, and generation terminates exactly if next-lane links are acyclic from the lanes of the route (a cycle makes it loop forever). (That corridors partition the lanes is not guaranteed: it holds for routes without merges visited in increasing road order and is refuted otherwise.)", "quantifier": "all road sequences", "why_tests_cant": "unbounded chains; cycles", "anchors": ["bark/world/map/map_interface.cpp: CalculateLaneCorridors", "bark/world/map/road_corridor.hpp: SetLaneCorridor"]}
{"id": "C36", "title": "Reference line sampling", "statement": "PlanView::AddLine, AddArc and AddSpiral with positive increment end and sample from 0 to exactly the given length with gaps of at most the increment; after lines and spirals GetLength is the length added. (AddArc does not update the length, and a non-positive increment never ends; shown separately.)", "quantifier": "all lengths and increments", "why_tests_cant": "continuous, unbounded number of samples", "anchors": ["bark/world/opendrive/plan_view.cpp: AddLine, AddSpiral, AddArc"]}
{"id": "C37", "title": "Hierarchical parameters behave like a map over paths", "statement": "Setting a parameter 'A::B' and reading it through any split (Get('A::B') or AddChild('A')->Get('B')) returns the value last set for that path and type, defaults are returned only for never-set paths, and different types or paths do not interfere.", "quantifier": "all parameter names, all set/get sequences", "why_tests_cant": "unbounded sequences and names", "anchors": ["bark/commons/params/setter_params.hpp: SetterParams::get_parameter, set_parameter, AddChild"]}
{"id": "C38", "title": "Condensed parameter list round trip", "statement": "Rebuilding parameters from GetCondensedParamList yields parameters answering every Get like the original.", "quantifier": "all parameter trees", "why_tests_cant": "unbounded trees", "anchors": ["bark/commons/params/setter_params.hpp: GetCondensedParamList, SetterParams(const CondensedParamList&)"]}
{"id": "C39", "title": "Sequential goals are reached in order", "statement": "The index of the last reached goal never decreases, advances by at most one per query, and the sequence reports success only after every goal has been met in order at some query.", "quantifier": "all goal lists and query histories", "why_tests_cant": "unbounded histories", "anchors": ["bark/world/goal_definition/goal_definition_sequential.cpp: AtGoal"]}
{"id": "C40", "title": "Collision evaluation is exact", "statement": "The agents-collision evaluator returns true iff two different active agents' shapes collide; the ego-collision evaluator returns true iff the ego collides with an active agent among the four nearest entries of the index, hence with at most four agents iff it collides with any. (With more a collision can be missed; shown separately.)", "quantifier": "all worlds", "why_tests_cant": "all agent sets", "anchors": ["bark/world/evaluation/evaluator_collision_agents.cpp", "bark/world/evaluation/evaluator_collision_ego_agent.cpp"]}
{"id": "C41", "title": "Cumulative evaluators", "statement": "Step-count, agent-count, mean-velocity, mean-gap, planning-time and violation-count evaluators return after n evaluations exactly the count/mean/sum over those n evaluations, as long as the observed agent is in the world; counts never decrease. (Once the agent is gone the violation count throws; shown separately.)", "quantifier": "all evaluation sequences", "why_tests_cant": "unbounded sequences", "anchors": ["bark/world/evaluation/*.hpp", "bark/world/evaluation/safe_distances/evaluator_safe_dist_base.hpp"]}
{"id": "C42", "title": "Goal-reached and expiry evaluators", "statement": "Goal-reached over all agents is true iff every agent is at its goal; for a single unknown agent goal-reached is false and behaviour-expired is true.", "quantifier": "all worlds", "why_tests_cant": "all agent sets", "anchors": ["bark/world/evaluation/evaluator_goal_reached.hpp", "bark/world/evaluation/evaluator_behavior_expired.hpp"]}
{"id": "C43", "title": "LTL evaluation bookkeeping", "statement": "Safety violations reported by the LTL evaluator never decrease and are exactly counted; the monitors after any history are characterised exactly, and every combination of distinct present agents demanded by a rule has exactly one monitor as long as no agent that left has returned. (A returning agent gets no monitor; shown separately.)", "quantifier": "all presence histories", "why_tests_cant": "unbounded histories", "anchors": ["bark/world/evaluation/ltl/evaluator_ltl.cpp"]}
{"id": "C44", "title": "Longitudinal safe distance is sound", "statement": "If the safe-distance check accepts (v_f,v_r,dist,a_f,a_r,delta) with a non-negative gap, then with the front braking at a_f to standstill and the rear keeping speed for delta and then braking at a_r to standstill, the vehicles never touch, unless after the reaction time the rear brakes harder, is faster and stops earlier; it always holds if the front brakes at least as hard. (In the excluded case, and for negative gaps, it accepts crashes; shown separately.)", "quantifier": "all speeds, gaps, decelerations, reaction times and all times t>=0", "why_tests_cant": "continuous domain and time", "anchors": ["bark/world/evaluation/ltl/label_functions/safe_distance_label_function.cpp: CheckSafeDistanceLongitudinal, CalcSafeDistance0..3"]}
{"id": "C45", "title": "Rule-based lane change decision", "statement": "A lane change is only proposed to a corridor that passes every safety filter (rear and front gap/velocity, remaining lane length) with the vehicles the front/rear search of the world reports, and the proposed one maximises the distance to its front vehicle; otherwise the lane is kept. (As the search reports the furthest vehicle behind, nearer ones are overlooked, and a minimal front gap of 0 can propose a null corridor; shown separately.)", "quantifier": "all corridors and traffic", "why_tests_cant": "all subsets", "anchors": ["bark/models/behavior/rule_based/lane_change_behavior.cpp: CheckIfLaneChangeBeneficial, ChooseLaneCorridor"]}
{"id": "C46", "title": "MOBIL safety and incentive", "statement": "With no target lane pending MOBIL changes lane only if the follower in the target lane need not brake harder than the safe deceleration and the acceleration advantage exceeds the threshold; among admissible lanes it takes the best. (A pending target lane is kept without a new check when nothing better is found; shown separately.)", "quantifier": "all accelerations and parameters", "why_tests_cant": "continuous domain", "anchors": ["bark/models/behavior/rule_based/mobil_behavior.cpp"]}
{"id": "C47", "title": "Intent switching of stochastic IDM", "statement": "The yielding intention alternates YIELD/NO_YIELD only when the sampled duration of the current intent has elapsed; each switch samples a new duration for the intent entered.", "quantifier": "all sampled duration streams and time sequences", "why_tests_cant": "all random streams", "anchors": ["bark/models/behavior/idm/stochastic/idm_stochastic.cpp"]}
{"id": "C48", "title": "Prediction settings assign the right models", "statement": "After applying prediction settings with an ego model, where the specific agents are registered, active and not the ego, the ego has a copy of the ego model, each specific agent a copy of the specific model, every other active agent a copy of the default model, and inactive ones never start. (Inactive agents and the ego in the specific list, unknown agents and a missing ego model are characterised separately.)", "quantifier": "all worlds and settings", "why_tests_cant": "all agent sets", "anchors": ["bark/world/prediction/prediction_settings.cpp: ApplySettings"]}
{"id": "C49", "title": "Parametric observer perturbs only others as configured", "statement": "The parametric observer leaves the original world untouched, gives, for distributions of dimension four or more, the observing agent and every other agent a deviation sampled of its own, which is the longitudinal, orientation and velocity offset in the vehicle frame if the lateral one is 0, and no deviation if the observing agent is not listed; repeated observations are independent objects. (The lateral offset is not applied orthogonally, the default dimension of the distribution is out of range, the spatial index stays stale; shown separately.)", "quantifier": "all worlds and samples", "why_tests_cant": "continuous", "anchors": ["bark/models/observer/observer_model_parametric.cpp"]}
{"id": "C50", "title": "Macro-action selection", "statement": "Without validity checking a macro-action behaviour executes the primitive the caller selected, reports its action, and raises for unknown indices; with validity checking its first call executes the selected one of the primitives valid in this situation. (Later calls keep the valid set of the first, and the reported action and number of primitives refer to the full list; shown separately.)", "quantifier": "all primitive sets and actions", "why_tests_cant": "all subsets of valid primitives", "anchors": ["bark/models/behavior/motion_primitives/macro_actions.cpp"]}
{"id": "C51", "title": "Trajectories of action-driven behaviours cover the horizon", "statement": "Constant-acceleration (two or more time points), continuous-action and dynamic-model behaviours, for an ego state at the world time and models whose first component is the time, return trajectories starting at the current state, with strictly increasing times, covering at least the requested planning time. (Each condition is needed: shown by separate theorems.)", "quantifier": "all states, actions, dt", "why_tests_cant": "arbitrary many points", "anchors": ["bark/models/behavior/motion_primitives/continuous_actions.cpp", "bark/models/behavior/dynamic_model/dynamic_model.cpp", "bark/models/behavior/constant_acceleration/constant_acceleration.cpp"]}
{"id": "C52", "title": "Object ids are unique", "statement": "Among agents constructed or cloned in one process with fewer than 2^32 constructions and no id set by hand or read from a pickle, two have the same id exactly if they stem from the same construction; an agent constructed later never reuses an id, even with ids set by hand below the number of constructions. (Without these conditions ids clash; shown by separate theorems.)", "quantifier": "all construction/clone sequences (below the counter's range)", "why_tests_cant": "unbounded sequences", "anchors": ["bark/world/objects/object.cpp"]}
{"id": "C53", "title": "Nearest lane corridor", "statement": "GetNearestLaneCorridor returns the first corridor containing the point, else one with minimal lateral distance, and none iff the road corridor has no lane corridors.", "quantifier": "all corridor sets and points", "why_tests_cant": "all sets", "anchors": ["bark/world/map/road_corridor.cpp: GetNearestLaneCorridor"]}
{"id": "C54", "title": "Python conversion round trip", "statement": "Converting a non-null goal, dynamic model, primitive, label function, or behaviour model implemented in C++ to its Python tuple and back yields an object of the same dynamic type for every supported type, and unknown types or names are rejected. (Null pointers and behaviours written in Python are not restored; shown separately.)", "quantifier": "all supported types", "why_tests_cant": "the full type table must agree in both directions", "anchors": ["bark/python_wrapper/polymorphic_conversion.cpp"]}
{"id": "C55", "title": "RSS / safety behaviour switching", "statement": "For a non-empty rating the RSS-conformant behaviour executes the nominal plan when the situation is rated safe and the safety response otherwise, decided anew in every step of any history; the first call, on a lane, first fixes the lane corridors its models keep to and then decides alike. (An empty rating is undefined, and configured limits are replaced by the restrictions, not intersected; shown separately.)", "quantifier": "all response sequences", "why_tests_cant": "unbounded sequences", "anchors": ["bark/models/behavior/behavior_rss/behavior_rss.cpp"]}
{"id": "C56", "title": "Extension of a vehicle along and across the road", "statement": "For a rectangular shape and any orientation relative to the road, the computed front/rear extensions are exactly how far the shape reaches ahead/behind of its reference point in road coordinates; the left/right extensions are exact if the vehicle is turned to the right by at most 90 degrees or reaches equally far to front and rear. (Otherwise they are exchanged; shown separately.)", "quantifier": "all orientations and dimensions", "why_tests_cant": "continuous domain", "anchors": ["bark/commons/transformation/frenet_state.cpp: ShapeExtensionAtTangentAngle"]}
{"id": "C57", "title": "IDM plan reacts to its own planned velocity", "statement": "Along an IDM trajectory the acceleration at each point is the IDM acceleration for the velocity planned at that point; in particular a free-road plan never exceeds the desired velocity when starting below it. (Violated: the ego's initial velocity is used at every point, so a free-road plan has constant acceleration and overshoots.)", "quantifier": "all parameters and horizons", "why_tests_cant": "unbounded number of points", "anchors": ["bark/models/behavior/idm/base_idm.cpp: GetTotalAcc", "bark/models/behavior/idm/idm_classic.cpp"]}
{"id": "C58", "title": "Headings stay normalised", "statement": "Every state produced by stepping the single-track model with Euler integration has its heading in [-pi, pi) and points in the same direction as the unnormalised one. (Runge-Kutta integration does not normalise; shown separately.)", "quantifier": "all states, inputs and step sizes", "why_tests_cant": "continuous domain", "anchors": ["bark/models/dynamic/single_track.hpp", "bark/models/dynamic/integration.hpp: euler_int, rk4"]}
{"id": "C59", "title": "Steering limits bound lateral acceleration", "statement": "With constraints enabled, the steering angle chosen for lane tracking keeps the lateral acceleration v^2 tan(delta)/wheel base within the configured limits, and within the maximal steering angle where compatible.", "quantifier": "all frenet offsets, velocities and parameters", "why_tests_cant": "continuous domain", "anchors": ["bark/models/dynamic/single_track.hpp: CalculateSteeringAngle"]}
{"id": "C60", "title": "Lane tracking trajectories", "statement": "For sensible parameters and a leader not moving against the ego, IDM lane tracking always returns a trajectory of the configured number of points that starts at the ego state, has equally spaced times and after the first point no velocity below the configured minimum. (The configured maximum velocity is not respected; shown separately.)", "quantifier": "all lines, states and horizons", "why_tests_cant": "unbounded number of points", "anchors": ["bark/models/behavior/idm/base_idm.cpp"]}
{"id": "C61", "title": "Direction along a polyline", "statement": "For a polyline of at least two points without coinciding neighbours GetTangentAngleAtS is the direction of the segment containing s, of the first/last segment outside the line, and the bisector direction at a corner. (Next to duplicated points it is not, and shorter lines fault; shown separately.)", "quantifier": "all polylines and arc lengths", "why_tests_cant": "continuous domain, any number of points", "anchors": ["bark/geometry/line.hpp: GetTangentAngleAtS"]}
{"id": "C62", "title": "Part of a polyline", "statement": "For 0<=begin<end<=length GetLineFromSInterval returns a line of length end-begin whose point at arc length s is the original line's point at begin+s.", "quantifier": "all polylines and intervals", "why_tests_cant": "continuous domain, any number of points", "anchors": ["bark/geometry/line.hpp: GetLineFromSInterval, GetPointsInSInterval"]}
{"id": "C63", "title": "Predicted world", "statement": "GetWorldAtTime(t) keeps clock, spatial index, agent ids, shapes and behaviours, and places every agent at the state its execution model yields for its last plan at t (an agent whose behaviour is not valid: at the state its execution model executed last), appended to its history with its last action.", "quantifier": "all worlds, plug-ins and times", "why_tests_cant": "arbitrary plug-ins", "anchors": ["bark/world/world.cpp: GetWorldAtTime", "bark/world/objects/agent.cpp: UpdateStateAction"]}
{"id": "C64", "title": "Transformations of a polyline", "statement": "Rotate turns every point about the origin by the given angle (clockwise) and keeps the length; Translate shifts every point and keeps the length; RemoveDuplicates yields a subsequence with the same points and length and no coinciding neighbours.", "quantifier": "all polylines and parameters", "why_tests_cant": "continuous domain, any number of points", "anchors": ["bark/geometry/line.hpp: Rotate, Translate, RemoveDuplicates"]}
{"id": "C65", "title": "All paths of a lane subgraph", "statement": "FindAllPathsInSubgraph returns exactly one path, a cheapest one, for every pair of a source lane and a sink lane connected inside the subgraph, and nothing else. (On graphs generated from a map lane links run both ways, so only isolated lanes are sources or sinks and the result has no longer path; proved as well.)", "quantifier": "all road graphs and edge/lane subsets", "why_tests_cant": "graphs of any size", "anchors": ["bark/world/map/roadgraph.hpp: FindAllPathsInSubgraph, ComputeAllPathBoundaries"]}
{"id": "C66", "title": "Lane links of the map", "statement": "After generation GetSuccessorLanes(l) is exactly the set of lanes the map says continue l. (Violated: links are inserted in both directions, roads whose successor id is out of range are skipped, consecutive lane sections of a road are never linked.)", "quantifier": "all OpenDRIVE maps", "why_tests_cant": "maps of any size", "anchors": ["bark/world/map/roadgraph.hpp: GeneratePreAndSuccessors, GetSuccessorLanes, GetPredecessorLanes"]}
{"id": "C67", "title": "Neighbouring lanes of a side", "statement": "In a map with unique ids whose lane sections number the lanes of each side without gaps, GetAllNeighbors(l) of a lane other than the reference lane returns every other lane of the same side of l's lane section exactly once (first those further inside, then those further outside, nearest first) and never the reference lane; for the reference lane it throws.", "quantifier": "all generated road graphs and lanes", "why_tests_cant": "sections of any width", "anchors": ["bark/world/map/roadgraph.hpp: GetAllNeighbors"]}
{"id": "C68", "title": "Unknown lanes are reported", "statement": "Queries of the road graph for a lane id that is not in the map report that there is no result. (Violated: neighbour and successor queries answer for some other lane, or read an unset vertex.)", "quantifier": "all road graphs and ids", "why_tests_cant": "arbitrary graphs and ids", "anchors": ["bark/world/map/roadgraph.hpp: GetVertexByLaneId, GetInnerNeighbor, GetSuccessorLanes, GetLanePtr"]}
{"id": "C69", "title": "Neighbouring lane corridors", "statement": "GetLeftRightLaneCorridor at a point that lies in a lane of a corridor it is found in returns the lane corridors of that lane's left and right neighbour lanes, and none on a side without lane. (On the border of a corridor no lane may be found; shown separately.)", "quantifier": "all road corridors and points", "why_tests_cant": "all road layouts", "anchors": ["bark/world/map/road_corridor.cpp: GetLeftRightLaneCorridor"]}
{"id": "C70", "title": "Parameter equality", "statement": "Two parameter objects that compare equal answer every Get alike; two that answer every Get alike compare equal provided no name is used with two types (and no child name ends in a colon).", "quantifier": "all histories of Set/Get/AddChild calls on two objects, all iteration orders of the hash maps, all orders std::sort may produce", "why_tests_cant": "equality must be checked for all pairs of histories and for every hash-map order", "anchors": ["bark/commons/params/params.cpp: Params::operator==", "bark/commons/params/setter_params.cpp: GetCondensedParamList"]}
{"id": "C71", "title": "Distribution parameters", "statement": "SetDistribution(n,type) followed by GetDistribution(n) yields the type that was set whatever the default, and the distribution reads its parameters under n::...", "quantifier": "all histories, names not ending in a colon, types and defaults", "why_tests_cant": "requires all histories and names", "anchors": ["bark/commons/params/params.cpp: GetDistribution", "bark/commons/params/setter_params.hpp: SetDistribution"]}
{"id": "C72", "title": "Arc geometry", "statement": "The points AddArc adds are those of the circular arc with the given start, heading and curvature (unit speed, heading growing linearly, on the circle of radius 1/|curvature|); zero curvature gives no usable points.", "quantifier": "all start points, headings, arc lengths and curvatures", "why_tests_cant": "an identity over all real arguments", "anchors": ["bark/world/opendrive/plan_view.cpp: CalcArcPosition, AddArc"]}
{"id": "C73", "title": "Goals with state limits accept by pose and velocity", "statement": "A goal with state limits is reached iff the agent's position lies in the goal region, its velocity in the closed range (Frenet goal) and its heading in the given range, independently of how many whole turns the stored heading contains. (Violated by the plain state-limits goal: it compares the stored heading number, so the same pose one turn further is rejected; the Frenet goal satisfies it.)", "quantifier": "every center line, tolerance, pose and velocity", "why_tests_cant": "all headings incl. wrap-around", "anchors": ["bark/world/goal_definition/goal_definition_state_limits.cpp: AtGoal", "bark/world/goal_definition/goal_definition_state_limits_frenet.cpp: AtGoal"]}
{"id": "C74", "title": "Asking for the goal is repeatable", "statement": "Asking AtGoal twice without anything having moved gives the same answer. (Violated by sequential goals: each question may advance the sequence, so the same state answers no and then yes; holds for all simple goals and after success.)", "quantifier": "every goal, every state, every query history", "why_tests_cant": "history dependent answer", "anchors": ["bark/world/goal_definition/goal_definition_sequential.cpp: AtGoal"]}
{"id": "C75", "title": "Cloned goals are independent", "statement": "Queries on the clone of a goal never change the original. (Violated for nested sequential goals, whose inner sequences are shared by the clone; holds for sequences of simple goals.)", "quantifier": "every goal and query history on the clone", "why_tests_cant": "aliasing shows only after particular query sequences", "anchors": ["bark/world/goal_definition/goal_definition_sequential.hpp: Clone"]}
{"id": "C76", "title": "Laterally shifted line", "statement": "Shifting a line laterally by d yields one point per point, at distance |d| from it, and a line parallel to the original at signed distance d. (The last part is violated at corners: there the distance shrinks by the cosine of half the turn.)", "quantifier": "every line and shift", "why_tests_cant": "all shapes of lines", "anchors": ["bark/geometry/line.hpp: GetLineShiftedLaterally, GetNormalAtS"]}
{"id": "C77", "title": "Center line of two lines", "statement": "ComputeCenterLine yields, for every vertex of the line with more points, the middle between it and a nearest point of the other line, with a right arc-length table.", "quantifier": "every pair of lines", "why_tests_cant": "all shapes of lines", "anchors": ["bark/geometry/line.hpp: ComputeCenterLine"]}
{"id": "C78", "title": "Signed distance to a line", "statement": "The absolute value of SignedDistance is the distance to the nearest point of the line, positive iff that point lies to the right of the viewing direction.", "quantifier": "every line, point and orientation", "why_tests_cant": "all relative positions, wrap-around", "anchors": ["bark/geometry/line.hpp: SignedDistance"]}
{"id": "C79", "title": "Concatenation of lines", "statement": "ConcatenateLinestring takes each of two non-empty lines as it is or reversed, so that the closest pair of end points is joined. If the lines then do not meet in exactly one point, the result has all points of the first and then all points of the second; if they touch only where the first ends and the second starts, too, the common point once; if they are joined unreversed and cross in one point, each is cut there: the part before the crossing is dropped if the crossing is in the first 30% of its length, the part behind if it is in the last 30%. The arc lengths of the result are right. All this unless the result crosses itself, when boost's simplification is applied. A line followed by its continuation keeps its direction if no other pair of ends is as close. (On rings, if the second line leads back to the start of the first, both are reversed; an empty line is undefined behaviour; both shown separately.)", "quantifier": "every pair of non-empty lines", "why_tests_cant": "all relative positions of the four end points", "anchors": ["bark/geometry/line.hpp: ConcatenateLinestring, AppendLinesNoIntersect"]}
{"id": "C80", "title": "Evaluating a world", "statement": "World::Evaluate calls every registered evaluator exactly once and returns exactly one result per registered name; evaluating a clone does not change what the original reports later. (Second part violated: clones share the evaluator objects.)", "quantifier": "every set of evaluators and world", "why_tests_cant": "all registrations and call sequences", "anchors": ["bark/world/world.cpp: Evaluate, AddEvaluator, copy constructor"]}
{"id": "C81", "title": "Static safe distance", "statement": "The static-safe-distance check fails iff some other active agent touches the inflated ego or touches the ego when itself inflated. (Violated: only the 4 nearest agents including the ego are looked at.)", "quantifier": "all worlds", "why_tests_cant": "all agent sets", "anchors": ["bark/world/evaluation/safe_distances/evaluator_static_safe_dist.cpp: CheckSafeDistance"]}
{"id": "C82", "title": "Label evaluation", "statement": "The value of a label in a rule evaluation is the one of the first label function providing it, and a label is defined iff some label function provides it.", "quantifier": "all lists of label functions", "why_tests_cant": "all name clashes", "anchors": ["bark/world/evaluation/ltl/evaluator_ltl.cpp: EvaluateLabels"]}
{"id": "C83", "title": "Safe-distance label", "statement": "With crossing corridors considered the safe-distance label is true only if, for every nearest agent in front of or behind the ego, the follower braking with its own deceleration after its own reaction time never touches the leader braking with its own. (Violated when the ego is behind: the two decelerations are exchanged.)", "quantifier": "all neighbour situations, velocities, gaps, decelerations and reaction times, all times", "why_tests_cant": "an inequality for all times and parameters", "anchors": ["bark/world/evaluation/ltl/label_functions/safe_distance_label_function.cpp: Evaluate, CheckSafeDistanceLongitudinal"]}
{"id": "C84", "title": "Lateral safe distance", "statement": "If the lateral check accepts, two vehicles that brake laterally after their reaction times never touch laterally. (Violated for vehicles moving to the same side with different reaction times; the other vehicle's own acceleration limits are never consulted.)", "quantifier": "all lateral velocities, distances, accelerations and reaction times", "why_tests_cant": "an inequality for all times and parameters", "anchors": ["bark/world/evaluation/ltl/label_functions/safe_distance_label_function.cpp: CheckSafeDistanceLateral"]}
{"id": "C85", "title": "Dynamic safe-distance evaluator", "statement": "The dynamic safe-distance evaluator reports a situation in which the follower cannot stop behind the leader. (Violated by its defaults: crossing corridors are off so nothing is checked, and the default decelerations have the wrong sign.)", "quantifier": "all neighbour situations", "why_tests_cant": "defaults make the check vacuous for every input", "anchors": ["bark/world/evaluation/safe_distances/evaluator_dynamic_safe_dist.cpp: constructor"]}
{"id": "C86", "title": "Lane change costs no free space", "statement": "A rule-based lane change leads to a lane with at least as much free space as the one left. (Violated: the conditions are applied to the own lane too, so a vehicle close behind makes the ego leave a free lane.)", "quantifier": "all worlds, corridors and parameters", "why_tests_cant": "all traffic situations", "anchors": ["bark/models/behavior/rule_based/lane_change_behavior.cpp: CheckIfLaneChangeBeneficial, ChooseLaneCorridor"]}
{"id": "C87", "title": "Right before left", "statement": "The intersection behaviour brakes when a vehicle from the right is predicted to cross the ego's corridor within the horizon. (Violated: the prediction looks for vehicles from the left and braking is reserved to vehicles from the right, so with unchanged headings it never brakes.)", "quantifier": "all predictions, headings, agents and thresholds", "why_tests_cant": "all traffic situations and prediction sequences", "anchors": ["bark/models/behavior/rule_based/intersection_behavior.cpp: GetIntersectingAgent, CheckIntersectingVehicles, Plan"]}
{"id": "C88", "title": "Cloned stochastic behaviours are independent", "statement": "Planning with a clone of a stochastic IDM never influences the original. (Violated: clones share the distribution objects; holds when all distributions are fixed values.)", "quantifier": "all distributions, engines and planning histories", "why_tests_cant": "aliasing shows only in particular interleavings", "anchors": ["bark/models/behavior/idm/stochastic/idm_stochastic.hpp: Clone", "bark/models/behavior/idm/stochastic/idm_stochastic.cpp: Plan"]}
{"id": "C89", "title": "Reseeding makes a stochastic behaviour reproducible", "statement": "After ChangeSeed(s) two stochastic IDMs of the same configuration behave alike whatever they did before. (Holds for the IDM parameters; violated for the yielding durations, whose distributions are not reseeded.)", "quantifier": "all histories before and after reseeding, all seeds", "why_tests_cant": "quantifies over all pairs of histories", "anchors": ["bark/models/behavior/idm/stochastic/idm_stochastic.cpp: ChangeSeed"]}
{"id": "C90", "title": "Sampled parameters vary independently", "statement": "The parameters a stochastic IDM samples in one planning step are not functions of each other. (Violated: all engines start from the same default seed, and ChangeSeed realigns them; uniformly distributed parameters then take the same relative position in their intervals in every step.)", "quantifier": "all histories and uniform distributions", "why_tests_cant": "statement about all planning steps", "anchors": ["bark/commons/distribution/distributions_1d.hpp: BoostDistribution1D, Sample", "bark/models/behavior/idm/stochastic/idm_stochastic.cpp: SampleParameters, ChangeSeed"]}
{"id": "C91", "title": "Parameter regions contain the samples", "statement": "Every parameter used by a stochastic IDM lies in the region GetParameterRegions reports, and the CDF of a uniform distribution is the cumulative probability of its samples. (The CDF of a fixed value is 0 everywhere; shown separately.)", "quantifier": "all planning histories, engines and distribution parameters", "why_tests_cant": "all random numbers", "anchors": ["bark/models/behavior/idm/stochastic/idm_stochastic.cpp: GetParameterRegions", "bark/commons/distribution/distributions_1d.hpp: GetSupport, CDF"]}
{"id": "C92", "title": "Predicting leaves the predicted world's sources untouched", "statement": "Predict returns a new world: the observed world, its agents and their behaviour models are left as they were, whatever the models do. (The ego model handed to Predict is installed without a copy and changes; shown separately.)", "quantifier": "all worlds, models and planning functions", "why_tests_cant": "aliasing between the prediction and its inputs", "anchors": ["bark/world/observed_world.cpp: Predict", "bark/world/observed_world.hpp: Predict"]}
{"id": "C93", "title": "Prediction with given actions", "statement": "Predict with a map of actions makes exactly the named agents plan with the given action and every other agent plan with its own model.", "quantifier": "all worlds, action maps and planning functions", "why_tests_cant": "all agent sets and action maps", "anchors": ["bark/world/observed_world.cpp: Predict"]}
{"id": "C94", "title": "Cloned macro-action behaviours are independent", "statement": "Without validity checking planning with a clone of a macro-action behaviour never changes what the original plans or reports. (With it the primitives are shared and the report can change; shown separately.)", "quantifier": "all primitives, planning histories of the clone, worlds", "why_tests_cant": "aliasing shows only in particular interleavings", "anchors": ["bark/models/behavior/motion_primitives/macro_actions.cpp: Clone, Plan"]}
{"id": "C95", "title": "Equal macro-action behaviours plan alike", "statement": "Macro-action behaviours that compare equal accept the same actions and plan the same. (Violated: the minimal lane length and the lane-end switch of the primitives are not compared.)", "quantifier": "all pairs of behaviours, worlds and actions", "why_tests_cant": "all parameter combinations", "anchors": ["bark/models/behavior/motion_primitives/macro_actions.cpp: operator==", "bark/models/behavior/motion_primitives/primitives/primitive_const_acc_stay_lane.hpp: isEqual"]}
{"id": "C96", "title": "Repeated lane change commands", "statement": "A lane change command refers to the lane the behaviour currently heads for: n commands to the left given in a row aim n lanes to the left, as far as there are lanes, whether or not the vehicle has moved.", "quantifier": "all n, road layouts and primitives", "why_tests_cant": "arbitrarily long command sequences", "anchors": ["bark/models/behavior/motion_primitives/macro_actions.cpp: GetCorridors, Plan", "bark/models/behavior/motion_primitives/primitives/primitive_const_acc_change_to_left.cpp: SelectTargetCorridor"]}
{"id": "C97", "title": "RSS behaviour survives leaving the lanes", "statement": "An RSS-conformant behaviour whose ego leaves the lanes for some steps expires, repeats its last trajectory, and plans normally again once the ego is back on a lane. (Violated: when the safety corridor is nearly used up at that moment it is replaced by the missing one and every later call dereferences it; starting off the lanes is undefined too.)", "quantifier": "all worlds, planning histories, corridor lengths and parameters", "why_tests_cant": "needs every sequence of on-lane and off-lane steps", "anchors": ["bark/models/behavior/behavior_rss/behavior_rss.cpp: Plan"]}
{"id": "C98", "title": "Cloned RSS behaviours are independent", "statement": "Planning with a clone of an RSS-conformant behaviour never changes what the original plans. (Violated: clones share the nominal and the safety model; only the own record is separate.)", "quantifier": "all worlds, inner models and planning histories", "why_tests_cant": "aliasing shows only in particular interleavings", "anchors": ["bark/models/behavior/behavior_rss/behavior_rss.hpp: Clone"]}
{"id": "C99", "title": "RSS restrictions are converted to the vehicle frame", "statement": "The acceleration limits an RSS-conformant behaviour derives for the vehicle allow exactly those lateral accelerations whose effect in the street frame lies within the RSS restrictions of the side the vehicle moves to. (Violated on bends, against the driving direction and on road x.)", "quantifier": "all restrictions, headings, speeds, road angles and thresholds", "why_tests_cant": "a statement about derivatives for all real motions", "anchors": ["bark/models/behavior/behavior_rss/behavior_rss.cpp: ConvertRestrictions", "bark/commons/transformation/frenet_state.cpp: LatAccStreetToVehicleCs"]}
{"id": "C100", "title": "Pickled behaviours keep their configuration", "statement": "A behaviour model that is pickled and unpickled has the same class and the same configuration: parameters, static trajectory, primitives, inner behaviours and responses. (Violated: the inner model of a safety behaviour and the nominal model of an RSS-conformant one always come back as lane tracking models, inner parameters of the RSS safety behaviour are re-derived, responses above 1 become 1.)", "quantifier": "all behaviours, nested to any depth, parameters and planning states", "why_tests_cant": "all compositions of behaviours", "anchors": ["bark/python_wrapper/models/behavior.cpp: py::pickle"]}
{"id": "C101", "title": "Pickled goals keep their progress", "statement": "A goal definition that is pickled and unpickled has the same conditions in the same order; simple goals and sequential goals of which no part was reached yet answer all later queries as the original would. (Progress of a sequential goal is lost; shown separately.)", "quantifier": "all goals, nested to any depth, and all query histories before and after", "why_tests_cant": "arbitrary histories and nesting", "anchors": ["bark/python_wrapper/world/goal_definition.cpp: py::pickle", "bark/world/goal_definition/goal_definition_sequential.hpp: AddSequentialGoal"]}
{"id": "C102", "title": "Pickled agents continue alike", "statement": "An agent that is pickled and unpickled has the same id, shape, history, road and models, and its history develops as the original's. (Violated: the history limit becomes 30 whatever was configured; an agent without a goal cannot be pickled without undefined behaviour; corridor and sensed world are lost.)", "quantifier": "all agents and all later step sequences", "why_tests_cant": "history limits show only after many steps", "anchors": ["bark/python_wrapper/world/agent.cpp: py::pickle", "bark/world/objects/agent.cpp: UpdateStateAction"]}
{"id": "C103", "title": "Pickled label functions keep their settings", "statement": "A label function that is pickled and unpickled has the same settings, except for constant labels that are false, safe distance labels with different lateral and angle thresholds and succeeding-agent labels. (These come back changed; shown separately.)", "quantifier": "all label functions and settings", "why_tests_cant": "all setting values", "anchors": ["bark/python_wrapper/world/ltl.cpp: py::pickle", "bark/world/evaluation/ltl/label_functions/safe_distance_label_function.hpp: GetAngleDifferenceThreshold"]}
{"id": "C104", "title": "Position labels mean what they say", "statement": "The labels front_of, behind_of and beyond-a-point compare arc lengths along the other agent's lane corridor, extents included: an ego is never both in front of and behind an agent, and for agents with a common lane corridor the ego is in front of the other exactly if the other, taken as ego, is behind it. (Not so for agents on different lanes of a bend; shown separately.)", "quantifier": "all road corridors, positions, vehicle extents and points", "why_tests_cant": "all geometries and positions", "anchors": ["bark/world/evaluation/ltl/label_functions/front_of_label_function.cpp: EvaluateAgent", "bark/world/evaluation/ltl/label_functions/behind_of_label_function.cpp: EvaluateAgent", "bark/world/evaluation/ltl/label_functions/agent_beyond_point_label_function.cpp: EvaluateAgent", "bark/world/evaluation/ltl/label_functions/ego_beyond_point_label_function.cpp: Evaluate"]}
{"id": "C105", "title": "Labels about other agents", "statement": "A label about other agents is reported for exactly the other agents that take part in the simulation at that time, each with its own value; the dense traffic label holds exactly if enough other registered agents are within the radius. (It also counts agents that do not take part; shown separately.)", "quantifier": "all worlds and per-agent evaluations", "why_tests_cant": "all agent sets and activity times", "anchors": ["bark/world/evaluation/ltl/label_functions/multi_agent_label_function.cpp: Evaluate", "bark/world/evaluation/ltl/label_functions/dense_traffic_label_function.cpp: Evaluate"]}
{"id": "C106", "title": "Lane labels mean what they say", "statement": "The labels on_road, left_of, right_of, rightmost/leftmost lane and lane end hold exactly if the agent touches a lane of its road corridor, the ego is on the lane next to the other agent's on that side, there is no usable lane beyond on that side, and the front of the vehicle is within the threshold of the end of its lane. (Violated off the lanes, for agents with different routes, and for thresholds up to the front extent.)", "quantifier": "all road corridors, positions, extents and thresholds", "why_tests_cant": "all road layouts and positions", "anchors": ["bark/world/evaluation/ltl/label_functions/on_road_label_function.cpp: EvaluateAgent", "bark/world/evaluation/ltl/label_functions/left_of_label_function.cpp: EvaluateAgent", "bark/world/evaluation/ltl/label_functions/right_of_label_function.cpp: EvaluateAgent", "bark/world/evaluation/ltl/label_functions/rightmost_lane_label_function.cpp: EvaluateAgent", "bark/world/evaluation/ltl/label_functions/ego_leftmost_lane_label_function.cpp: Evaluate", "bark/world/evaluation/ltl/label_functions/agent_at_lane_end_label_function.cpp: EvaluateAgent"]}
{"id": "C107", "title": "Motion labels mean what they say", "statement": "The labels accelerate, lane change, below speed limit and relative speed hold exactly if the mean acceleration over the last step reaches the threshold, the ego entered its lane corridor in the last step, its speed is below the limit, and the speed difference reaches the threshold. (Violated in the first step, and for an ego standing on a lane boundary, which changes lane in every step.)", "quantifier": "all state histories, thresholds and positions", "why_tests_cant": "all motions", "anchors": ["bark/world/evaluation/ltl/label_functions/ego_accelerate_label_function.cpp: Evaluate", "bark/world/evaluation/ltl/label_functions/lane_change_label_function.cpp: Evaluate", "bark/world/evaluation/ltl/label_functions/rel_speed_label_function.cpp: EvaluateAgent", "bark/world/evaluation/ltl/label_functions/below_speed_limit_label_function.cpp: EvaluateAgent"]}
{"id": "C108", "title": "Frenet positions are signed distances", "statement": "The frenet position of a point relative to a line is the arc length of the nearest point of the line and the signed distance from the line, positive to the left of its direction. (Violated on the extensions of the line: straight beyond the end the lateral coordinate is 0, straight before the start it is the distance, as if to the left.)", "quantifier": "all lines without repeated points, all points, rounding of angles to float", "why_tests_cant": "all geometries", "anchors": ["bark/commons/transformation/frenet.cpp: FrenetPosition", "bark/geometry/line.hpp: GetNearestPointAndS, GetTangentAngleAtS"]}
{"id": "C109", "title": "States survive the trip to frenet coordinates", "statement": "Converting a state to a frenet state and back, relative to a line of at least two points without coinciding neighbours, restores position, heading and speed for positions perpendicularly beside the line and positive speeds; what becomes of any other state is characterised exactly. (Beyond the ends and at corners the position moves, reversing vehicles are turned round; shown separately.)", "quantifier": "all lines without repeated points, all states", "why_tests_cant": "all geometries and speeds", "anchors": ["bark/commons/transformation/frenet_state.cpp: FrenetState, FrenetStateToDynamicState"]}
{"id": "C110", "title": "Frenet states survive the trip to states", "statement": "Converting a frenet state to a state and back restores the coordinates and speeds if no other point of the line is as near as the foot point; on straight lines always. (Inside bends nearer points exist and the claim fails; shown separately.)", "quantifier": "all lines without repeated points, all frenet states", "why_tests_cant": "all geometries", "anchors": ["bark/commons/transformation/frenet_state.cpp: FrenetState, FrenetStateToDynamicState"]}
{"id": "C111", "title": "Corridors come from the current map", "statement": "After any sequence of requests, asking the map interface for the road corridor along a route gives the corridor computed from the interface's current map and settings if the route was requested and can be built, and the null pointer otherwise; repeated requests give the same corridor. (Holds while map and settings stay; violated after a new map or junction setting, and for routes whose hash collides.)", "quantifier": "all maps, request sequences, routes and hash functions", "why_tests_cant": "all histories of requests and map changes", "anchors": ["bark/world/map/map_interface.cpp: GenerateRoadCorridor, interface_from_opendrive", "bark/world/map/map_interface.hpp: GetRoadCorridor, SetFullJunctionArea", "bark/world/map/road_corridor.hpp: GetHash"]}
{"id": "C112", "title": "The route from a point to a goal region", "statement": "A corridor requested by start point and goal region follows a cheapest drivable way from the driving lane nearest to the start to the one nearest to the goal's centre, in the start lane's direction; without such a way no corridor is given and the agent reports failure. (Violated: the agent dereferences the null pointer; roads are named twice at lane changes.)", "quantifier": "all maps, lane graphs, start points and goals", "why_tests_cant": "all maps and positions", "anchors": ["bark/world/map/map_interface.cpp: GenerateRoadCorridor, XodrLaneIdAtPolygon, FindNearestXodrLanes", "bark/world/objects/agent.cpp: GenerateRoadCorridor"]}
{"id": "C113", "title": "Finding the lane at a point", "statement": "Asking the map interface for the lane at a point only gives a lane that touches the point; on maps of up to 20 lanes it gives one whenever there is one, and on larger ones unless 20 lanes have nearer chords. (In bends of lanes with far ends a lane is missed, and off the lanes lane and road ids dereference null; shown separately.)", "quantifier": "all maps, lane lines and points", "why_tests_cant": "all maps and positions", "anchors": ["bark/world/map/map_interface.cpp: FindXodrLane, IsInXodrLane, FindNearestXodrLanes", "bark/world/map/map_interface.hpp: FindCurrentLane, FindCurrentRoad"]}
{"id": "C114", "title": "Loading a map replaces the old one", "statement": "After a map was set whose lane graph can be generated and whose lanes have points, the lane graph and the lane index are those of this map. (If generation fails the interface keeps a mixture, and a loaded table stays in force; shown separately.)", "quantifier": "all interfaces, maps and tables", "why_tests_cant": "all histories of loading", "anchors": ["bark/world/map/map_interface.cpp: interface_from_opendrive, interface_from_csvtable", "bark/world/map/map_interface.hpp: SetOpenDriveMap", "bark/world/objects/agent.cpp: GenerateRoadCorridor"]}
{"id": "C115", "title": "Benchmark configs are the full product", "statement": "The configs of a benchmark are every behaviour with every scenario of every scenario set, up to the limit per set, each exactly once, in the order of the database, numbered by position; asking a generator for its next scenario gives all of them in turn.", "quantifier": "all lists of behaviours, databases and limits", "why_tests_cant": "all databases", "anchors": ["bark/benchmark/benchmark_runner.py: _create_configurations_from_database, _create_configurations_from_scenario_generation", "bark/runtime/scenario/scenario_generation/scenario_generation.py: get_next_scenario, __next__"]}
{"id": "C116", "title": "A benchmark run ends at the first terminal world", "statement": "Once its world is created, a run stops at the first world in which a terminal criterion is met, and reports the number of steps, the evaluation of that world and the criteria met; the history has the world after every step; an exception in evaluation, planning or execution gives a row that says so; a run without a criterion that is ever met does not return. (An exception while the world is created stops the whole benchmark; shown separately.)", "quantifier": "all simulations, evaluators and criteria, any number of steps", "why_tests_cant": "all runs", "anchors": ["bark/benchmark/benchmark_runner.py: _run_benchmark_config, run"]}
{"id": "C117", "title": "A complete benchmark has one row per config", "statement": "Whatever the interval of checkpoints, a completed benchmark in a fresh directory returns exactly one row per config in order, leaves all rows, configs and histories in its checkpoint file, removes its temporary file and touches no other file.", "quantifier": "all lists of configs, checkpoint intervals and outcomes", "why_tests_cant": "all interleavings of runs and checkpoints", "anchors": ["bark/benchmark/benchmark_runner.py: run", "bark/benchmark/benchmark_result.py: dump, extend, move_files"]}
{"id": "C118", "title": "Interrupted benchmarks can be resumed", "statement": "After a crash between two configs the results of all configs before the last checkpoint are on disk, and resuming once the temporary file is deleted runs exactly the missing configs and returns one row per config. (With the temporary file resuming raises, a second resume raises, a crash while the checkpoint is extended loses the results, a new run in the same directory raises; shown separately.)", "quantifier": "all lists of configs, checkpoint intervals and crash points", "why_tests_cant": "all crash points", "anchors": ["bark/benchmark/benchmark_runner.py: merge_checkpoint_benchmark_results, get_configs_to_run, run", "bark/benchmark/benchmark_result.py: extend, remove_result_file_from_dumped, load_results"]}
{"id": "C119", "title": "Parallel benchmarks run every config once", "statement": "With CPUs for at least one actor the parallel runner gives every config to exactly one actor, keeps their order, and puts the results of all actors together. (With fewer nothing is run; shown separately.)", "quantifier": "all lists of configs, numbers of CPUs, results", "why_tests_cant": "all splits", "anchors": ["bark/benchmark/benchmark_runner_mp.py: __init__, run"]}
{"id": "C120", "title": "Benchmark results survive saving and loading", "statement": "Saving a result and loading it gives back its rows, configs and histories; loading some configs gives at least those, none twice; extending joins two results without common configs and raises otherwise. (Violated: configs larger than a member cannot be saved, configs asked for again are loaded twice, the dictionaries of an extended loaded result are incomplete.)", "quantifier": "all results, sizes and lists of indices", "why_tests_cant": "all contents and orders of operations", "anchors": ["bark/benchmark/benchmark_result.py: dump, load_results, load_benchmark_configs, extend, get_result_dict, get_data_frame"]}
{"id": "C121", "title": "Evaluators and criteria of a scenario set", "statement": "A scenario set is evaluated with the evaluators named for it if two or more sets have their own, with the default ones if there are none, and the run fails if the choice is ambiguous; a criterion is reported if and only if its function holds of the evaluator of its name. (A single set-specific dictionary is never used, and without criteria every run fails; shown separately.)", "quantifier": "all dictionaries of evaluators and criteria, names of sets and values", "why_tests_cant": "all combinations of names", "anchors": ["bark/benchmark/benchmark_runner.py: _GetScenarioEvaluators, _is_terminal, _is_terminal_for_scen_set"]}
{"id": "C122", "title": "Reading a Python parameter with a default", "statement": "Reading a parameter of a Python parameter server by its hierarchical name, no proper prefix of which is itself a parameter, returns the stored value if there is one and changes nothing; otherwise it returns the default and stores it, leaving every other parameter as it was, and later reads with any default return it. (Otherwise the parameter at the prefix is returned; shown separately.)", "quantifier": "all stores, names and defaults", "why_tests_cant": "all stores and names", "anchors": ["bark/runtime/commons/parameters.py: ParameterServer.GetValFromString, get_val_iter, GetReal, GetBool, GetInt"]}
{"id": "C123", "title": "Setting a Python parameter and reading it back", "statement": "Assigning a value under a hierarchical name of plain keys whose way leads through child servers or non-empty lists of servers places exactly this value at the path, in every server of a list on the way, and changes nothing else; reading the name returns it. (Blanks around keys, three colons in a row, p['a::b'], descriptions, and names leading through a parameter or an empty list behave differently; shown separately.)", "quantifier": "all stores, names and values", "why_tests_cant": "all stores and names", "anchors": ["bark/runtime/commons/parameters.py: ParameterServer.__setitem__, _set_item_from_hierarchy_string, AddChild"]}
{"id": "C124", "title": "Python parameters survive saving, cloning and pickling", "statement": "Converting a parameter server whose keys read as themselves and which has no empty child to a dictionary and back (clone, file, pickle) gives the same parameters in the same order; this holds for everything loaded from a file without empty dictionaries. (Empty children become the text MISSING, keys with blanks or separators change; shown separately.)", "quantifier": "all stores, of any depth", "why_tests_cant": "all nestings", "anchors": ["bark/runtime/commons/parameters.py: ParameterServer.ConvertToDict, ConvertToParam, clone, __getstate__, __setstate__, load, Save"]}
{"id": "C125", "title": "Appending a Python parameter server", "statement": "For keys without separator, appending another server adds exactly its parameters that do not clash with the receiver's; with overwriting, exactly the receiver's parameters that do not clash with the other's are kept beside the other's. (Not so for keys containing the separator; shown separately.)", "quantifier": "all pairs of stores, of any depth", "why_tests_cant": "all pairs of stores", "anchors": ["bark/runtime/commons/parameters.py: ParameterServer.AppendParamServer"]}
{"id": "C126", "title": "Comparing Python parameter servers", "statement": "For keys without separator, comparing with another server reports exactly the other's parameters without an equal counterpart at the same path, and whether there are any or a child server is missing; parameters only the receiver has are not reported. (Lists of servers are compared by identity; shown separately.)", "quantifier": "all pairs of stores, of any depth", "why_tests_cant": "all pairs of stores", "anchors": ["bark/runtime/commons/parameters.py: ParameterServer.HasEqualParamsAs"]}
{"id": "C127", "title": "Listing and searching Python parameters", "statement": "The condensed list handed to C++ has every parameter of a type C++ knows once, under its joined path, and no other entry; searching a key finds a parameter with this key if there is one. (Parameters inside lists of servers, lists of integers, keys with separators and the empty key are exceptions; shown separately.)", "quantifier": "all stores, of any depth", "why_tests_cant": "all nestings", "anchors": ["bark/runtime/commons/parameters.py: ParameterServer.GetCondensedParamList, FindKey"]}
{"id": "C128", "title": "Child servers, items and deletion", "statement": "For plain keys, AddChild keeps an existing child server, creates a missing one empty and replaces it with delete, if there is no parameter of that name; p[key] and p[key, description, default] return what is there and otherwise add an empty child or the default; del removes the key only; whatever the history of calls, no key ever occurs twice. (AddChild on a parameter returns, or with delete removes, it; shown separately.)", "quantifier": "all stores, names and histories of calls", "why_tests_cant": "all histories", "anchors": ["bark/runtime/commons/parameters.py: ParameterServer.AddChild, __getitem__, __delitem__, __len__"]}
{"id": "C129", "title": "Generated ids and evaluated agents", "statement": "A generated scenario has exactly the agents of its non-empty sources in order, each built from its share of its source, with ids 0, 1, 2, ...; the ids listed for evaluation are exactly those of the controlled agents in increasing order; generation succeeds if and only if the readers of every non-empty source give equally many values.", "quantifier": "all lists of sources", "why_tests_cant": "all numbers of sources and agents", "anchors": ["bark/runtime/scenario/scenario_generation/configurable_scenario_generation.py: create_single_scenario, collect_controlled_agent_ids, update_agent_ids, create_source_config_agents"]}
{"id": "C130", "title": "Placement of vehicles along a lane", "statement": "For ordered ranges whose smallest distance exceeds the negative vehicle length, placing vehicles along a lane ends, and they stand in the configured part of it, at least a vehicle length plus the smallest configured distance and at most a length plus the largest one apart, with a velocity of the configured range, and fill it. (A distance range of the negative vehicle length never ends; the velocity range is documented in km/h but used as m/s; shown separately.)", "quantifier": "all lanes, ranges and sequences of samples", "why_tests_cant": "all samples", "anchors": ["bark/runtime/scenario/scenario_generation/config_readers/agent_state_geometry_config_readers.py: UniformVehicleDistribution, agents_along_lane_corridor, sample_velocity_uniform, sample_distance_uniform"]}
{"id": "C131", "title": "Lane positions and goals of generated agents", "statement": "The lane position reported for a generated agent is that of its lane corridor, and its goal lies on the lane its configuration asks for relative to this, or on the own lane if there is none and the goal is not enforced. (Violated if vehicles are placed on all lanes: positions are counted from one, and generation raises for the last lane.)", "quantifier": "all roads, lane selections, goal configurations and agents", "why_tests_cant": "all combinations", "anchors": ["bark/runtime/scenario/scenario_generation/config_readers/agent_state_geometry_config_readers.py: UniformVehicleDistribution", "bark/runtime/scenario/scenario_generation/config_readers/goal_definition_config_readers.py: FixedGoalTypes, get_goal_definition, goal_from_config"]}
{"id": "C132", "title": "Selection of controlled agents", "statement": "The readers of controlled agents select nobody, exactly one agent for every sample, exactly the agents with the given ids, or the agent at the wanted place of the wanted lane. (Violated for the last: the place on the lane is used as an index into all agents.)", "quantifier": "all numbers of agents, samples, ids and lane positions", "why_tests_cant": "all samples and lists", "anchors": ["bark/runtime/scenario/scenario_generation/config_readers/controlled_agents_config_readers.py: NoneControlled, RandomSingleAgent, PickIds, AgentIds"]}
{"id": "C133", "title": "Overlapping agents of different sources", "statement": "Resolving overlaps only removes agents, keeps the order of the others, leaves no two agents of different sources that collide and keeps every agent that collides with nobody; two colliding agents are decided by the weights of their sources; it raises exactly if boxes overlap inside a source or weights are missing for sources whose boxes overlap. (Scenario generation never calls it, so generated scenarios may contain colliding agents; shown separately.)", "quantifier": "all sources, collision relations, weights and samples", "why_tests_cant": "all orders in which collisions are found", "anchors": ["bark/runtime/scenario/scenario_generation/configurable_scenario_generation.py: resolve_overlaps_in_sources_sinks_agents, find_overlaps_in_sources_sinks_agents, delete_overlaps_in_sources_sinks_agents, parse_conflict_resolution"]}
{"id": "C134", "title": "Recorded trajectories and initial states", "statement": "A trajectory read from a data set has exactly the recorded states of the time span, in order, timed from its beginning, with the configured offset and normalised orientation; the initial state for a start time is the recorded one at this time, or the first one if the track begins later; it raises if and only if there is none.", "quantifier": "all tracks, time spans and offsets", "why_tests_cant": "all tracks", "anchors": ["bark/runtime/scenario/interaction_dataset_processing/interaction_dataset_reader.py: TrajectoryFromTrack, InitStateFromTrack, BarkStateFromMotionState"]}
{"id": "C135", "title": "Decomposition of a track file", "statement": "Decomposing a track file gives one scenario for every track that is a car, not too long and on the map, over its time span rounded to 100 ms; the other agents of a scenario are exactly the other such tracks whose time spans overlap with it, and this is mutual.", "quantifier": "all track files and offsets", "why_tests_cant": "all files", "anchors": ["bark/runtime/scenario/interaction_dataset_processing/dataset_decomposer.py: DatasetDecomposer"]}
{"id": "C136", "title": "Scenarios from a data set", "statement": "Generating from a data set makes the scenarios of the used tracks in order, up to the wanted number and without the excluded ones; their agents replay their tracks, start with the recorded state and become valid when their time span begins; the ego is evaluated. (Violated: an excluded track ends the loop over the file; the number counts per file; a track too short for the starting offset fails the whole file.)", "quantifier": "all files, exclusions, numbers and configurations", "why_tests_cant": "all files", "anchors": ["bark/runtime/scenario/scenario_generation/interaction_dataset_scenario_generation_full.py: InteractionDatasetScenarioGenerationFull"]}
{"id": "C137", "title": "Replaying chosen tracks", "statement": "Replaying chosen tracks gives one scenario with one agent for every chosen track and the ego, which is evaluated; each follows its model or its track from the start to the end. (Violated: a chosen ego appears twice; the default end raises.)", "quantifier": "all track files, choices and time spans", "why_tests_cant": "all choices", "anchors": ["bark/runtime/scenario/scenario_generation/interaction_dataset_scenario_generation.py: InteractionDatasetScenarioGeneration"]}
{"id": "C138", "title": "Searching scenarios with a moving window", "statement": "Each scenario found consists of the vehicles recorded during the whole window, with the wanted number on every lane; no window before it would do; successive scenarios come in later windows; the search ends. (Violated: the first window is never looked at; vehicles on lanes beyond the configured ones are left out; an empty selection ends the file; step 0 diverges; a vehicle between lanes is left out instead of the window being skipped.)", "quantifier": "all files, settings and lane assignments", "why_tests_cant": "all histories of windows", "anchors": ["bark/runtime/scenario/scenario_generation/config_readers/agent_state_geometry_config_readers.py: InteractionDataWindowStatesGeometries"]}
{"id": "C139", "title": "RSS verdicts", "statement": "Evaluating RSS gives no verdict exactly if the check cannot be performed, otherwise safe exactly if no individual response is dangerous; the pairwise evaluations have an entry for every object with a response and agree with the verdict; the proper response and safety polygons read afterwards belong to the evaluated world. (Violated: they belong to the world evaluated before; a failed check without responses is safe; a missing agent is unsafe, or undefined behaviour pairwise; several situations with one agent overwrite each other.)", "quantifier": "all worlds, responses of the library and histories of calls", "why_tests_cant": "all histories", "anchors": ["bark/world/evaluation/rss/evaluator_rss.hpp: EvaluatorRSS::Evaluate, PairwiseEvaluate, PairwiseDirectionalEvaluate, GetRSSProperResponse, GetSafetyPolygons", "bark/world/evaluation/rss/rss_interface.cpp: GetSafetyReponse, ExtractSafetyEvaluation"]}
{"id": "C140", "title": "Agents considered by RSS", "statement": "RSS considers exactly the other agents closer than the scaled sum of the maximum stopping distances; with equal strongest and weakest braking these include every agent closer than the RSS distance. (Otherwise vehicles within the RSS distance are left out; shown separately.)", "quantifier": "all agents, speeds, distances and dynamics", "why_tests_cant": "all reals", "anchors": ["bark/world/evaluation/rss/rss_interface.cpp: GetRelevantAgents, CalculateMaxStoppingDistance"]}
{"id": "C141", "title": "Route and turn rate for RSS", "statement": "The route handed to RSS is, if positions have positive probability, one planned to the goal from a position of largest probability, if there is one, otherwise a predicted one, and the flag tells which; the turn rate is the shortest rotation between the last two states over the time between them. (With probability 0 a predicted route can win although the flag is true; shown separately.)", "quantifier": "all matched positions, routes and histories", "why_tests_cant": "all lists", "anchors": ["bark/world/evaluation/rss/rss_interface.cpp: GenerateRoute, CalculateAngularVelocity"]}
{"id": "C142", "title": "Safety polygon", "statement": "The safety polygon is the outline of the vehicle with every corner moved outwards by the lateral distance of its side and, at the chosen end or the end facing the other agent, by the longitudinal distance. (Violated laterally: left corners are moved to the right by the right distance and vice versa; and computing it again appends a second outline.)", "quantifier": "all vehicles, poses, distances and modes", "why_tests_cant": "all reals", "anchors": ["bark/world/evaluation/rss/safety_polygon.hpp: ComputeSafetyPolygon"]}
{"id": "C143", "title": "Scenarios handed out are as created", "statement": "Whatever is done with a scenario generator, with the scenarios it handed out and with the worlds made from them, the scenario handed out under an index has the agents, evaluated ids, map and parameters it was created with, the world made from it is its initial world, and scenarios handed out never influence each other.", "quantifier": "all generators, indices and histories of handing out, copying, making worlds and stepping", "why_tests_cant": "all histories of calls", "anchors": ["bark/runtime/scenario/scenario.py: Scenario.copy, GetWorldState", "bark/runtime/scenario/scenario_generation/scenario_generation.py: get_scenario"]}
{"id": "C144", "title": "GetWorldState returns the initial world", "statement": "GetWorldState returns the initial world of the scenario. (Violated when called again on the same scenario object after a world made from it was stepped: all its worlds hold the same agent objects.)", "quantifier": "all scenarios and sequences of calls and steps", "why_tests_cant": "all histories", "anchors": ["bark/runtime/scenario/scenario.py: Scenario.GetWorldState, _build_world_state"]}
{"id": "C145", "title": "Order of scenarios", "statement": "get_next_scenario hands out the scenarios in turn, starting over after the last, with their index; after m calls the next one is number m mod n, whatever else happened in between.", "quantifier": "all generators and histories of calls", "why_tests_cant": "all histories", "anchors": ["bark/runtime/scenario/scenario_generation/scenario_generation.py: get_next_scenario"]}
{"id": "C146", "title": "Iterating over a generator", "statement": "Whatever was done before and whatever other calls are interleaved, a single loop over a generator gives every scenario once, in order, as created, and ends, independently of get_next_scenario. (A second loop over the same generator started inside ends the outer one; shown separately.)", "quantifier": "all generators and histories of calls during the iteration", "why_tests_cant": "all histories", "anchors": ["bark/runtime/scenario/scenario_generation/scenario_generation.py: __iter__, __next__"]}
{"id": "C147", "title": "World history of a runtime", "statement": "After a reset and n steps a runtime that maintains the world history has the n+1 worlds after 0 to n steps, undisturbed by later steps; the viewer was shown the situation of every step before its execution; the time series is the evaluated agent at every time; stepping before a reset is refused.", "quantifier": "all scenarios, simulations and numbers of steps", "why_tests_cant": "all numbers of steps", "anchors": ["bark/runtime/runtime.py: Runtime.step, render, ExtractTimeSeries"]}
{"id": "C148", "title": "Reset of a runtime", "statement": "Whatever was done with a runtime before, reset puts it into the initial world of the next scenario in turn, with the index of that scenario and an empty history; with a given scenario into its world with an empty history. (The index then stays that of the last generated scenario; shown separately.)", "quantifier": "all sequences of resets and steps", "why_tests_cant": "all histories", "anchors": ["bark/runtime/runtime.py: Runtime.reset"]}
{"id": "C149", "title": "Running a runtime", "statement": "run(n) performs n steps; eval_runtime steps the given runtime. (Violated: run raises for every n>0, as it calls a method that does not exist; eval_runtime receives a sliced copy and calls a method that does nothing.)", "quantifier": "all runtimes and numbers of steps", "why_tests_cant": "all n", "anchors": ["bark/runtime/runtime.py: Runtime.run", "bark/runtime/runtime.hpp: EvalRuntime", "bark/python_wrapper/runtime.hpp: PyRuntime"]}
{"id": "C150", "title": "Map file of a scenario", "statement": "The map of a scenario comes from the named file, or from the only file of that name below the working directory; if there is none or several, or a file of a known extension gives no map, creation fails; pickled scenarios keep everything but the map interface, which is created again from the file. (A file of unknown extension gives an empty map without an error; shown separately.)", "quantifier": "all file systems, names and scenarios", "why_tests_cant": "all file systems", "anchors": ["bark/runtime/scenario/scenario.py: CreateMapInterface, full_map_file_name, __getstate__, __setstate__, GetDatasetScenarioDescription"]}
{"id": "C151", "title": "Transforming shapes", "statement": "Transform, Rotate and Translate move a shape rigidly: the center changes by the given pose, every point keeps its position relative to the center and heading, distances between points and the area are kept; transforming by a pose and then its opposite restores it; a scaled transformation multiplies relative positions by the factor and the area by its square.", "quantifier": "all shapes, poses and factors", "why_tests_cant": "all reals and point lists", "anchors": ["bark/geometry/commons.hpp: Shape::Transform, Rotate, Translate, ScalingTransform"]}
{"id": "C152", "title": "Outline of a vehicle at a state", "statement": "GetPolygonFromState of a shape centred at the origin gives the shape placed at the position and heading of the state; for any shape it is the shape turned about its own center and moved by the position. (So the built-in CarRectangle is misplaced; shown separately.)", "quantifier": "all shapes and states", "why_tests_cant": "all reals", "anchors": ["bark/world/objects/agent.cpp: GetPolygonFromState", "bark/geometry/standard_shapes.cpp: CarRectangle"]}
{"id": "C153", "title": "Distances of a shape", "statement": "front_dist, rear_dist, left_dist and right_dist are the extents of the shape ahead of, behind, left and right of its center, and stay so under transformations. (Violated: left and right are swapped; a center outside gives positive extents; ScalingTransform leaves the old values; Scale and Inflate of a turned shape measure along the global axes.)", "quantifier": "all polygons and transformations", "why_tests_cant": "all reals", "anchors": ["bark/geometry/polygon.hpp: UpdateDistancesToCenter, Scale, Inflate", "bark/geometry/commons.hpp: ScalingTransform"]}
{"id": "C154", "title": "Scaling and inflating shapes", "statement": "Scale multiplies relative positions in the direction of the shape (0 meaning unscaled); Inflate moves every point outwards so that the shape reaches further by the given amounts on all sides; the center stays. (Violated for inflating a shape that does not reach behind or to the right of its center: it is moved instead.)", "quantifier": "all polygons, headings and amounts", "why_tests_cant": "all reals", "anchors": ["bark/geometry/commons.hpp: Shape::Scale, Shape::Inflate"]}
{"id": "C155", "title": "Constructing polygons", "statement": "A polygon made from points is closed, clockwise and made of exactly these points; one made of two lines runs along the first and back along the second; the standard shapes have the outlines, extents and areas their parameters ask for.", "quantifier": "all point lists, lines and parameters", "why_tests_cant": "all lists of points", "anchors": ["bark/geometry/polygon.hpp: Polygon_t constructors", "bark/geometry/standard_shapes.cpp"]}
{"id": "C156", "title": "Boxes, unions and growth of polygons", "statement": "The bounding box contains the shape and touches it on all sides; the concatenation of two polygons covers both; growing a polygon into another gives the grown polygon or reports failure. (Violated: of a union in several parts only the first is kept; growing appends to the outline of the polygon passed in.)", "quantifier": "all polygons", "why_tests_cant": "all polygons", "anchors": ["bark/geometry/polygon.hpp: CalculateBoundingBoxPolygon, ConcatenatePolygons, BufferPolygon"]}
{"id": "C157", "title": "Lines drawn beside a lane", "statement": "The boundary drawn for a width record along a line consists of points beside the line, on the side of the lane, at the distance the width polynomial gives there: at every corner of the line for a constant width reaching to within a metre of the line's end, otherwise at arc lengths from the start of the record to its end in steps of at most the sampling distance; it is appended to what was drawn before. (So a constant width ending less than a metre before the end is drawn to the end; shown separately.)", "quantifier": "all lines, width records and sampling distances", "why_tests_cant": "all reals and lines of any length", "anchors": ["bark/world/opendrive/commons.hpp: CreateLineWithOffsetFromLine", "bark/world/opendrive/lane.cpp: XodrLane::append"]}
{"id": "C158", "title": "Lane boundaries of an OpenDRIVE map", "statement": "The boundary of every lane of a map is drawn from the width records of its element, in their order, each up to the beginning of the next, shifted by the road's lane offset, within its lane section. (Violated: the offset moves right lanes to the right as well, so that the road gets wider; the start of a section is ignored, so that lanes of all sections cover the whole road.)", "quantifier": "all documents and lanes", "why_tests_cant": "all documents", "anchors": ["bark/runtime/commons/xodr_parser.py: create_cpp_lane, create_cpp_lane_section, parse_lane_widths_from_lane, parse_lane_offset"]}
{"id": "C159", "title": "Content of an OpenDRIVE map", "statement": "The map read from an accepted document contains every road, lane section and lane of the document with its type, driving direction, links, road mark and junction, under distinct ids; of roads or lanes of one group with the same id the last one counts; documents without a header are refused. (Roads without a name and marks in other colors make the whole document be refused; shown separately.)", "quantifier": "all documents", "why_tests_cant": "all documents", "anchors": ["bark/runtime/commons/xodr_parser.py: XodrParser", "bark/world/opendrive/opendrive.hpp: AddRoad, AddJunction"]}
{"id": "C160", "title": "Lanes are drawn from the inside outwards", "statement": "A lane that is not next to the center line is drawn along a lane drawn before it which lies next to it on the inside in its section, whatever the order in the document; a section that lacks that lane is refused.", "quantifier": "all lane sections", "why_tests_cant": "all numbers and orders of lanes", "anchors": ["bark/runtime/commons/xodr_parser.py: create_cpp_lane_section, sortedIndices", "bark/world/opendrive/lane_section.cpp: GetLaneByPosition"]}
{"id": "C161", "title": "Links and junctions of an OpenDRIVE map", "statement": "Links of lanes and roads and the connections of junctions with their lane links are those of the document, a missing lane link being stored as a link to lane 0. (So it cannot be told from a link to the center lane; shown separately.)", "quantifier": "all documents", "why_tests_cant": "all documents", "anchors": ["bark/runtime/commons/xodr_parser.py: create_lane_link, create_cpp_road_link, create_cpp_junction", "bark/world/opendrive/junction.hpp"]}
{"id": "C162", "title": "Reference line of a road", "statement": "The reference line of a road that is accepted is made of all geometries of its plan view in the order of the document, moved by the offset of the header; a geometry that is neither line nor arc nor spiral is refused. (A whole number as sampling distance for lines is refused too; shown separately.)", "quantifier": "all documents and settings", "why_tests_cant": "all documents", "anchors": ["bark/runtime/commons/xodr_parser.py: create_cpp_plan_view, parse_plan_view, parse_offset"]}
{"id": "C163", "title": "Finding configurations in results", "statement": "The configurations found are exactly those whose row meets all criteria, lies in the given scenarios and in the given configurations, each list being absent or non-empty; without scenarios in the order of the results, with scenarios in the order of the scenario list; scenario ids of configurations come in the order of the configurations. (Empty lists, and scenarios taken from configurations that do not occur, do not restrict; shown separately.)", "quantifier": "all result tables, criteria and lists", "why_tests_cant": "all tables of any size and all orders of equal keys", "anchors": ["bark/benchmark/benchmark_analyzer.py: find_configs, get_scenario_ids"]}
{"id": "C164", "title": "Comparing planners on the same scenarios", "statement": "Making lists of configurations congruent gives for every list one configuration of that list per common scenario, in ascending order of the scenarios, so that the lists can be compared place by place; it succeeds whenever there is a common scenario and each list ran every scenario once. (With no common scenario it raises instead of giving empty lists; shown separately.)", "quantifier": "all result tables with distinct configuration ids, all numbers of lists", "why_tests_cant": "all tables and lists", "anchors": ["bark/benchmark/benchmark_analyzer.py: make_scenarios_congruent"]}
{"id": "C165", "title": "Showing histories", "statement": "Showing several non-empty histories side by side shows in step k the k-th entry of every history, or its last entry if it is shorter, until the longest is done, with the entry's time, at the step time of the last viewer. (An empty history raises, a missing configuration ends the display silently; shown separately.)", "quantifier": "all numbers and lengths of histories", "why_tests_cant": "all histories", "anchors": ["bark/benchmark/benchmark_analyzer.py: visualize, _render_histories"]}
{"id": "C166", "title": "Exporting selected scenarios", "statement": "The exported configurations are those that meet the filter and are in the given list, if at least one meets the filter; the trajectory table contains for each agent the states of its history in order. (If none does the whole list is exported; shown separately.)", "quantifier": "all result tables, filters and lists", "why_tests_cant": "all tables", "anchors": ["bark/benchmark/scenario_dumper.py", "bark/benchmark/benchmark_analyzer.py"]}
{"id": "C167", "title": "Vehicles placed in a lane corridor", "statement": "With positive spacing, on a lane with at least two distinct successive points, ConfigWithEase fills a lane corridor: placing ends, every vehicle stands on the center line heading along it, the first within the first interval, successive ones ds_min to ds_max apart along the line, none beyond s_max, the corridor filled up to s_max, velocities in their range; on a straight lane long enough they stand at least ds_min apart. (On a lane shorter than s_max by twice ds_max two vehicles are always placed at the same point; s_min is ignored; zero spacing never ends; shown separately.)", "quantifier": "all lanes, settings and random numbers", "why_tests_cant": "all center lines and all sequences of random numbers", "anchors": ["bark/runtime/scenario/scenario_generation/config_with_ease.py: LaneCorridorConfig.position, state, ds"]}
{"id": "C168", "title": "Agents of a scenario configured with ease", "statement": "The agents of all corridors have distinct ids; the evaluated agents are agents of the scenario, one per corridor with a controlled agent; every agent follows a behavior model of its corridor. (Violated: if a model for controlled agents is given they get none; agents of a corridor share one behavior object; a controlled corridor without vehicles makes the scenario fail.)", "quantifier": "all lists of corridors, random numbers and choices", "why_tests_cant": "any number of corridors and vehicles", "anchors": ["bark/runtime/scenario/scenario_generation/config_with_ease.py: create_single_scenario, controlled_ids, controlled_behavior_model"]}
{"id": "C169", "title": "Vehicles distributed between source and sink", "statement": "UniformVehicleDistribution with a sink not before the source places vehicles from the source to before the sink along the lane with gaps of the given range between front and rear, and leaves the map alone. (Otherwise they are placed mirrored and the map's center line is reversed for good; different lane corridors make it fail; shown separately.)", "quantifier": "all lanes, settings and random numbers", "why_tests_cant": "all center lines and all sequences of random numbers", "anchors": ["bark/runtime/scenario/scenario_generation/uniform_vehicle_distribution.py: place_agents_along_linestring, center_line_between_source_and_sink", "bark/python_wrapper/world/map.cpp: center_line"]}
{"id": "C170", "title": "Ego vehicle of a uniform distribution", "statement": "The scenario evaluates exactly one vehicle, which is in it; with a route it stands on its lane between the ends of the route, under distinct ids. (Without a route that vehicle is listed twice; without other vehicles generation fails; the goal region lies on one side of the sink whatever the lane's direction; shown separately.)", "quantifier": "all settings and random numbers", "why_tests_cant": "all maps, settings and sequences of random numbers", "anchors": ["bark/runtime/scenario/scenario_generation/uniform_vehicle_distribution.py: create_single_scenario"]}
{"id": "C171", "title": "Agents as dictionaries", "statement": "An agent converted to a dictionary and back with a goal and a map has the same state, outline and kinds of models. (Violated: without adding goal and map it cannot be read; parameters of models and ids are lost; macro action models cannot be read back.)", "quantifier": "all agents", "why_tests_cant": "all agents and classes of models", "anchors": ["bark/runtime/commons/model_json_conversion.py", "bark/python_wrapper/models/behavior.cpp: __repr__"]}
{"id": "C172", "title": "Scenarios given in full", "statement": "DeterministicScenarioGeneration makes the agents given, in order, with their ids, states (or a state within the ranges), models and the goal repeated the given number of times, and evaluates the ids given. (Equal ids and unknown ids to evaluate are accepted; shown separately.)", "quantifier": "all lists of agent specifications and random numbers", "why_tests_cant": "any number of agents and all sequences of random numbers", "anchors": ["bark/runtime/scenario/scenario_generation/deterministic.py: create_single_scenario"]}
{"id": "C173", "title": "Constant acceleration primitives", "statement": "A constant acceleration primitive plans along its corridor one row per time point in equal steps from the ego's state and the world time, with exactly its acceleration in every step; the speed after the planning time is that of uniform acceleration, cut at the least speed; its action is the acceleration and the first steering angle. (The greatest speed of the parameters is not respected; shown separately.)", "quantifier": "all states, corridors, accelerations, planning times and numbers of time points", "why_tests_cant": "all states and numbers of time points", "anchors": ["bark/models/behavior/motion_primitives/primitives/primitive_const_acc_stay_lane.cpp: Plan, GetTotalAcc", "bark/models/behavior/idm/idm_lane_tracking.cpp: GenerateTrajectory"]}
{"id": "C174", "title": "Braking for the end of the lane", "statement": "A primitive restricted for the end of the lane never accelerates more than its acceleration and, near the end of its corridor, never more than a car that stops the offset before the end, with full braking once only the offset is left; planning never aborts in any sequence of situations. (Violated: the restriction also acts far from any lane end, by the desired velocity; the end of the lane the vehicle is in is ignored.)", "quantifier": "all states, corridors, parameters and sequences of plans", "why_tests_cant": "all histories of plans", "anchors": ["bark/models/behavior/motion_primitives/primitives/primitive_const_acc_stay_lane.cpp: CalcRelativeValues, GetTotalAcc, Plan", "bark/models/behavior/idm/base_idm.cpp: GetDistanceToLaneEnding"]}
{"id": "C175", "title": "Primitives within the limits of the vehicle", "statement": "A constant acceleration primitive is available exactly if its acceleration is within the limits of the vehicle, at standstill only if it does not brake. (Planning replaces the limits of the vehicle by those of the behavior's parameters; shown separately.)", "quantifier": "all vehicles, states and primitives", "why_tests_cant": "all limits and states", "anchors": ["bark/models/behavior/motion_primitives/primitives/primitive_const_acc_stay_lane.cpp: IsPreConditionSatisfied", "bark/models/behavior/idm/idm_lane_tracking.cpp: GenerateTrajectory", "bark/models/dynamic/single_track.hpp: SetAccelerationLimits, GetLonAccelerationMin"]}
{"id": "C176", "title": "Macro actions from parameters", "statement": "The behavior made from parameters has one lane keeping primitive per acceleration of the list, in its order, then one change to the left and one to the right if wanted, then gap keeping if wanted, and no others; all are separate objects; by default there are seven actions.", "quantifier": "all lists of accelerations and switches", "why_tests_cant": "lists of any length", "anchors": ["bark/models/behavior/motion_primitives/param_config/behav_macro_actions_from_param_server.hpp: BehaviorMacroActionsFromParamServer", "bark/models/behavior/motion_primitives/macro_actions.cpp: AddMotionPrimitive"]}
{"id": "C177", "title": "Safe distance to the border of the drivable area", "statement": "Each evaluation returns the number of evaluations so far in which the outline of the agent at its current state, enlarged by the required distances, was not strictly inside the polygon of its road corridor. On a straight road a vehicle along the road passes exactly if it is further than the lateral distance from both borders, one across the road exactly if it keeps the longitudinal distance; greater required distances never make a situation safe. An unknown agent makes the evaluation throw.", "quantifier": "all worlds, agents, histories, outlines, poses and distances", "why_tests_cant": "all situations and real-valued poses", "anchors": ["bark/world/evaluation/safe_distances/evaluator_safe_dist_drivable_area.cpp: CheckSafeDistance, GetCollisionShape, Evaluate", "bark/world/evaluation/evaluator_drivable_area.hpp: Evaluate", "bark/geometry/polygon.hpp: Inflate"]}
{"id": "C178", "title": "Evasive lateral acceleration", "statement": "The lateral acceleration available for evading is non-negative and at most the sum of the limits, selects the evasive side, and does not depend on the direction of the road in the map. (Violated: the side of the centre line never matters, and turning the map by 45 degrees turns 2.8 m/s^2 into 0.)", "quantifier": "all wheel bases, limits, speeds, headings and road directions", "why_tests_cant": "all real values", "anchors": ["bark/models/dynamic/single_track.hpp: CalculateLatAccelerationMaxAtFrenetAngle"]}
{"id": "C179", "title": "Labels of near and succeeding agents and of evaluators", "statement": "An agent is labelled near exactly if the distance of its outline to that of the ego is below the threshold, mutually; at most one agent is labelled as the one in front, it is in front within the lateral threshold and the closest of the nearest agents considered; labels are given for exactly the valid other agents; a label made from an evaluator gives what a fresh copy of the evaluator gives. (The agent in front is not labelled if enough others are nearer; shown separately.)", "quantifier": "all worlds, egos, thresholds and sequences of evaluations", "why_tests_cant": "all worlds and histories of evaluations", "anchors": ["bark/world/evaluation/ltl/label_functions/agent_near_label_function.cpp: EvaluateAgent", "bark/world/evaluation/ltl/label_functions/succeeding_agent_label_function.cpp: EvaluateAgent", "bark/world/evaluation/ltl/label_functions/generic_ego_label_function.hpp: Evaluate", "bark/world/evaluation/ltl/label_functions/constant_label_function.hpp: Evaluate"]}
{"id": "C180", "title": "Replaying recordings in a simulation", "statement": "In every simulation, whatever the other agents do and whatever the sizes of the steps, an agent that replays a recording with increasing times is at the recorded (interpolated) state for the current time after every step that begins after both its entry time and the beginning of its recording; before that it does not move; and, unless removal of agents outside the map is on, it is removed exactly by the first step during the recording that reaches its end. The clock is the sum of the steps and no step fails.", "quantifier": "all worlds, recordings, sequences of positive steps and other agents", "why_tests_cant": "all histories of steps and all real-valued recordings", "anchors": ["bark/models/behavior/behavior_static_trajectory/behavior_static_trajectory.cpp: Plan", "bark/models/execution/interpolation/interpolate.cpp: Execute", "bark/world/world.cpp: Step, PlanAgents, Execute", "bark/world/objects/agent.cpp: PlanBehavior, PlanExecution, UpdateStateAction"]}
{"id": "C181", "title": "Constant acceleration in a simulation", "statement": "In every simulation, an agent with the constant acceleration behavior has, after any steps, a state stamped with the world time and a velocity within the limits; while the limits are not reached its position and velocity are those of uniformly accelerated motion over the total time, independent of how the time was divided into steps. It stays in the simulation as long as it has a lane corridor, and is removed in the first step without one.", "quantifier": "all worlds, accelerations, limits, numbers of points, sequences of positive steps and other agents", "why_tests_cant": "all histories of steps", "anchors": ["bark/models/behavior/constant_acceleration/constant_acceleration.cpp: Plan", "bark/models/behavior/idm/idm_classic.cpp: GenerateTrajectory", "bark/models/execution/interpolation/interpolate.cpp: Execute", "bark/world/world.cpp: Step"]}
{"id": "C182", "title": "Following with the IDM in a simulation", "statement": "In every simulation, whatever vehicles an agent with the IDM follows from step to step (not moving backwards if the constant acceleration heuristic is on), planning never fails, and after any steps its state is stamped with the world time and its velocity is within the limits.", "quantifier": "all worlds, sensible parameters, leaders, sequences of positive steps and other agents", "why_tests_cant": "all histories of steps", "anchors": ["bark/models/behavior/idm/idm_classic.cpp: GenerateTrajectory", "bark/models/behavior/idm/base_idm.cpp: Plan, GetTotalAcc", "bark/models/execution/interpolation/interpolate.cpp: Execute", "bark/world/world.cpp: Step"]}
{"id": "C183", "title": "The desired velocity of the IDM", "statement": "In every simulation, an agent with the IDM (constant acceleration heuristic off) that starts at no more than its desired velocity never drives faster, whatever vehicles it follows, as long as no step is longer than desired velocity / (exponent x maximal acceleration). On a free road it then speeds up monotonically and its distance to the desired velocity shrinks at least exponentially in the time driven, however the time is divided into steps. (The bound on the step is needed: a longer step overshoots.)", "quantifier": "all worlds, sensible parameters, leaders, sequences of steps within the bound and other agents", "why_tests_cant": "all histories of steps, convergence over unbounded time", "anchors": ["bark/models/behavior/idm/base_idm.cpp: CalcFreeRoadTerm, CalcIDMAcc, GetTotalAcc, Plan", "bark/models/behavior/idm/idm_classic.cpp: GenerateTrajectory", "bark/world/world.cpp: Step"]}
{"id": "C184", "title": "What the IDM reacts to", "statement": "The IDM reacts exactly if a vehicle is in front or, with braking for the lane end on, the stopping point before the lane end is within range, and then to the nearest of them with its distance and velocity; the vehicle in front is the nearest that qualifies (valid, active, within the lateral and angular thresholds of the corridor, ahead) among the agents considered, which are all agents if there are no more than MaxAgentsFrontRear besides the ego, with the gap between the outlines as distance. Braking for the lane end never makes it accelerate more than the vehicle in front alone. Planning is aborted exactly for actions without an acceleration. (Violated: with more agents only the MaxAgentsFrontRear+1 nearest to the ego are considered, by default 5 with the ego, and a standing vehicle ahead is missed if four others are nearer. A slightly nearer, faster vehicle hides the lane end; once the outlines overlap the distance jumps up and the vehicle accelerates.)", "quantifier": "all worlds, corridors, parameters, actions and distances", "why_tests_cant": "all worlds and real-valued situations", "anchors": ["bark/models/behavior/idm/base_idm.cpp: CalcRelativeValues, GetDistanceToLaneEnding, Plan", "bark/world/observed_world.cpp: GetAgentInFront", "bark/commons/transformation/frenet_state.cpp: FrenetStateDifference"]}
{"id": "C185", "title": "Camera of the viewers", "statement": "A viewer set to follow an agent of the world by its id, or as the only evaluated agent, with an enforced length, shows after every frame a range centred at this agent, containing it, of the enforced height, or else width, and the aspect ratio of the window; following nobody it shows with world bounds a smallest square around the map, otherwise a range of the enforced size around the configured point. (FollowAgentIds=False follows the evaluated agent or agent 0; True with several evaluated agents follows agent 1; without an enforced length the view never moves; a list of ids raises; shown separately.)", "quantifier": "all worlds, settings, aspect ratios and previous ranges", "why_tests_cant": "real-valued positions and all settings", "anchors": ["bark/runtime/viewer/viewer.py: _get_draw_eval_agent_ids, _update_world_view_range, _update_world_dynamic_range"]}
{"id": "C186", "title": "What the viewer draws", "statement": "A frame shows every valid agent of the world shown exactly once, others only if this is switched on, and hatched; evaluated agents in their own colours; in every sequence of frames an agent that is not evaluated keeps its colour, and different ones have different colours while there are no more agents than colours; the drawn history fades out over the last four states. (Violated: the matplotlib colour map reports 20 colours but has 18; with sensor data agents not taking part are outlined; debug drawings raise once the evaluated agent is gone.) A call returns exactly if no list of agents is given to follow, the reference line (if on) is not asked for with an empty list, the first evaluated agent of the world is in what is shown if the reference line or texts are on, and an evaluated agent is in the world if a debug drawing of it is on.", "quantifier": "all sequences of frames, worlds, sensed worlds and settings", "why_tests_cant": "unbounded sequences of frames", "anchors": ["bark/runtime/viewer/viewer.py: drawWorld, drawTrueWorld, GetAgentColor, drawWorldImplementation, drawHistory", "bark/runtime/viewer/matplotlib_viewer.py: getSizeOfColormap, setupColormap"]}
{"id": "C187", "title": "Recording videos", "statement": "The worlds drawn one after the other without intermediate steps are stored as consecutively numbered images and played with one image per time step. (With intermediate steps all images of a world get the same number, so one is left per world, the numbers have gaps, and the video is played too fast; shown separately.)", "quantifier": "all sequences of worlds and numbers of intermediate steps", "why_tests_cant": "unbounded sequences", "anchors": ["bark/runtime/viewer/video_renderer.py: drawWorld, _renderWorld, export_video"]}
{"id": "C188", "title": "Threaded viewer", "statement": "At every render time the threaded viewer shows the latest world queued that is not later, if there is one. (While all queued worlds are later, the thread ends with an exception; shown separately.)", "quantifier": "all queues and render times", "why_tests_cant": "all queues of worlds", "anchors": ["bark/runtime/viewer/threaded_viewer.py: _closest_world_queue_index, run"]}
{"id": "C189", "title": "Render buffer", "statement": "The primitives under a name are those added since the last clearing, in order; a frame of the buffered viewer whose ego is in the world adds every lane, the ego vehicle, every other vehicle and the ego state exactly once; the matplotlib buffer viewer renders in every such frame exactly its own world and leaves the buffer empty. (The buffered viewer alone never clears, so the buffer grows with every frame; a frame raises exactly if no ego is given or it is gone, having added the lanes only, and leaves its lanes to the next frame; shown separately.)", "quantifier": "all sequences of frames, maps and agents", "why_tests_cant": "unbounded sequences of frames", "anchors": ["bark/world/renderer/renderer.hpp: Add, Clear", "bark/runtime/viewer/buffered_viewer.py: drawWorld, DrawAgents, DrawMap", "bark/runtime/viewer/buffered_mp_viewer.py: drawWorld"]}
{"id": "C190", "title": "Pickling geometry and settings", "statement": "A point, a line and a polygon come back from a pickle with the same points; a line with the arc lengths belonging to its points, so equal to the original exactly if those were up to date; a polygon equal to the original if it was built from points or placed without turning it; behaviour settings come back with behaviours of the same kinds and the same agents. (Violated: a turned polygon comes back with the extents along the axes instead of those of the vehicle, a reversed line with other arc lengths, a road corridor with any road cannot be pickled, an observer loses the agents it is restricted to, a failed execution model is valid again.)", "quantifier": "all points, lines, polygons, poses, corridors, settings, observers and execution models", "why_tests_cant": "all real-valued geometries and configurations", "anchors": ["bark/python_wrapper/geometry/geometry.cpp: pickles of Point2d, Line2d, Polygon", "bark/python_wrapper/world/map.cpp: RoadCorridor pickle", "bark/python_wrapper/models/observer.cpp: pickles", "bark/python_wrapper/models/execution.cpp: pickles", "bark/geometry/polygon.hpp: Polygon constructor, UpdateDistancesToCenter"]}
{"id": "C191", "title": "Multivariate normal distribution", "statement": "A distribution is accepted exactly if the decomposition of its covariance (lower triangle) has no negative value; each sample is mean + A u for the next standard normal numbers u of the generator, where A A^T is the configured covariance, and the density at a sample is the density of u divided by |det A|, if the configured matrix is symmetric and regular; reseeding after an even number of drawn numbers makes later samples those of a new distribution with that seed. (Violated: for a matrix that is not symmetric, like the default one, samples and density use different matrices; after an odd number of drawn numbers one number of the old seed is used after reseeding; the CDF is 0.)", "quantifier": "all dimensions, means, covariances, seeds, decompositions and histories of draws and reseedings", "why_tests_cant": "all matrices over the reals and unbounded histories", "anchors": ["bark/commons/distribution/multivariate_normal.hpp: MultivariateNormalDistribution"]}
{"id": "C192", "title": "Config readers", "statement": "A fixed-type reader makes one model per agent, all of the configured type (or the documented default, which is then stored), all with the configured section of parameters, whose values stay; the sampling reader gives each agent the type at the position drawn for it in the configured list and this type's section; unknown types abort the generation; recorded behaviours are assigned track by track; the track reader returns for every configured id its track, shape, recorded state at the start and exactly the lanes containing it; readers are looked up built-in first, then in the last added module; a scenario is read states first, then source by source in a fixed order; asking for more scenarios does not change the earlier ones. (Not per track: without a configured end the scenario ends for all agents with the first track.)", "quantifier": "all configurations, constructors, numbers of agents, random generators, track files, modules, readers and numbers of scenarios", "why_tests_cant": "all configurations and unbounded numbers of agents and scenarios", "anchors": ["bark/runtime/scenario/scenario_generation/config_readers/behavior_model_config_readers.py", "bark/runtime/scenario/scenario_generation/config_readers/dynamic_model_config_readers.py", "bark/runtime/scenario/scenario_generation/config_readers/execution_model_config_readers.py", "bark/runtime/scenario/scenario_generation/config_readers/agent_state_geometry_config_readers.py: InteractionDataTrackIdsStatesGeometries", "bark/runtime/scenario/scenario_generation/configurable_scenario_generation.py: create_single_scenario, create_scenarios, eval_configuration"]}
{"id": "C193", "title": "Clothoids", "statement": "For a non-zero rate of curvature, odrSpiral with exact Fresnel integrals returns the point and heading at arc length s of the clothoid (curvature linear in the arc length) that starts at the given pose with the given curvature; the code's Fresnel routine is odd, never divides by zero and is accurate to 1e-8 for arguments between -36974 and 36974 and to 1e-5 everywhere, so every computed point is within 1e-5 sqrt(8 pi/|rate|) of the clothoid (1e-8 sqrt(8 pi/|rate|) unless the clothoid turns by more than 3e8 full turns) and the heading is exact; AddSpiral, for positive length and different curvatures, adds exactly one such point for each sampled arc length. Exact arithmetic, no rounding. (Outside this: with rate zero the points are wrong, with length zero the rate is undefined; both are shown.)", "quantifier": "all start poses, lengths, curvatures, arc lengths and arguments (reals)", "why_tests_cant": "all real numbers; unit tests compare single points", "anchors": ["bark/world/opendrive/odrSpiral.cpp: polevl, p1evl, fresnel, odrSpiral", "bark/world/opendrive/plan_view.cpp: AddSpiral"]}
{"id": "C194", "title": "Steering towards the reference line", "statement": "For a line of at least two points without coinciding neighbours and a vehicle moving forward, CalculateSteeringAngle without limits turns the front wheels into the direction of the line at the point nearest to the front axle, turned towards the line by atan(gain * distance / velocity). Where the nearest point is inside a segment, the front axle's signed distance e from the line then changes at the rate -gain * e * cos(phi) / cos(delta), so for a positive gain and a wheel angle below 90 degrees it shrinks. With limits the angle is, of all angles that respect the steering and lateral acceleration limits, the closest to the unlimited one. A vehicle aligned with a straight line with its front axle on it or beyond its end is not steered, and lane tracking trajectories that start on such a line stay on it and aligned. (Violated: before the start of the line an aligned vehicle is steered away from it; shown separately.)", "quantifier": "all reference lines, states, gains, wheel bases and limits over the reals, and all numbers of planned points", "why_tests_cant": "all real states and lines; unit tests sample a few", "anchors": ["bark/models/dynamic/single_track.hpp: CalculateSteeringAngle", "bark/models/dynamic/single_track.hpp: SingleTrackModel::GetSteeringAngleMax, GetLatAccelerationMax", "bark/models/behavior/idm/idm_lane_tracking.cpp: GenerateTrajectory"]}
{"id": "C195", "title": "Bounding boxes", "statement": "The bounding box of a map is the smallest box around the lines of all its lanes (the largest box there is if it has no points); merging boxes gives the smallest box containing both; a map read from a table has the rows' centers as center line and the smallest box around its borders. With removal switched on a step keeps an active agent with valid behaviour exactly if its outline before the step lies within the extent of the map's lane lines in both coordinates and is not flat.", "quantifier": "all maps, boxes, tables, offsets, worlds, outlines and step lengths", "why_tests_cant": "the extent is a minimum and maximum over all lanes of arbitrary maps, and agents may be anywhere", "anchors": ["bark/geometry/commons.hpp: BoundingBox", "bark/geometry/line.hpp: MergeBoundingBoxes", "bark/world/opendrive/opendrive.hpp: OpenDriveMap::BoundingBox", "bark/world/map/map_interface.cpp: interface_from_csvtable", "bark/world/world.cpp: RemoveInvalidAgents"]}
{"id": "C196", "title": "Smoothed line", "statement": "SmoothLine of a line with at least three points, none repeated, and a positive step width returns a line with right arc lengths that starts and ends where the line does, has ceil(length/step)+1 points, the j-th of which is the spline's point at j times the step; straight lines stay straight; fewer points are returned unchanged. (Step width zero is undefined behaviour, negative ones not longer than the line never return, a repeated point aborts.)", "quantifier": "all lines, step widths and interpolating splines", "why_tests_cant": "the number of points and the last point depend on whether the step divides the length, for every line", "anchors": ["bark/geometry/line.hpp: SmoothLine"]}
{"id": "C197", "title": "Following without collision", "statement": "In every simulation an agent that drives with the IDM (constant acceleration heuristic off) behind a vehicle that never brakes does not run into it: if at the beginning there is a gap in which its strongest braking could take away the difference of the velocities, the same holds after any steps that are short enough for its parameters (with the defaults, 0.2 s), whether the vehicle ahead is given by its motion or is another agent of the simulation seen as it is. (The condition is needed: no agent with the IDM moves less than with its strongest braking, and one closing in faster runs into the vehicle ahead.)", "quantifier": "all parameters, gaps, velocities, motions of the vehicle ahead without braking, and sequences of steps", "why_tests_cant": "collision freedom is an invariant over unboundedly many steps of a closed loop whose plans use stale velocities", "anchors": ["bark/models/behavior/idm/idm_classic.cpp: BehaviorIDMClassic::GenerateTrajectory", "bark/models/behavior/idm/base_idm.cpp: BaseIDM::GetTotalAcc", "bark/world/world.cpp: World::Step"]}
{"id": "C198", "title": "Corridor reacted to and followed", "statement": "An IDM based behaviour without a lane corridor expires and keeps its trajectory. Otherwise, if no constant corridor was set, it reacts to and drives along the corridor it is on. If one was set (as RSS and safety behaviours do), it reacts to that one exactly if an outline point of the vehicle is inside it or the heading deviates from it by at least 0.2 rad, and to the corridor it is on otherwise; lane tracking steers to the constant corridor from the start, the classic IDM stays on the one it is on. Lane changing behaviours react to and follow the corridor they decided for. (Violated: not only front points count as entering, a car leaving the corridor with its rear corner still inside reacts to it; with a constant corridor the decision of a lane changing behaviour does not affect the steering. Lines of at least two points without coinciding neighbours; shapes centred at the reference point.)", "quantifier": "all vehicle shapes and states, corridors, interiors, decisions and parameters", "why_tests_cant": "all real poses and outlines", "anchors": ["bark/world/map/commons.hpp: ChooseLaneCorridorBasedOnVehicleState", "bark/models/behavior/idm/base_idm.cpp: BaseIDM::Plan", "bark/models/behavior/idm/idm_lane_tracking.cpp: GenerateTrajectory", "bark/models/behavior/rule_based/lane_change_behavior.cpp: BehaviorLaneChangeRuleBased::Plan"]}
{"id": "C199", "title": "IDM trajectories in the plane", "statement": "The trajectory of the classic IDM is the vehicle's state followed by states on the centre line (of at least two points without coinciding neighbours) of its corridor with the line's heading, starting from the point nearest to the vehicle; times advance by the step, velocities are within the limits, and consecutive states are not further apart than the vehicle gets with its velocity and an acceleration within the bounds. (Violated for the first step: the vehicle is put on the centre line however far away it was, even standing still; and at the end of the line, where the vehicle stays while its states report its velocity.)", "quantifier": "all lines, states, relative values, sensible parameters and step lengths over the reals", "why_tests_cant": "all real states and lines", "anchors": ["bark/models/behavior/idm/idm_classic.cpp: BehaviorIDMClassic::GenerateTrajectory"]}
{"id": "C200", "title": "Platoons do not run into themselves", "statement": "In a simulation with execution by interpolation, take agents in a row along a corridor, each but the first driving with the IDM in its default configuration behind the one before it, which it sees as it is, and the first driving on any trajectories that never reverse and never brake harder than with 5 m/s\u00b2. If at the beginning nobody but the first is faster than 15 m/s, nobody drives backwards, and every gap is positive and exceeds the difference of the braking ways at 5 m/s\u00b2 plus 2 cm per m/s of difference, then after any number of steps of at most 0.2 s nobody has reached the rear of the vehicle before it. Apart from these 2 cm that condition is needed: an agent that fails it drives beyond the point where the vehicle ahead stops when that one brakes with 5 m/s\u00b2.", "quantifier": "all numbers of agents, states, vehicle lengths, trajectories of the first agent, numbers and lengths (at most 0.2 s) of steps over the reals", "why_tests_cant": "unbounded runs, real states, any number of vehicles", "anchors": ["bark/models/behavior/idm/base_idm.cpp: CalcIDMAcc, GetTotalAcc", "bark/models/behavior/idm/idm_classic.cpp: GenerateTrajectory", "bark/world/world.cpp: World::Step"]}
{"id": "C201", "title": "Traffic on a straight lane does not collide", "statement": "Take a world whose agents all drive with the classic IDM in its default configuration, executed by interpolation and fully observed, on one straight lane; at most one more than the number of agents its front search considers (4 by default). If at the beginning all are centred on the lane and directed along it, none drives backwards or faster than 15 m/s, every two have a gap between them and the one behind could still stop before the one ahead (both braking with 5 m/s\u00b2, plus 2 cm per m/s of difference), then for any number of steps of at most 0.2 s within which nobody can reach an end of the lane: the simulation does not fail, all agents are still there, on the lane, in the same order, directed along the lane and within [0, 15] m/s, each gap is again such, no two vehicles overlap, and the collision evaluator reports no collision. With one agent more this is false: a vehicle with enough others close behind it does not notice the one ahead and drives on as if the road was free until it can no longer stop.", "quantifier": "all setups of a straight lane, numbers and shapes of vehicles, states, numbers and lengths (at most 0.2 s) of steps over the reals", "why_tests_cant": "unbounded runs of the whole simulation loop over real states", "anchors": ["bark/world/world.cpp: World::Step", "bark/models/behavior/idm/base_idm.cpp: BaseIDM::Plan, GetLeadingVehicle", "bark/models/behavior/idm/idm_classic.cpp: GenerateTrajectory", "bark/world/observed_world.cpp: GetFrontAgent", "bark/world/evaluation/evaluator_collision_agents.cpp: Evaluate"]}
{"id": "C202", "title": "Traffic on a winding lane keeps its gaps", "statement": "The same as C201 on a lane whose centre line is any polyline that does not meet itself and has no spikes: after any number of steps of at most 0.2 s within which nobody can reach an end of the lane, the simulation has not failed, all agents are still there in the same order, exactly on the centre line and directed along it, within [0, 15] m/s, and along the line every gap is positive and large enough to stop.", "quantifier": "all such setups, polylines, numbers and shapes of vehicles, states, numbers and lengths of steps over the reals", "why_tests_cant": "unbounded runs of the whole simulation loop over real states and lines", "anchors": ["bark/world/world.cpp: World::Step", "bark/models/behavior/idm/base_idm.cpp: BaseIDM::Plan", "bark/models/dynamic/frenet_state.cpp: FrenetState", "bark/geometry/line.hpp: GetNearestPointAndS, GetPointAtS, GetTangentAngleAtS"]}
{"id": "C203", "title": "The vehicle at the front makes its way", "statement": "On a lane as in C202 the vehicle ahead of all others never gets slower and never faster than 15 m/s; what it is short of 15 m/s shrinks at least as 1/(1 + 0.113\u00b7T); after the time T it is at least 15\u00b7T minus 8.83 m per m/s it was short of at the beginning further, and at most 15\u00b7T: it passes every point of the lane in due time.", "quantifier": "all such setups and runs", "why_tests_cant": "unbounded runs (liveness)", "anchors": ["bark/world/world.cpp: World::Step", "bark/models/behavior/idm/base_idm.cpp: CalcIDMAcc", "bark/models/behavior/idm/idm_classic.cpp: GenerateTrajectory"]}
{"id": "C204", "title": "A benchmark run reaches the goals ahead", "statement": "Take traffic on a straight lane as in C201, and let the vehicle ahead of all others have a goal, or a sequence of goals, for stretches of the lane ahead of it, one after the other, each at least as long as a step at 15 m/s. A benchmark run with steps of at most 0.2 s that ends when the goal is reached, a collision is found or more than a number of evaluations were made, ends because the goal is reached and for no other reason; no collision is reported, the number of evaluations is one more than the number of steps, and there are no more steps than it takes 15 m/s, less 8.83 m per m/s the vehicle is slower at the beginning, to lead to the last stretch (if the limit allows for these and all stay on the lane); if no goal is reached before its stretch, no fewer than 15 m/s take. Frenet goals with the lane as centre line and a wide enough velocity range are such goals, and so are polygon goals whose convex shape contains the outline of the vehicle at both ends of the stretch.", "quantifier": "all such setups, vehicles, states, goals, step lengths and limits over the reals", "why_tests_cant": "unbounded runs of the benchmark loop over real states (liveness)", "anchors": ["bark/benchmark/benchmark_runner.py: _run_benchmark_config, _is_terminal", "bark/world/world.cpp: World::PlanAgents, World::Execute", "bark/world/evaluation/evaluator_goal_reached.hpp: Evaluate", "bark/world/goal_definition/goal_definition_sequential.cpp: AtGoal", "bark/world/goal_definition/goal_definition_state_limits_frenet.cpp: AtGoal", "bark/models/behavior/idm/idm_classic.cpp: GenerateTrajectory"]}
{"id": "C205", "title": "Everybody in the traffic makes its way", "statement": "On a lane as in C202, whatever the number of vehicles, the traffic never jams: after the time T a vehicle that had n vehicles ahead of it is at least 13.4\u00b7T - 133 - n\u00b7(436 + l) metres further, where l bounds the front extent of one vehicle plus the rear extent of another. No vehicle is lost, all velocities stay in [0, 15].", "quantifier": "all such setups, polylines, numbers and shapes of vehicles, states, numbers and lengths of steps over the reals", "why_tests_cant": "unbounded runs of all vehicles together (liveness)", "anchors": ["bark/world/world.cpp: World::Step", "bark/models/behavior/idm/base_idm.cpp: CalcIDMAcc, GetRelativeValues", "bark/models/behavior/idm/idm_classic.cpp: GenerateTrajectory", "bark/world/observed_world.cpp: GetFrontRearAgents"]}
{"id": "C206", "title": "Whoever is evaluated in the traffic reaches its goals", "statement": "As C204, but the evaluated vehicle may be anywhere in the queue, with stretches at least 16 m/s times the step length long: the benchmark run ends because the goal is reached and for no other reason, no collision is reported, the number of evaluations is one more than the number of steps, and there are no more steps than it takes 13.4 m/s, less 133 m and, for each vehicle ahead at the beginning, 436 m plus the extents of two vehicles, to lead to the last stretch; if no goal is reached before its stretch there are no fewer steps than 16 m/s need to lead there.", "quantifier": "all such setups, vehicles, states, goals, step lengths and limits over the reals", "why_tests_cant": "unbounded runs of the benchmark loop over real states with interacting vehicles (liveness)", "anchors": ["bark/benchmark/benchmark_runner.py: _run_benchmark_config, _is_terminal", "bark/world/world.cpp: World::PlanAgents, World::Execute", "bark/world/evaluation/evaluator_goal_reached.hpp: Evaluate", "bark/models/behavior/idm/base_idm.cpp: CalcIDMAcc", "bark/models/behavior/idm/idm_classic.cpp: GenerateTrajectory"]}
{"id": "C207", "title": "Areas of lanes", "statement": "In the graph of a map, the outer boundary of a lane is the lane itself and the inner boundary is the lane next to it towards the reference line. The area of a lane is outlined by the line of that lane and its own line backwards, and closed; a lane without such a neighbour, and a reference line, has none. The boundaries of a route are those of its lanes in order. If all lines have points, the areas of all lanes are found; setting the area of a lane changes only that one, and of an unknown lane nothing.", "quantifier": "all maps with unique lane ids and positions, all lanes, lines and routes", "why_tests_cant": "all maps", "anchors": ["bark/world/map/roadgraph.cpp: ComputeXodrLaneBoundaries, ComputeRouteBoundaries, ComputeXodrLanePolygon, GeneratePolygonsForVertices, SetPolygonForVertexFromId", "bark/world/map/map_interface.cpp: GenerateRoadCorridorLane"]}
{"id": "C208", "title": "Areas of junctions and roads", "statement": "The area of a junction covers all lanes for driving in it, and is the outline of exactly their union. The area of a road corridor covers its lanes: it is the union of the lanes, each grown by a margin and the whole shrunk by it. If full junction areas are asked for, the areas of exactly the junctions its lanes belong to are added. (The code keeps only the first part of a union that falls into several parts, drops a lane that does not grow to one polygon, and leaves a road without any area, reporting success, if shrinking does not leave exactly one polygon.) Enlarging a polygon reports success exactly if the result is a single piece, and otherwise writes nothing.", "quantifier": "all maps, junctions, corridors and polygon libraries that meet the contract", "why_tests_cant": "all maps and lanes", "anchors": ["bark/world/map/roadgraph.cpp: ComputeJunctionArea", "bark/world/map/road_corridor.hpp: ComputeRoadPolygon, AddPolygonToRoadCorridor, GetJunctionIds", "bark/world/map/map_interface.cpp: GenerateRoadCorridor", "bark/geometry/polygon.hpp: ConcatenatePolygons, BufferPolygon, ClearInners"]}
{"id": "C209", "title": "What the RSS library is told", "statement": "When the RSS evaluator asks the library, it hands over, in the order of the agents, one pair for each other agent that is closer than the scaled sum of the stopping distances, and for no other agent; of each vehicle it tells the id, the current speed, orientation and angular velocity, and a box that is the rectangle the vehicle takes up; the ego vehicle's route leads to its goal, the time is one more than that of its state. This is defined whenever the ego vehicle is in the world and has a goal, all agents have states and none has two last states of the same time. (The code puts the middle of the box at the state's position: for vehicles whose state is not their middle, such as the standard shapes, part of the vehicle is outside of the box.)", "quantifier": "all observed worlds, agents, histories, shapes, goals and settings", "why_tests_cant": "all worlds and shapes", "anchors": ["bark/world/evaluation/rss/rss_interface.cpp: GenerateRSSWorld, CreateWorldModel, GenerateMatchObject, ConvertAgentState, FillRSSDynamics, GetRelevantAgents"]}
{"id": "C210", "title": "Lines do not depend on the coordinate system", "statement": "Turning and shifting the coordinate system of a map changes no answer about its lines: the length, the arc length of a point and the lateral distance of a point from a line stay what they are, the point at an arc length and the point closest to a given one are the same points in the new coordinates, the tangent direction turns with the axes, and a vehicle's description relative to a lane (position along and beside it, velocities along and across it, angle to it) is identical; converting such a description back gives the same vehicle. The lines have two points or more, no repeated points, and do not turn back onto themselves by exactly half a turn at a point.", "quantifier": "all changes of coordinates (turn angle and shift), all lines of any number of points, all query points, arc lengths and vehicle states, any rounding of angles to single precision", "why_tests_cant": "a test fixes one map in one coordinate system; whether a formula secretly depends on the axes shows only for other angles", "anchors": ["bark/geometry/line.hpp: GetPointAtS, GetTangentAngleAtS, GetNearestPointAndS, Length", "bark/commons/transformation/frenet.cpp: FrenetPosition", "bark/commons/transformation/frenet_state.cpp: FrenetState, FrenetStateToDynamicState"]}
{"id": "C211", "title": "Driving does not depend on the coordinate system", "statement": "A vehicle in a turned and shifted coordinate system drives the same way: the steering angle towards a lane is the same number, a step of the single track model (either integrator, steering angle or steering rate as input) leads to the same state in the new coordinates, the trajectories planned by the classic IDM and by lane tracking are the same trajectories in the new coordinates, the outline of the vehicle covers the same place and two vehicles touch in one coordinate system exactly if they do in the other.", "quantifier": "all changes of coordinates, all lanes as in the previous property, all vehicle states, parameters, horizons and numbers of points, all shapes described about their reference point", "why_tests_cant": "a dependence on the axes (a wrong sign of a sine, an unwrapped angle) is invisible as long as the tested roads run along an axis", "anchors": ["bark/models/dynamic/single_track.hpp: StateSpaceModel, CalculateSteeringAngle", "bark/models/dynamic/single_track_steering_rate.hpp: StateSpaceModel", "bark/models/dynamic/integration.hpp: euler_int, rk4", "bark/models/behavior/idm/idm_classic.cpp: GenerateTrajectory", "bark/models/behavior/idm/idm_lane_tracking.cpp: GenerateTrajectory", "bark/geometry/commons.hpp: Transform"]}
{"id": "C212", "title": "Searches by bounding boxes do not depend on the coordinate system", "statement": "Which vehicles are removed for leaving the map, and which vehicles are the nearest to a point, does not depend on how the coordinate system of the map is turned and shifted.", "quantifier": "all changes of coordinates, all bodies, maps and points", "why_tests_cant": "bounding boxes are parallel to the axes, and tests use maps along the axes", "anchors": ["bark/world/world.cpp: UpdateAgentRTree, RemoveInvalidAgents, GetNearestAgents", "bark/geometry/commons.hpp: BoundingBox"]}
{"id": "C213", "title": "Traffic of the default driver model is judged safe", "statement": "Vehicles driven by the default driver model one behind the other on a straight lane of a road that covers the strip they drive in are judged safe at any time: the collision evaluator for a vehicle answers no, however many of the nearest vehicles it looks at, and so does the drivable-area evaluator, for all vehicles and for each single one.", "quantifier": "any number of vehicles, any bodies, gaps and speeds as for the collision-free traffic property, any sequence of steps, every evaluated vehicle and every number of nearest vehicles looked at", "why_tests_cant": "an evaluator reporting a rare false alarm shows only in the particular configuration of vehicles and time that triggers it", "anchors": ["bark/world/evaluation/evaluator_collision_ego_agent.cpp: Evaluate", "bark/world/evaluation/evaluator_drivable_area.cpp: Evaluate", "bark/models/behavior/idm/idm_classic.cpp: Plan", "bark/world/world.cpp: Step, GetNearestAgents"]}
{"id": "C214", "title": "Only what is registered counts, not how it came to be registered", "statement": "Two series of calls adding, removing and clearing agents that leave the same agents registered under the same ids are followed by the same simulation, whatever is called next; in particular agents with different ids can be added in any order.", "quantifier": "all worlds, all pairs of series of registry calls ending in the same id-to-agent map, all later calls", "why_tests_cant": "there are factorially many orders and arbitrarily long ways to reach one registry", "anchors": ["bark/world/world.cpp: AddAgent, RemoveAgentById, Step", "bark/world/world.hpp: ClearAgents, GetAgent"]}
{"id": "C215", "title": "Simulations do not depend on the time they start at", "statement": "With models that do not look at the clock as such, the same calls (steps, planning, adding, removing and clearing agents, index updates) on the same world begun some time later give the same result that much later: the same agents, positions, velocities and actions, all times shifted; traffic of the classic IDM executed by interpolation is of this kind, whatever the map, the vehicles and the parameters. Exact arithmetic, no rounding.", "quantifier": "all well-formed worlds, all shifts of time, all sequences of calls; for the IDM all parameters, roads, vehicles, states of behaviours and execution models", "why_tests_cant": "tests start at time zero; a place where a time is used relative to zero instead of relative to the world's clock shows only in runs started later", "anchors": ["bark/world/world.cpp: Step, PlanAgents, Execute, RemoveInvalidAgents", "bark/world/objects/agent.cpp: IsValidAtTime, UpdateStateAction", "bark/models/behavior/idm/idm_classic.cpp: GenerateTrajectory", "bark/models/behavior/idm/base_idm.cpp: Plan", "bark/models/execution/interpolation/interpolate.cpp: Execute"]}
{"id": "C216", "title": "In traffic on one lane nobody is influenced by what is behind", "statement": "Two worlds of vehicles with the default classic IDM on one lane (straight or winding, few enough to be considered, clear of each other) that agree on a group of vehicles with nothing else ahead of them still agree on the position, direction and velocity of every vehicle of the group after any number of steps, whatever else is behind, however close and fast.", "quantifier": "all straight and simple winding lanes, all worlds of vehicles clear of each other, all groups with nothing else ahead, all sequences of steps of at most 0.2 s", "why_tests_cant": "Independence of every possible traffic behind for every number of steps is a relation between two unboundedly long runs.", "anchors": ["bark/models/behavior/idm/base_idm.cpp: GetRelativeValues", "bark/models/behavior/idm/idm_classic.cpp", "bark/world/observed_world.cpp: GetAgentInFront", "bark/world/world.cpp: Step, GetFrontRearAgents"]}
{"id": "C217", "title": "The route of a source in a configurable scenario", "statement": "A source of a configurable scenario given by two points gets the corridor along the roads of a cheapest drivable way from the driving lane nearest to the first point to the one nearest to the second; if there is none the generation raises and leaves the map as it was. A source given by the ids of its roads gets the corridor along these roads. (The latter is violated: the corridor is made, but generation always raises; and two points are refused if the very first number is written without a fraction. Both shown by separate theorems, and that nothing else is accepted.)", "quantifier": "all maps and lane graphs, all states of the corridor cache, all JSON values of the configuration, all nearest-query and shortest-path implementations meeting their contracts", "why_tests_cant": "Values, maps and routes are unbounded; that road ids are never accepted is a statement about all of them.", "anchors": ["bark/runtime/scenario/scenario_generation/configurable_scenario_generation.py: get_road_corridor_from_source_sink", "bark/world/map/map_interface.cpp: GenerateRoadCorridor, XodrLaneIdAtPolygon", "bark/python_wrapper/world/map.cpp: GenerateRoadCorridor"]}
{"id": "C218", "title": "Traffic on several lanes side by side, oncoming traffic included", "statement": "On a road of any number of straight lanes side by side, in the same or in opposite directions, any vehicles with the classic IDM in its default configuration whose lane neighbours have room and could stop, and whose widths fit the distance of the lanes, stay on their own lanes in their order for any number of world steps of at most 0.2 s that leave them on the road: no step fails, nobody reverses or exceeds the desired velocity, the vehicles of a lane keep room and could still stop, no two vehicles of the road ever overlap and the collision evaluator reports none. What happens on one lane is exactly what would happen without the vehicles of all other lanes. This holds for at most MaxAgentsFrontRear + 1 vehicles altogether; beyond that, a vehicle whose nearest ones are all on other lanes drives on as if alone, and the claim is refuted: five oncoming vehicles make an approaching vehicle overlook the standing one ahead.", "quantifier": "all numbers, positions and directions of parallel straight lanes, all vehicles, shapes, positions, velocities, all lists of steps of at most 0.2 s", "why_tests_cant": "an induction over unbounded closed-loop runs of arbitrarily many interacting vehicles with real arithmetic; a test runs one road", "anchors": ["bark/world/world.cpp: World::Step, World::GetAgentFrontRearForId", "bark/commons/transformation/frenet_state.cpp: FrenetStateDifference", "bark/models/behavior/idm/base_idm.cpp: BaseIDM::CalcRelativeValues", "bark/models/behavior/idm/idm_classic.cpp: GenerateTrajectory"]}
{"id": "C219", "title": "IDM traffic around vehicles driven by anything", "statement": "On a lane (straight, or any that does not meet itself) with vehicles of the classic IDM in its default configuration and vehicles driven by arbitrary behaviour models, possibly a different one in every step: if everyone initially has room to whoever is ahead and could stop before it, and the other vehicles stay on the lane, do not reverse, do not brake harder than 5 m/s\u00b2 and keep their own distance to whoever is ahead of them, then after any number of world steps of at most 0.2 s no step failed, all vehicles are there in the same order, IDM vehicles neither reverse nor exceed the desired velocity, everyone has room and could stop, no two vehicles overlap (on the straight lane) and the collision evaluator reports none. There must be enough lane behind the IDM vehicles (standing ones may creep back by at most 5 cm per second) and ahead of them (16 m per second of the run), the latter not being needed if each has one of the other vehicles somewhere ahead and those never get closer than 3.2 m to the end of the lane. How an IDM vehicle moves in a step does not depend on what the other vehicles are driven by, only on where they are. The limit on braking is needed: behind a vehicle that stops dead an IDM vehicle that was clear of it is inside it one step later.", "quantifier": "all sets of foreign vehicles, all sequences of behaviour models for them that meet the stated contract, all vehicles, positions, velocities, all lists of steps of at most 0.2 s", "why_tests_cant": "quantifies over all behaviour models of other vehicles and unbounded runs; a test uses one model", "anchors": ["bark/world/world.cpp: World::Step", "bark/world/objects/agent.cpp: Agent::PlanBehavior, Agent::PlanExecution", "bark/models/behavior/behavior_model.hpp: BehaviorModel::Plan", "bark/models/behavior/idm/base_idm.cpp: BaseIDM::Plan", "bark/models/behavior/idm/idm_classic.cpp: GenerateTrajectory"]}
{"id": "C220", "title": "IDM traffic behind replayed vehicles", "statement": "On a straight lane with vehicles that replay recordings (BehaviorStaticTrajectory) ahead of vehicles of the classic IDM in its default configuration: if the recordings have increasing stamps, cover the run, follow the lane, never reverse and never brake harder than 5 m/s\u00b2 (read between their rows by linear interpolation), and of any two recorded vehicles one stays clear behind the other, and everyone initially has room to whoever is ahead and could stop before it, then after any number of world steps of at most 0.2 s no step failed, every replayed vehicle is exactly at the recorded position and velocity of that time, all vehicles are there in the same order, IDM vehicles neither reverse nor exceed the desired velocity, everyone has room and could stop, no two vehicles overlap and the collision evaluator reports none. There must be enough lane behind the IDM vehicles (standing ones may creep back by at most 5 cm per second) and ahead of them (16 m per second of the run), the latter not being needed if the replayed vehicles stay 3.2 m before the end of the lane. The same, but for the overlap of bodies, holds along any lane whose centre line does not meet itself. The action a replayed vehicle reports for a step is the recorded mean longitudinal acceleration, with no lateral part.", "quantifier": "all recordings with these properties, all numbers and shapes of vehicles, positions, velocities, all lists of steps of at most 0.2 s", "why_tests_cant": "quantifies over all recordings and unbounded closed-loop runs of interacting vehicles over the reals; a test replays one recording", "anchors": ["bark/models/behavior/static_trajectory/behavior_static_trajectory.cpp: Plan, CalculateAction, Interpolate, UpdateBehaviorStatus", "bark/world/world.cpp: World::Step", "bark/models/execution/interpolation/interpolate.cpp: Execute", "bark/models/behavior/idm/base_idm.cpp: BaseIDM::Plan", "bark/models/behavior/idm/idm_classic.cpp: GenerateTrajectory"]}
{"id": "C221", "title": "Replayed vehicles do what was recorded, whatever the others do", "statement": "On a straight or winding lane, for every assignment of behaviour models to the other vehicles (arbitrary ones, changing from step to step, or the classic IDM), after any number of world steps of any positive durations no step failed, and every vehicle that replays a recording with increasing stamps that covers the run and follows the lane is still in the world with its shape, at exactly the recorded position and velocity of that time. (So it does not react: shown by a replayed vehicle that drives into one standing on its lane although everyone had room and could stop.)", "quantifier": "all recordings along the lane, all behaviour models of all other vehicles in every step, all worlds and all lists of step durations", "why_tests_cant": "quantifies over arbitrary behaviour of all other vehicles and unbounded runs over the reals; a test has a few fixed other vehicles", "anchors": ["bark/models/behavior/static_trajectory/behavior_static_trajectory.cpp: Plan, CalculateAction, Interpolate, UpdateBehaviorStatus", "bark/world/world.cpp: World::Step, PlanAgents, Execute", "bark/models/execution/interpolation/interpolate.cpp: Execute"]}
{"id": "C222", "title": "Simulations do not depend on the numbers of the agents, only on their order", "statement": "Give the agents of a world other ids without changing their order. For every sequence of calls on the world (steps, planning, executing, adding, removing, clearing, updating the index), with behaviour and observer models that do not depend on ids, the same calls with the new ids fail alike or give the same world with the new ids; the valid agents, the agents in a region and the collision verdict are the same. The classic IDM is such a model if the nearest search of the index looks at boxes only: the agents in front and behind are the same ones with their new ids, so traffic of IDM vehicles does not depend on the ids. (The order does matter: of two vehicles abreast ahead the one with the lower id is the one followed; shown separately.)", "quantifier": "all order preserving renamings, all worlds, all sequences of calls, all models not depending on ids; for the IDM all setups whose nearest search looks at boxes only", "why_tests_cant": "relates pairs of unbounded runs for all renamings; a test compares two runs", "anchors": ["bark/world/world.cpp: World::Step, PlanAgents, Execute, AddAgent, RemoveInvalidAgents, UpdateAgentRTree, GetValidAgents, GetAgentsIntersectingPolygon, GetAgentFrontRearForId", "bark/models/behavior/idm/base_idm.cpp: BaseIDM::Plan", "bark/world/evaluation/evaluator_collision_agents.cpp: Evaluate"]}
{"id": "C223", "title": "Lane tracking trajectories respect the limits of the vehicle", "statement": "Lane tracking along a line of at least two points without coinciding neighbours, with limited steering and sensible parameters, gets from each state of its trajectory to the next like a vehicle (bicycle model) whose acceleration, steering angle and lateral acceleration at that velocity respect the limits, with the steering angle calculated for that state: consecutive states are as far apart as the velocity takes, the turn times the velocity respects the lateral limits, and the velocity changes within the longitudinal limits unless cut off at the minimum. The action reported is what leads from the first state to the second (none for a trajectory of one point). A message about violated limits is logged exactly for states whose velocity together with the steering angle that led to them exceeds the lateral limits by a tenth or more, hence never for a state not faster than the one before.", "quantifier": "all lines, states, parameters, step lengths and numbers of points over the reals", "why_tests_cant": "unbounded trajectories over all real states and lines", "anchors": ["bark/models/behavior/idm/idm_lane_tracking.cpp: GenerateTrajectory, CheckAccelerationLimits", "bark/models/dynamic/single_track.hpp: CalculateSteeringAngle, CalculateLateralAcceleration, StateSpaceModel", "bark/models/dynamic/integration.hpp: euler_int"]}
{"id": "C224", "title": "IDM traffic behind a vehicle that is given an acceleration for every step", "statement": "On a lane whose centre line does not meet itself, one vehicle with the constant acceleration behavior, whose acceleration may be set anew before every world step, is ahead of vehicles driving the classic IDM in its default configuration; everyone has room to whoever is ahead and could stop before it. There is enough lane behind the others for the duration (standing IDM vehicles may creep back by at most 5 cm per second), and enough ahead of them (16 m per second), the latter not being needed if the vehicle ahead stays 3.2 m before the end of the lane. As long as the accelerations are not below -5 m/s\u00b2 (with harder braking there are collisions) and do not make the vehicle reverse, drive faster than 50 m/s or leave the lane, then after any number of steps of at most 0.2 s nothing went wrong, all vehicles are still there in the same order, the vehicle ahead is exactly where its accelerations take it with exactly the velocity they give it (its last action being the acceleration given), any two vehicles again have room and could stop, and on a straight lane no two bodies touch and no collision is reported. Where the roads give no lane corridor an active vehicle of this kind leaves the simulation with the step.", "quantifier": "all straight or winding lanes, all numbers of vehicles, all step lengths up to 0.2 s, all sequences of accelerations and all numbers of steps", "why_tests_cant": "unbounded numbers of vehicles and steps and arbitrary sequences of real accelerations", "anchors": ["bark/models/behavior/constant_acceleration/constant_acceleration.cpp: Plan, GetTotalAcc", "bark/models/behavior/idm/idm_classic.cpp: GenerateTrajectory", "bark/models/behavior/idm/base_idm.cpp: CalcIDMAcc", "bark/world/world.cpp: Step"]}
