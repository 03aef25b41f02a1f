{
 "claims": [
  {
   "property": "C01",
   "status": "proved",
   "theorems": [
    "Bark.Props.C01_clock",
    "Bark.Props.C01_lookup_keeps_clock"
   ],
   "note": ""
  },
  {
   "property": "C02",
   "status": "proved",
   "theorems": [
    "Bark.Props.C02_plan_from_snapshot",
    "Bark.Props.C02_order_irrelevant"
   ],
   "note": ""
  },
  {
   "property": "C03",
   "status": "proved",
   "theorems": [
    "Bark.Props.C03_history_is_window",
    "Bark.Props.C03_history_bounded",
    "Bark.Props.C03_last_is_executed",
    "Bark.Props.C03_set_history_not_trimmed"
   ],
   "note": ""
  },
  {
   "property": "C04",
   "status": "proved",
   "theorems": [
    "Bark.Props.C04_current_state_defined",
    "Bark.Props.C04_empty_history_undefined",
    "Bark.Props.C04_no_fault"
   ],
   "note": ""
  },
  {
   "property": "C05",
   "status": "proved",
   "theorems": [
    "Bark.Props.C05_step_removes_expired"
   ],
   "note": ""
  },
  {
   "property": "C06",
   "status": "proved",
   "theorems": [
    "Bark.Props.C06_inactive_untouched",
    "Bark.Props.C06_invalid_does_not_move"
   ],
   "note": ""
  },
  {
   "property": "C07",
   "status": "proved",
   "theorems": [
    "Bark.Props.C07_removal_uses_old_position",
    "Bark.Props.C07_violated"
   ],
   "note": "As stated. Beyond the stated precondition: The intended wider claim fails (C07_violated); what holds is proved."
  },
  {
   "property": "C08",
   "status": "proved",
   "theorems": [
    "Bark.Props.C08_registry",
    "Bark.Props.C08_iteration"
   ],
   "note": ""
  },
  {
   "property": "C09",
   "status": "proved",
   "theorems": [
    "Bark.Props.C09_nearest_safe",
    "Bark.Props.C09_polygon_exact",
    "Bark.Props.C09_fresh_after",
    "Bark.Props.C09_stale_index_faults"
   ],
   "note": "As stated. Beyond the stated precondition: Violated after removal without index update (C09_stale_index_faults); otherwise proved."
  },
  {
   "property": "C10",
   "status": "proved",
   "theorems": [
    "Bark.Props.C10_valid_agents"
   ],
   "note": ""
  },
  {
   "property": "C11",
   "status": "proved",
   "theorems": [
    "Bark.Props.C11_clone_faithful",
    "Bark.Props.C11_clone_isolated",
    "Bark.Props.C11_inner_models_shared",
    "Bark.Props.C11_extras_shared",
    "Bark.Props.C11_observations_alias",
    "Bark.Props.C11_observation_isolated"
   ],
   "note": "As stated. Beyond the stated precondition: Isolation of everything the agent itself owns is proved; inner models of composite models are shared (C11_inner_models_shared), which violates the full claim."
  },
  {
   "property": "C12",
   "status": "proved",
   "theorems": [
    "Bark.Props.C12_observe",
    "Bark.Props.C12_ids"
   ],
   "note": ""
  },
  {
   "property": "C13",
   "status": "partial",
   "theorems": [
    "Bark.Props.C13_retained_grows",
    "Bark.Props.C13_violated",
    "Bark.Props.C13_inactive_partial"
   ],
   "note": "Violated by the code (C13_violated): the chain grows by one per step; C13_inactive_partial is what holds."
  },
  {
   "property": "C14",
   "status": "proved",
   "theorems": [
    "Bark.FrontRearProps.C14_front_is_nearest",
    "Bark.FrontRearProps.C14_front_in_corridor",
    "Bark.FrontRearProps.C14_nearest_mode_violated",
    "Bark.FrontRearProps.C14_nobody",
    "Bark.FrontRearProps.C14_undefined"
   ],
   "note": "As stated. Beyond the stated precondition: The search returns the nearest considered agent ahead (C14_front_is_nearest), and the nearest of the whole world when restricted to the corridor (C14_front_in_corridor); in the default mode only the 5 nearest agents are considered, so the leader can be missed (C14_nearest_mode_violated)."
  },
  {
   "property": "C15",
   "status": "partial",
   "theorems": [
    "Bark.FrontRearProps.C15_rear_is_furthest",
    "Bark.FrontRearProps.C15_rear_nearest_partial",
    "Bark.FrontRearProps.C15_violated"
   ],
   "note": "Violated: the furthest agent behind is returned (C15_rear_is_furthest, C15_violated); right only with one agent behind."
  },
  {
   "property": "C16",
   "status": "proved",
   "theorems": [
    "Bark.FrontRearProps.C16_longitudinal_gap",
    "Bark.FrontRearProps.C16_lateral_gap",
    "Bark.FrontRearProps.C16_lateral_error",
    "Bark.FrontRearProps.C16_lateral_violated"
   ],
   "note": "As stated. Beyond the stated precondition: Longitudinal part proved; lateral part violated to the right for shapes with different side extensions (C16_lateral_violated)."
  },
  {
   "property": "C17",
   "status": "partial",
   "theorems": [
    "Bark.Interp.C17_characterisation",
    "Bark.Interp.C17_first_segment_partial",
    "Bark.Interp.C17_last_stamp",
    "Bark.Interp.C17_uniform_stamps",
    "Bark.Interp.C17_violated"
   ],
   "note": "Violated beyond the first segment (C17_violated); exact on the last stamp, on stamps of equally spaced trajectories, and on the first segment."
  },
  {
   "property": "C18",
   "status": "proved",
   "theorems": [
    "Bark.Interp.C18_out_of_range",
    "Bark.Interp.C18_status_reports",
    "Bark.Interp.C18_sticky_violated",
    "Bark.Interp.C18_served"
   ],
   "note": "As stated. Beyond the stated precondition: INVALID is reported and keeps the state, but is sticky (C18_sticky_violated)."
  },
  {
   "property": "C19",
   "status": "proved",
   "theorems": [
    "Bark.StaticTraj.C19_replay",
    "Bark.StaticTraj.C19_empty_interval_faults"
   ],
   "note": ""
  },
  {
   "property": "C20",
   "status": "proved",
   "theorems": [
    "Bark.StaticTraj.C20_status",
    "Bark.StaticTraj.C20_monotone",
    "Bark.StaticTraj.C20_valid_plans"
   ],
   "note": ""
  },
  {
   "property": "C21",
   "status": "proved",
   "theorems": [
    "Bark.Idm.C21_acc_within_bounds",
    "Bark.Idm.C21_violated_singular",
    "Bark.Idm.C21_singular_witness",
    "Bark.Idm.C21_exactly",
    "Bark.Idm.C21_violated_zero_maxAcc",
    "Bark.Idm.C21_violated_coolness_one",
    "Bark.Idm.C21_along_trajectory"
   ],
   "note": "Proved for sensible parameters, exactly outside the singular situation (C21_exactly); NaN escapes there (C21_violated_singular), for maximal acceleration 0 and for coolness 1 at zero gap (C21_violated_*)."
  },
  {
   "property": "C22",
   "status": "proved",
   "theorems": [
    "Bark.Idm.C22_free_road_antitone",
    "Bark.Idm.C22_free_road_sign"
   ],
   "note": ""
  },
  {
   "property": "C23",
   "status": "proved",
   "theorems": [
    "Bark.Idm.C23_value",
    "Bark.Idm.C23_gap_monotone",
    "Bark.Idm.C23_leader_velocity",
    "Bark.Idm.C23_leader_velocity_violated",
    "Bark.Idm.C23_value_cool",
    "Bark.Idm.C23_gap_monotone_cool",
    "Bark.Idm.C23_leader_velocity_cool",
    "Bark.Idm.C23_leader_velocity_cool_violated"
   ],
   "note": "As stated. Beyond the stated precondition: Gap part proved for every coolness factor in [0,1); leader-velocity part violated for fast leaders (C23_leader_velocity_violated) and, with the heuristic, for accelerating leaders (C23_leader_velocity_cool_violated); proved otherwise."
  },
  {
   "property": "C24",
   "status": "proved",
   "theorems": [
    "Bark.Idm.C24_velocity_and_times"
   ],
   "note": ""
  },
  {
   "property": "C25",
   "status": "partial",
   "theorems": [
    "Bark.Idm.C25_no_backward_partial",
    "Bark.Idm.C25_violated"
   ],
   "note": "Violated (C25_violated); holds while the plan brakes gently enough."
  },
  {
   "property": "C26",
   "status": "proved",
   "theorems": [
    "Bark.Dyn.C26_euler_single_track",
    "Bark.Dyn.C26_rk4_single_track",
    "Bark.Dyn.C26_steering_rate",
    "Bark.Dyn.C26_triple_integrator_violated",
    "Bark.Dyn.C26_straight",
    "Bark.Dyn.C26_turning",
    "Bark.Dyn.C26_steering_rate_motion",
    "Bark.Dyn.C26_euler_distance"
   ],
   "note": "As stated. Time and velocity integration of the single-track models proved; violated by the triple integrator (C26_triple_integrator_violated)."
  },
  {
   "property": "C27",
   "status": "proved",
   "theorems": [
    "Bark.Dyn.C27_steering_saturated",
    "Bark.Dyn.C27_unlimited_violated"
   ],
   "note": "As stated. Steering with limiting proved saturated; without the limit flag it is unbounded (C27_unlimited_violated)."
  },
  {
   "property": "C28",
   "status": "proved",
   "theorems": [
    "Bark.Ln.C28_points",
    "Bark.Ln.C28_table",
    "Bark.Ln.C28_constructed",
    "Bark.Ln.C28_table_shape",
    "Bark.Ln.C28_reverse_violated",
    "Bark.Ln.C28_translate_violated"
   ],
   "note": "As stated. Beyond the stated precondition: Every operation but Reverse and Translate rebuilds the table; those two violate the claim (C28_reverse_violated, C28_translate_violated)."
  },
  {
   "property": "C29",
   "status": "proved",
   "theorems": [
    "Bark.Ln.C29_point_at_s",
    "Bark.Ln.C29_degenerate",
    "Bark.Ln.C29_lipschitz"
   ],
   "note": ""
  },
  {
   "property": "C30",
   "status": "proved",
   "theorems": [
    "Bark.Goal.C30_nearest_queries",
    "Bark.Ln.C30_nearest_point",
    "Bark.Ln.C30_duplicate_violated",
    "Bark.Ln.C30_degenerate"
   ],
   "note": "As stated. Beyond the stated precondition: Proved for lines without coinciding neighbours; NaN next to a duplicated point (C30_duplicate_violated)."
  },
  {
   "property": "C31",
   "status": "proved",
   "theorems": [
    "Bark.Angle.C31_norm0To2PI",
    "Bark.Angle.C31_normToPI",
    "Bark.Angle.C31_signed_difference",
    "Bark.Angle.C31_antisymmetric",
    "Bark.Angle.C31_float_error",
    "Bark.Angle.C31_angleDiff_violated",
    "Bark.Angle.C31_angleDiff"
   ],
   "note": "As stated. Beyond the stated precondition: Normalisation and signed difference proved for all reals; AngleDiff is not wrapped (C31_angleDiff_violated)."
  },
  {
   "property": "C32",
   "status": "proved",
   "theorems": [
    "Bark.RG.C32_reference_lane",
    "Bark.RG.C32_generation_succeeds",
    "Bark.RG.C32_inner_neighbor",
    "Bark.RG.C32_outer_neighbor",
    "Bark.RG.C32_inverse",
    "Bark.RG.C32_left_right",
    "Bark.RG.C32_boundaries",
    "Bark.RG.C32_all_lanes",
    "Bark.RG.C32_same_road"
   ],
   "note": ""
  },
  {
   "property": "C33",
   "status": "proved",
   "theorems": [
    "Bark.RG.C33_contract_satisfiable",
    "Bark.RG.C33_find_path",
    "Bark.RG.C33_drivable_path",
    "Bark.RG.C33_road_path"
   ],
   "note": ""
  },
  {
   "property": "C34",
   "status": "partial",
   "theorems": [
    "Bark.RG.C34_connected_witness",
    "Bark.RG.C34_violated"
   ],
   "note": "Violated for every map: the overload by start and end road never yields a corridor (C34_violated); C34_connected_witness shows connected existing roads."
  },
  {
   "property": "C35",
   "status": "proved",
   "theorems": [
    "Bark.Cor.C35_every_lane",
    "Bark.Cor.C35_list",
    "Bark.Cor.C35_corridor_is_chain",
    "Bark.Cor.C35_contains_followers",
    "Bark.Cor.C35_terminates_iff",
    "Bark.Cor.C35_cycle_diverges",
    "Bark.Cor.C35_links_complete",
    "Bark.Cor.C35_roads_valid",
    "Bark.Cor.C35_next_lane",
    "Bark.Cor.C35_route_terminates",
    "Bark.Cor.C35_simple_route_terminates",
    "Bark.Cor.C35_return_diverges",
    "Bark.Cor.C35_partition_partial",
    "Bark.Cor.C35_merge_violated",
    "Bark.Cor.C35_order_violated",
    "Bark.Cor.C35_zero_length_violated"
   ],
   "note": "As stated. Coverage, chains, uniqueness of the list, termination (iff) and the links are proved; the partition holds only without merges and with increasing road ids (C35_partition_partial; C35_merge_violated, C35_order_violated, C35_zero_length_violated, C35_return_diverges are the counterexamples)."
  },
  {
   "property": "C36",
   "status": "proved",
   "theorems": [
    "Bark.PV.C36_line",
    "Bark.PV.C36_spiral",
    "Bark.PV.C36_arc",
    "Bark.PV.C36_arc_length_violated",
    "Bark.PV.C36_increment_diverges",
    "Bark.PV.C36_offset"
   ],
   "note": "As stated. Beyond the stated precondition: Sampling proved for lines, spirals and arcs; the length after AddArc is wrong (C36_arc_length_violated), non-positive increments do not terminate (C36_increment_diverges)."
  },
  {
   "property": "C37",
   "status": "proved",
   "theorems": [
    "Bark.Par.C37_histories_total",
    "Bark.Par.C37_get",
    "Bark.Par.C37_split",
    "Bark.Par.C37_trailing_colon"
   ],
   "note": "Proved for every history and handle (C37_get, C37_split for child names not ending in a colon); C37_trailing_colon proves that names ending in a colon break the equivalence of split and joined access."
  },
  {
   "property": "C38",
   "status": "proved",
   "theorems": [
    "Bark.Par.C38_contents",
    "Bark.Par.C38_roundtrip",
    "Bark.Par.C38_trailing_colon",
    "Bark.Par.C38_nodup"
   ],
   "note": "Round trip, exact contents and absence of duplicates for every history whose child names do not end in a colon; C38_trailing_colon proves the failure otherwise."
  },
  {
   "property": "C39",
   "status": "proved",
   "theorems": [
    "Bark.Goal.C39_in_order",
    "Bark.Goal.C39_progress",
    "Bark.Goal.C39_empty",
    "Bark.Goal.C39_next",
    "Bark.Goal.C39_simple_parts"
   ],
   "note": ""
  },
  {
   "property": "C40",
   "status": "proved",
   "theorems": [
    "Bark.Eval.C40_agents",
    "Bark.Eval.C40_ego",
    "Bark.Eval.C40_ego_few",
    "Bark.Eval.C40_ego_violated"
   ],
   "note": "As stated. Beyond the stated precondition: agents evaluator proved exact; ego evaluator exact for at most four agents, violated in general (C40_ego_violated)"
  },
  {
   "property": "C41",
   "status": "proved",
   "theorems": [
    "Bark.Eval.C41_steps",
    "Bark.Eval.C41_number_of_agents",
    "Bark.Eval.C41_number_mono",
    "Bark.Eval.C41_mean",
    "Bark.Eval.C41_violations",
    "Bark.Eval.C41_violations_throw"
   ],
   "note": "As stated. counts and means proved over all histories; a safe-distance evaluator throws once its agent is gone (C41_violations_throw)"
  },
  {
   "property": "C42",
   "status": "proved",
   "theorems": [
    "Bark.Eval.C42_goal_all",
    "Bark.Eval.C42_goal_one",
    "Bark.Eval.C42_expired",
    "Bark.Eval.C42_drivable_all",
    "Bark.Eval.C42_drivable_one",
    "Bark.Eval.C42_distance_unknown"
   ],
   "note": "also drivable area; distance to goal of an unknown agent is undefined behaviour (C42_distance_unknown)"
  },
  {
   "property": "C43",
   "status": "proved",
   "theorems": [
    "Bark.Ltl.C43_monitors",
    "Bark.Ltl.C43_one_monitor",
    "Bark.Ltl.C43_safety",
    "Bark.Ltl.C43_never_decreases",
    "Bark.Ltl.C43_global",
    "Bark.Ltl.C43_return_unmonitored",
    "Bark.Ltl.C43_return_violated"
   ],
   "note": "As stated. Beyond the stated precondition: count exact and monotone; monitors characterised for every history; one monitor per present tuple holds if nobody returns, violated otherwise (C43_return_violated, C43_return_unmonitored). The rule-monitor library is not in the repository: its contract is an explicit hypothesis (LtlSpec.MakeContract), shown satisfiable by makeOne."
  },
  {
   "property": "C44",
   "status": "proved",
   "theorems": [
    "Bark.SafeDist.C44_overlooked_formula",
    "Bark.SafeDist.C44_acceptance",
    "Bark.SafeDist.C44_sound",
    "Bark.SafeDist.C44_sound_hard_front",
    "Bark.SafeDist.C44_complete",
    "Bark.SafeDist.C44_violated",
    "Bark.SafeDist.C44_negative_gap_violated"
   ],
   "note": "As stated. Beyond the stated precondition: sound unless the front brakes less hard, is slower and stops later (C44_sound), exact otherwise (C44_complete); violated there (C44_violated) because one stopping time is divided by the wrong deceleration; negative gaps always accepted (C44_negative_gap_violated)"
  },
  {
   "property": "C45",
   "status": "proved",
   "theorems": [
    "Bark.LaneChange.C45_change",
    "Bark.LaneChange.C45_keep",
    "Bark.LaneChange.C45_front_gap",
    "Bark.LaneChange.C45_target",
    "Bark.LaneChange.C45_rear_violated",
    "Bark.LaneChange.C45_null_corridor"
   ],
   "note": "As stated. Beyond the stated precondition: filters, argmax, front gap to every vehicle proved down to the front/rear search of the world; vehicles behind: violated (C45_rear_violated, cause C15); null corridor for a minimal front gap of 0 (C45_null_corridor)"
  },
  {
   "property": "C46",
   "status": "proved",
   "theorems": [
    "Bark.LaneChange.C46_change",
    "Bark.LaneChange.C46_safety",
    "Bark.LaneChange.C46_keep",
    "Bark.LaneChange.C46_violated"
   ],
   "note": "As stated. Beyond the stated precondition: safety, incentive and best gain proved unless an earlier target lane is pending, which is never re-checked (C46_violated)"
  },
  {
   "property": "C47",
   "status": "proved",
   "theorems": [
    "Bark.Stoch.C47_intent_timeline",
    "Bark.Stoch.C47_mechanism_off"
   ],
   "note": ""
  },
  {
   "property": "C48",
   "status": "proved",
   "theorems": [
    "Bark.Pred.C48_settings",
    "Bark.Pred.C48_inactive_specific_violated",
    "Bark.Pred.C48_ego_specific_violated",
    "Bark.Pred.C48_no_ego_model",
    "Bark.Pred.C48_unknown_agent"
   ],
   "note": "As stated. Proved as a full characterisation (C48_settings); violated for inactive and ego agents in the specific list, undefined for unknown agents or a missing ego model."
  },
  {
   "property": "C49",
   "status": "proved",
   "theorems": [
    "Bark.Obs.C49_not_listed",
    "Bark.Obs.C49_observe",
    "Bark.Obs.C49_longitudinal",
    "Bark.Obs.C49_lateral_violated",
    "Bark.Obs.C49_default_dimension",
    "Bark.Obs.C49_index_stale",
    "Bark.Obs.C49_observations_separate"
   ],
   "note": "As stated. Beyond the stated precondition: Violated: lateral deviation is not orthogonal to the heading, default dimension 3 is out of range, spatial index stays stale; the remaining parts are proved."
  },
  {
   "property": "C50",
   "status": "proved",
   "theorems": [
    "Bark.Mac.C50_unchecked",
    "Bark.Mac.C50_unknown_action",
    "Bark.Mac.C50_first_call",
    "Bark.Mac.C50_reported_violated",
    "Bark.Mac.C50_number_violated",
    "Bark.Mac.C50_frozen",
    "Bark.Mac.C50_stale_violated"
   ],
   "note": "As stated. Beyond the stated precondition: Proved without validity checking; violated with it (reported action, stale validity, number of primitives)."
  },
  {
   "property": "C51",
   "status": "proved",
   "theorems": [
    "Bark.Act.C51_continuous",
    "Bark.Act.C51_triple_integrator_violated",
    "Bark.Act.C51_dynamic",
    "Bark.Act.C51_dynamic_time_violated",
    "Bark.Act.C51_constant_acceleration",
    "Bark.Act.C51_single_point_violated"
   ],
   "note": "As stated. Proved for all three behaviours under their usual conditions; violated for the triple integrator, for an ego state ahead of the world time, and for a single time point."
  },
  {
   "property": "C52",
   "status": "proved",
   "theorems": [
    "Bark.Ids.C52_unique",
    "Bark.Ids.C52_clone_keeps_id",
    "Bark.Ids.C52_fresh",
    "Bark.Ids.C52_unpickled_clash",
    "Bark.Ids.C52_set_id_clash",
    "Bark.Ids.C52_wraps",
    "Bark.Ids.C52_all_agents_stored",
    "Bark.Ids.C52_clash_replaces",
    "Bark.Ids.C52_objects_separate"
   ],
   "note": "As stated. Ids handed out by the counter proved unique below 2^32 agents and clone/pickle keeping them; violated across unpickling, SetAgentId and the 32-bit wrap (C52_unpickled_clash, C52_set_id_clash, C52_wraps)."
  },
  {
   "property": "C53",
   "status": "proved",
   "theorems": [
    "Bark.Cor.C53_nearest",
    "Bark.Cor.C53_index"
   ],
   "note": ""
  },
  {
   "property": "C54",
   "status": "proved",
   "theorems": [
    "Bark.Py.C54_goal",
    "Bark.Py.C54_dynamic",
    "Bark.Py.C54_primitive",
    "Bark.Py.C54_label",
    "Bark.Py.C54_behavior",
    "Bark.Py.C54_null",
    "Bark.Py.C54_null_violated",
    "Bark.Py.C54_python_class_violated",
    "Bark.Py.C54_wrong_name"
   ],
   "note": "As stated. Beyond the stated precondition: Tables proved faithful in both directions (all five conversions); violated for null goals, dynamic models, primitives and labels (C54_null_violated) and for Python-written behaviours, whose instance is lost (C54_python_class_violated)."
  },
  {
   "property": "C55",
   "status": "proved",
   "theorems": [
    "Bark.Rss.C55_nominal",
    "Bark.Rss.C55_safety",
    "Bark.Rss.C55_no_hysteresis",
    "Bark.Rss.C55_history",
    "Bark.Rss.C55_first_call",
    "Bark.Rss.C55_empty_rating_violated",
    "Bark.Rss.C55_limits_replaced_violated"
   ],
   "note": "As stated. Beyond the stated precondition: Switching logic and first call proved; an empty rating is undefined (C55_empty_rating_violated) and configured limits are replaced, not intersected (C55_limits_replaced_violated)."
  },
  {
   "property": "C56",
   "status": "proved",
   "theorems": [
    "Bark.ShapeExt.C56_front_rear_exact",
    "Bark.ShapeExt.C56_sides",
    "Bark.ShapeExt.C56_sides_too_small",
    "Bark.ShapeExt.C56_sides_violated"
   ],
   "note": "As stated. Beyond the stated precondition: Extensions along the road proved exact for all orientations; left/right violated for vehicles turned left (C56_sides_violated)."
  },
  {
   "property": "C57",
   "status": "partial",
   "theorems": [
    "Bark.Idm.C57_free_road_constant",
    "Bark.Idm.C57_free_road_velocity",
    "Bark.Idm.C57_violated"
   ],
   "note": "Violated (C57_violated); C57_free_road_constant states what the code does."
  },
  {
   "property": "C58",
   "status": "proved",
   "theorems": [
    "Bark.Dyn.C58_euler_heading",
    "Bark.Dyn.C58_rk4_violated"
   ],
   "note": "As stated. Euler proved; RK4 violated."
  },
  {
   "property": "C59",
   "status": "proved",
   "theorems": [
    "Bark.Dyn.C59_lateral_acceleration_limited"
   ],
   "note": ""
  },
  {
   "property": "C60",
   "status": "proved",
   "theorems": [
    "Bark.Dyn.C60_lane_tracking",
    "Bark.Dyn.C60_max_velocity_violated"
   ],
   "note": "As stated. Times and lower bound proved; upper velocity bound violated."
  },
  {
   "property": "C61",
   "status": "proved",
   "theorems": [
    "Bark.Ln.C61_tangent",
    "Bark.Ln.C61_degenerate",
    "Bark.Ln.C61_duplicate_violated"
   ],
   "note": "As stated. Beyond the stated precondition: Proved for lines without coinciding neighbours; violated next to duplicates (C61_duplicate_violated)."
  },
  {
   "property": "C62",
   "status": "proved",
   "theorems": [
    "Bark.Ln.C62_sub_line"
   ],
   "note": ""
  },
  {
   "property": "C63",
   "status": "proved",
   "theorems": [
    "Bark.Props.C63_world_at_time"
   ],
   "note": ""
  },
  {
   "property": "C64",
   "status": "proved",
   "theorems": [
    "Bark.Ln.C64_rotate",
    "Bark.Ln.C64_translate",
    "Bark.Ln.C64_remove_duplicates"
   ],
   "note": ""
  },
  {
   "property": "C65",
   "status": "proved",
   "theorems": [
    "Bark.RG.C65_all_paths",
    "Bark.RG.C65_generated_only_isolated"
   ],
   "note": "As stated. Proved for arbitrary graphs (C65_all_paths); on generated graphs only isolated lanes are sources/sinks (C65_generated_only_isolated)."
  },
  {
   "property": "C66",
   "status": "partial",
   "theorems": [
    "Bark.RG.C66_large_id_violated",
    "Bark.RG.C66_successors_partial",
    "Bark.RG.C66_links_sound",
    "Bark.RG.C66_next_lane_partial",
    "Bark.RG.C66_next_lane_undefined",
    "Bark.RG.C66_successor_is_predecessor"
   ],
   "note": "Soundness and symmetry of links proved; missing links for large ids are a witness (C66_large_id_violated)."
  },
  {
   "property": "C67",
   "status": "proved",
   "theorems": [
    "Bark.RG.C67_all_neighbors",
    "Bark.RG.C67_reference_lane_throws"
   ],
   "note": ""
  },
  {
   "property": "C68",
   "status": "partial",
   "theorems": [
    "Bark.RG.C68_unknown_lane_violated",
    "Bark.RG.C68_lane_lookup"
   ],
   "note": "Lane lookup proved; neighbour/successor queries violated (C68_unknown_lane_violated)."
  },
  {
   "property": "C69",
   "status": "proved",
   "theorems": [
    "Bark.Cor.C69_left_right",
    "Bark.Cor.C69_outside",
    "Bark.Cor.C69_border_violated"
   ],
   "note": "As stated. Proved inside lanes; violated on corridor borders (C69_border_violated)."
  },
  {
   "property": "C70",
   "status": "proved",
   "theorems": [
    "Bark.Par.C70_eq_sound",
    "Bark.Par.C70_eq_complete"
   ],
   "note": ""
  },
  {
   "property": "C71",
   "status": "proved",
   "theorems": [
    "Bark.Par.C71_distribution"
   ],
   "note": ""
  },
  {
   "property": "C72",
   "status": "proved",
   "theorems": [
    "Bark.PV.C72_arc_points",
    "Bark.PV.C72_zero_curvature"
   ],
   "note": ""
  },
  {
   "property": "C73",
   "status": "partial",
   "theorems": [
    "Bark.Goal.C73_frenet",
    "Bark.Goal.C73_frenet_turns",
    "Bark.Goal.C73_state_limits_partial",
    "Bark.Goal.C73_state_limits_violated",
    "Bark.Goal.C73_frenet_outline"
   ],
   "note": "Frenet goal proved; plain state limits violate invariance under whole turns (witness for all limits and agents). float rounding of NormToPI taken as exact."
  },
  {
   "property": "C74",
   "status": "partial",
   "theorems": [
    "Bark.Goal.C74_repeatable_partial",
    "Bark.Goal.C74_repeatable_violated",
    "Bark.Goal.C74_add_after_success"
   ],
   "note": "simple goals and finished sequences proved; violation theorem for sequences"
  },
  {
   "property": "C75",
   "status": "partial",
   "theorems": [
    "Bark.Goal.C75_clone_partial",
    "Bark.Goal.C75_clone_violated"
   ],
   "note": "sequences of simple goals proved; violation theorem for nested sequences"
  },
  {
   "property": "C76",
   "status": "partial",
   "theorems": [
    "Bark.Goal.C76_shift_partial",
    "Bark.Goal.C76_shift_violated"
   ],
   "note": "exact offsets at ends and corners; violation at a corner"
  },
  {
   "property": "C77",
   "status": "proved",
   "theorems": [
    "Bark.Ln.C77_center_line"
   ],
   "note": ""
  },
  {
   "property": "C78",
   "status": "proved",
   "theorems": [
    "Bark.Ln.C78_signed_distance"
   ],
   "note": ""
  },
  {
   "property": "C79",
   "status": "proved",
   "theorems": [
    "Bark.Ln.C79_crossing",
    "Bark.Ln.C79_touching",
    "Bark.Ln.C79_concatenate",
    "Bark.Ln.C79_ring_violated",
    "Bark.Ln.C79_empty"
   ],
   "note": "As stated; boost intersection, self-intersection test and simplify are parameters. C79_ring_violated and C79_empty show what lies outside."
  },
  {
   "property": "C80",
   "status": "partial",
   "theorems": [
    "Bark.Eval.C80_evaluate",
    "Bark.Eval.C80_register",
    "Bark.Eval.C80_clone_violated"
   ],
   "note": "one call and one result per name proved; clones share evaluators (C80_clone_violated)"
  },
  {
   "property": "C81",
   "status": "partial",
   "theorems": [
    "Bark.Eval.C81_static_safe_partial",
    "Bark.Eval.C81_violated"
   ],
   "note": "exact for the queried agents; violated beyond the 4 nearest (C81_violated)"
  },
  {
   "property": "C82",
   "status": "proved",
   "theorems": [
    "Bark.Ltl.C82_labels"
   ],
   "note": ""
  },
  {
   "property": "C83",
   "status": "partial",
   "theorems": [
    "Bark.SafeDist.C83_label",
    "Bark.SafeDist.C83_ego_front",
    "Bark.SafeDist.C83_ego_rear_partial",
    "Bark.SafeDist.C83_swapped_violated"
   ],
   "note": "label = conjunction over nearest agents; ego in front right; ego behind right only for equal decelerations, violated otherwise (C83_swapped_violated)"
  },
  {
   "property": "C84",
   "status": "partial",
   "theorems": [
    "Bark.SafeDist.C84_equal_reaction_partial",
    "Bark.SafeDist.C84_opposite",
    "Bark.SafeDist.C84_violated",
    "Bark.SafeDist.C84_other_vehicle_ignored"
   ],
   "note": "proved for equal reaction times and for opposite directions; violated otherwise (C84_violated); C84_other_vehicle_ignored"
  },
  {
   "property": "C85",
   "status": "partial",
   "theorems": [
    "Bark.SafeDist.C85_defaults_violated",
    "Bark.SafeDist.C85_sign_violated",
    "Bark.SafeDist.C85_configured_partial"
   ],
   "note": "violated by the defaults (C85_defaults_violated, C85_sign_violated); right with crossing on and equal negative decelerations (C85_configured_partial)"
  },
  {
   "property": "C86",
   "status": "partial",
   "theorems": [
    "Bark.LaneChange.C86_violated",
    "Bark.LaneChange.C86_no_loss_partial"
   ],
   "note": "holds if the own lane passes the conditions; violated otherwise (C86_violated)"
  },
  {
   "property": "C87",
   "status": "partial",
   "theorems": [
    "Bark.Inter.C87_brakes_only_for_right",
    "Bark.Inter.C87_finds_left",
    "Bark.Inter.C87_violated",
    "Bark.Inter.C87_termination"
   ],
   "note": "brakes only for vehicles from the right, looks only for vehicles from the left: never brakes with unchanged headings (C87_violated); termination"
  },
  {
   "property": "C88",
   "status": "partial",
   "theorems": [
    "Bark.Stoch.C88_fixed_independent_partial",
    "Bark.Stoch.C88_violated"
   ],
   "note": "Violated by shared distribution objects (C88_violated); holds for fixed values (C88_fixed_independent_partial)."
  },
  {
   "property": "C89",
   "status": "partial",
   "theorems": [
    "Bark.Stoch.C89_parameters_partial",
    "Bark.Stoch.C89_durations_violated"
   ],
   "note": "IDM parameters proved reproducible; violated for the yielding durations (C89_durations_violated)."
  },
  {
   "property": "C90",
   "status": "partial",
   "theorems": [
    "Bark.Stoch.C90_lockstep_violated",
    "Bark.Stoch.C90_reseed_aligns"
   ],
   "note": "Violated: parameters move in lockstep (C90_lockstep_violated), and ChangeSeed always brings this state about (C90_reseed_aligns)."
  },
  {
   "property": "C91",
   "status": "proved",
   "theorems": [
    "Bark.Stoch.C91_in_regions",
    "Bark.Stoch.C91_uniform_cdf",
    "Bark.Stoch.C91_fixed_cdf_violated"
   ],
   "note": "As stated. Beyond the stated precondition: Regions and uniform CDF proved; FixedValue violates the CDF (C91_fixed_cdf_violated)."
  },
  {
   "property": "C92",
   "status": "proved",
   "theorems": [
    "Bark.Pred.C92_predict_isolated",
    "Bark.Pred.C92_passed_model_violated"
   ],
   "note": "As stated. Beyond the stated precondition: World and agents proved untouched; violated for the ego model handed in (C92_passed_model_violated)."
  },
  {
   "property": "C93",
   "status": "proved",
   "theorems": [
    "Bark.Pred.C93_actions"
   ],
   "note": ""
  },
  {
   "property": "C94",
   "status": "proved",
   "theorems": [
    "Bark.Mac.C94_unchecked_independent",
    "Bark.Mac.C94_clone_violated"
   ],
   "note": "As stated. Beyond the stated precondition: Proved without validity checking; violated with it (C94_clone_violated)."
  },
  {
   "property": "C95",
   "status": "partial",
   "theorems": [
    "Bark.Mac.C95_equal_violated",
    "Bark.Mac.C95_equal_partial"
   ],
   "note": "Equality characterised exactly; violated for the parameters not compared (C95_equal_violated)."
  },
  {
   "property": "C96",
   "status": "proved",
   "theorems": [
    "Bark.Mac.C96_repeated_left"
   ],
   "note": ""
  },
  {
   "property": "C97",
   "status": "partial",
   "theorems": [
    "Bark.Rss.C97_expires",
    "Bark.Rss.C97_crash_after_leaving_violated",
    "Bark.Rss.C97_survives_partial",
    "Bark.Rss.C97_start_off_lane_violated",
    "Bark.Rss.C97_trace_violated"
   ],
   "note": "Violated: C97_crash_after_leaving_violated, C97_start_off_lane_violated; expiry step and the long-corridor case proved."
  },
  {
   "property": "C98",
   "status": "partial",
   "theorems": [
    "Bark.Rss.C98_own_record_partial",
    "Bark.Rss.C98_shared_models_violated",
    "Bark.Rss.C98_trace_violated"
   ],
   "note": "Violated: inner models shared (C98_shared_models_violated, C98_trace_violated); own record proved separate."
  },
  {
   "property": "C99",
   "status": "partial",
   "theorems": [
    "Bark.Rss.C99_lateral_acceleration",
    "Bark.Rss.C99_street_limits",
    "Bark.Rss.C99_vehicle_limits_partial",
    "Bark.Rss.C99_reversed_violated",
    "Bark.Rss.C99_bend_violated",
    "Bark.Rss.C99_road_x_violated"
   ],
   "note": "Conversion formula and street limits proved; vehicle limits proved for straight roads and headings along the road; violated on bends, reversed headings and road x."
  },
  {
   "property": "C100",
   "status": "partial",
   "theorems": [
    "Bark.Pickle.C100_config_partial",
    "Bark.Pickle.C100_inner_class_violated",
    "Bark.Pickle.C100_safety_params_violated",
    "Bark.Pickle.C100_response_violated",
    "Bark.Pickle.C100_progress_lost",
    "Bark.Pickle.C100_refused"
   ],
   "note": "Configuration kept for all plain classes and the default compositions (C100_config_partial); violated for other inner classes, inner parameters and RSS responses >= 2; planning progress is not stored."
  },
  {
   "property": "C101",
   "status": "proved",
   "theorems": [
    "Bark.Pickle.C101_restored",
    "Bark.Pickle.C101_simple",
    "Bark.Pickle.C101_unstarted",
    "Bark.Pickle.C101_progress_lost_violated"
   ],
   "note": "As stated. Beyond the stated precondition: Conditions and order kept (C101_restored), equal answers for unstarted goals; progress is lost (C101_progress_lost_violated)."
  },
  {
   "property": "C102",
   "status": "partial",
   "theorems": [
    "Bark.Pickle.C102_restored_partial",
    "Bark.Pickle.C102_null_violated",
    "Bark.Pickle.C102_history",
    "Bark.Pickle.C102_limit_violated"
   ],
   "note": "Id, shape, history, times, roads and converted parts kept; violated: history limit becomes 30, agents without goal are undefined; corridor, execution trajectory and sensed world are lost."
  },
  {
   "property": "C103",
   "status": "proved",
   "theorems": [
    "Bark.Pickle.C103_restored",
    "Bark.Pickle.C103_violated"
   ],
   "note": "As stated. Beyond the stated precondition: Restored exactly except for false constants, differing safe-distance thresholds and succeeding-agent labels (C103_violated)."
  },
  {
   "property": "C104",
   "status": "proved",
   "theorems": [
    "Bark.Labels.C104_meaning",
    "Bark.Labels.C104_exclusive",
    "Bark.Labels.C104_dual",
    "Bark.Labels.C104_dual_violated",
    "Bark.Labels.C104_beyond",
    "Bark.Labels.C104_ego_beyond"
   ],
   "note": "As stated. Beyond the stated precondition: Meaning and exclusion proved for all; symmetry proved on a common lane corridor, violated across lanes of a bend (C104_dual_violated)."
  },
  {
   "property": "C105",
   "status": "proved",
   "theorems": [
    "Bark.Labels.C105_labels",
    "Bark.Labels.C105_dense",
    "Bark.Labels.C105_dense_violated"
   ],
   "note": "As stated. Beyond the stated precondition: Per-agent labels proved; the dense traffic count is characterised and violates the claim for agents not yet active (C105_dense_violated)."
  },
  {
   "property": "C106",
   "status": "partial",
   "theorems": [
    "Bark.Labels.C106_on_road",
    "Bark.Labels.C106_side_partial",
    "Bark.Labels.C106_outermost",
    "Bark.Labels.C106_off_road_violated",
    "Bark.Labels.C106_lane_end_partial",
    "Bark.Labels.C106_lane_end_violated",
    "Bark.Labels.C106_route_violated"
   ],
   "note": "On-road and outermost labels proved; sides proved for a common route, lane end for thresholds above the front extent; violated otherwise."
  },
  {
   "property": "C107",
   "status": "partial",
   "theorems": [
    "Bark.Labels.C107_accelerate_partial",
    "Bark.Labels.C107_accelerate_violated",
    "Bark.Labels.C107_lane_change_partial",
    "Bark.Labels.C107_lane_change_violated",
    "Bark.Labels.C107_speed"
   ],
   "note": "Speeds proved; acceleration proved from the third state on; lane change proved on straight roads strictly inside the lane; violated in the first step and on a boundary."
  },
  {
   "property": "C108",
   "status": "partial",
   "theorems": [
    "Bark.Fren.C108_position_partial",
    "Bark.Fren.C108_beside",
    "Bark.Fren.C108_rounding",
    "Bark.Fren.C108_ends_violated"
   ],
   "note": "Characterised for all points (C108_position_partial); signed distance beside segments, independent of float rounding; violated on the extensions (C108_ends_violated)."
  },
  {
   "property": "C109",
   "status": "proved",
   "theorems": [
    "Bark.Fren.C109_round_trip",
    "Bark.Fren.C109_beside",
    "Bark.Fren.C109_ends_violated"
   ],
   "note": "As stated. Beyond the stated precondition: Exact characterisation of what is restored (C109_round_trip, C109_beside); violated beyond the ends."
  },
  {
   "property": "C110",
   "status": "proved",
   "theorems": [
    "Bark.Fren.C110_round_trip",
    "Bark.Fren.C110_straight",
    "Bark.Fren.C110_bend_violated"
   ],
   "note": "As stated. Proved when the foot point is the unique nearest point and for all straight lines; violated inside bends (C110_bend_violated)."
  },
  {
   "property": "C111",
   "status": "partial",
   "theorems": [
    "Bark.MapIf.C111_history_partial",
    "Bark.MapIf.C111_same_again",
    "Bark.MapIf.C111_new_map_violated",
    "Bark.MapIf.C111_junction_setting_violated",
    "Bark.MapIf.C111_collision_violated"
   ],
   "note": "Exact cache contents for all request histories on a fixed map with a collision-free hash (C111_history_partial); violated after a new map or setting, and by collisions for every finite hash (C111_collision_violated)."
  },
  {
   "property": "C112",
   "status": "partial",
   "theorems": [
    "Bark.MapIf.C112_route",
    "Bark.MapIf.C112_agent_violated",
    "Bark.MapIf.C112_agent_partial",
    "Bark.MapIf.C112_contracts_satisfiable",
    "Bark.MapIf.C112_road_twice_violated"
   ],
   "note": "Route characterised completely under contracts of the spatial index and of Dijkstra, which are shown satisfiable; violated for agents without a route to the goal and at lane changes."
  },
  {
   "property": "C113",
   "status": "proved",
   "theorems": [
    "Bark.MapIf.C113_lane",
    "Bark.MapIf.C113_small_map",
    "Bark.MapIf.C113_off_lane_violated",
    "Bark.MapIf.C113_current",
    "Bark.MapIf.C113_bend_violated"
   ],
   "note": "As stated. Beyond the stated precondition: Sound; complete on maps of up to 20 lanes and otherwise up to 20 nearer chords; violated in bends and off the lanes. Chord distance and polygon tests are parameters."
  },
  {
   "property": "C114",
   "status": "proved",
   "theorems": [
    "Bark.MapIf.C114_load",
    "Bark.MapIf.C114_failed_load_violated",
    "Bark.MapIf.C114_table_sticks_violated",
    "Bark.MapIf.C114_setters",
    "Bark.MapIf.C114_table"
   ],
   "note": "As stated. Beyond the stated precondition: Loading characterised for maps whose graph can be generated; violated for failing maps and after a table was loaded."
  },
  {
   "property": "C115",
   "status": "proved",
   "theorems": [
    "Bark.Bench.C115_every_combination_once",
    "Bark.Bench.C115_round_robin",
    "Bark.Bench.C115_empty_generator"
   ],
   "note": ""
  },
  {
   "property": "C116",
   "status": "proved",
   "theorems": [
    "Bark.Bench.C116_first_terminal_world",
    "Bark.Bench.C116_unbounded",
    "Bark.Bench.C116_world_exception_violated",
    "Bark.Bench.C116_unpacked"
   ],
   "note": "As stated. Beyond the stated precondition: Characterised completely (both directions, any number of steps); violated for exceptions while the world is created (C116_world_exception_violated)."
  },
  {
   "property": "C117",
   "status": "proved",
   "theorems": [
    "Bark.Bench.C117_one_row_per_config",
    "Bark.Bench.C117_exception_aborts"
   ],
   "note": ""
  },
  {
   "property": "C118",
   "status": "proved",
   "theorems": [
    "Bark.Bench.C118_durable",
    "Bark.Bench.C118_resume",
    "Bark.Bench.C118_resume_early",
    "Bark.Bench.C118_resume_violated",
    "Bark.Bench.C118_second_resume_violated",
    "Bark.Bench.C118_extend_states",
    "Bark.Bench.C118_crash_in_extend_violated",
    "Bark.Bench.C118_rerun_violated"
   ],
   "note": "As stated. Beyond the stated precondition: Durability between configs and resuming without the temporary file are proved; violated in the four ways of the C118_*_violated theorems."
  },
  {
   "property": "C119",
   "status": "proved",
   "theorems": [
    "Bark.Bench.C119_each_config_to_one_actor",
    "Bark.Bench.C119_no_actor_violated",
    "Bark.Bench.C119_results_together"
   ],
   "note": "As stated. Proved with enough CPUs for one actor; violated otherwise (C119_no_actor_violated)."
  },
  {
   "property": "C120",
   "status": "partial",
   "theorems": [
    "Bark.Bench.C120_load_partial",
    "Bark.Bench.C120_save_partial",
    "Bark.Bench.C120_rename",
    "Bark.Bench.C120_large_violated",
    "Bark.Bench.C120_reload_violated",
    "Bark.Bench.C120_extend",
    "Bark.Bench.C120_dict_violated",
    "Bark.Bench.C120_last_member_wins",
    "Bark.Bench.C120_members_kept"
   ],
   "note": "Proved for configs that fit into the members; violated for larger ones, for repeated loading and for the dictionaries of extended results."
  },
  {
   "property": "C121",
   "status": "proved",
   "theorems": [
    "Bark.Bench.C121_selection",
    "Bark.Bench.C121_single_specific_violated",
    "Bark.Bench.C121_criteria",
    "Bark.Bench.C121_criteria_by_set",
    "Bark.Bench.C121_no_criteria_violated"
   ],
   "note": "As stated. Beyond the stated precondition: Proved for two or more set-specific dictionaries and for criteria; violated for a single one and for no criteria."
  },
  {
   "property": "C122",
   "status": "proved",
   "theorems": [
    "Bark.PS.C122_present",
    "Bark.PS.C122_absent",
    "Bark.PS.C122_stable",
    "Bark.PS.C122_prefix_violated",
    "Bark.PS.C122_section",
    "Bark.PS.C122_cases",
    "Bark.PS.C122_raises_iff",
    "Bark.PS.C122_violated"
   ],
   "note": "As stated. Beyond the stated precondition: Proved whenever no proper prefix of the name is a parameter; otherwise violated (C122_prefix_violated, C122_violated)."
  },
  {
   "property": "C123",
   "status": "proved",
   "theorems": [
    "Bark.PS.C123_blank_violated",
    "Bark.PS.C123_colons_violated",
    "Bark.PS.C123_item_violated",
    "Bark.PS.C123_tuple_violated",
    "Bark.PS.C123_empty_list_violated",
    "Bark.PS.C123_set",
    "Bark.PS.C123_set_dict",
    "Bark.PS.C123_set_list",
    "Bark.PS.C123_read_back",
    "Bark.PS.C123_blocked_violated",
    "Bark.PS.C123_lists"
   ],
   "note": "As stated. Beyond the stated precondition: Proved for plain keys with child servers or lists of servers on the way; violated in the ways of the C123_*_violated theorems."
  },
  {
   "property": "C124",
   "status": "proved",
   "theorems": [
    "Bark.PS.C124_clone",
    "Bark.PS.C124_loaded",
    "Bark.PS.C124_load_plain",
    "Bark.PS.C124_empty_child_violated",
    "Bark.PS.C124_keys_violated",
    "Bark.PS.C124_raises_violated"
   ],
   "note": "As stated. Beyond the stated precondition: Proved for keys that read as themselves and no empty child, and for everything loaded; violated otherwise."
  },
  {
   "property": "C125",
   "status": "proved",
   "theorems": [
    "Bark.PS.C125_violated",
    "Bark.PS.C125_append",
    "Bark.PS.C125_overwrite"
   ],
   "note": "As stated. Beyond the stated precondition: Proved for keys without separator; violated otherwise (C125_violated). Servers are values: a child shared by both servers after appending is not modelled."
  },
  {
   "property": "C126",
   "status": "proved",
   "theorems": [
    "Bark.PS.C126_one_sided",
    "Bark.PS.C126_lists_violated",
    "Bark.PS.C126_compare"
   ],
   "note": "As stated. Beyond the stated precondition: Proved for keys without separator, with arbitrary equality of plain values and of lists; violated for lists of servers."
  },
  {
   "property": "C127",
   "status": "proved",
   "theorems": [
    "Bark.PS.C127_violated",
    "Bark.PS.C127_name_violated",
    "Bark.PS.C127_empty_key_violated",
    "Bark.PS.C127_condensed",
    "Bark.PS.C127_unique",
    "Bark.PS.C127_find"
   ],
   "note": "As stated. Beyond the stated precondition: Proved as stated for the types C++ knows; violated in the ways of the C127_*_violated theorems."
  },
  {
   "property": "C128",
   "status": "proved",
   "theorems": [
    "Bark.PS.C128_add_child_violated",
    "Bark.PS.C128_add_child",
    "Bark.PS.C128_item",
    "Bark.PS.C128_item_default",
    "Bark.PS.C128_del",
    "Bark.PS.C128_len",
    "Bark.PS.C128_distinct"
   ],
   "note": "As stated. Beyond the stated precondition: Proved for plain keys with no parameter at the name; violated for AddChild on a parameter."
  },
  {
   "property": "C129",
   "status": "proved",
   "theorems": [
    "Bark.Gen.C129_agents",
    "Bark.Gen.C129_succeeds"
   ],
   "note": ""
  },
  {
   "property": "C130",
   "status": "proved",
   "theorems": [
    "Bark.Gen.C130_placed",
    "Bark.Gen.C130_no_overlap",
    "Bark.Gen.C130_terminates",
    "Bark.Gen.C130_diverges_violated",
    "Bark.Gen.C130_velocity_unit_violated"
   ],
   "note": "As stated. Proved for every sequence of samples in [0,1) and ordered ranges; violated for negative distances (divergence) and the documented unit."
  },
  {
   "property": "C131",
   "status": "partial",
   "theorems": [
    "Bark.Gen.C131_reported_position",
    "Bark.Gen.C131_all_lanes_off_by_one",
    "Bark.Gen.C131_goals",
    "Bark.Gen.C131_all_lanes_violated"
   ],
   "note": "Positions proved for configured lanes, goals in general; violated for vehicles on all lanes."
  },
  {
   "property": "C132",
   "status": "partial",
   "theorems": [
    "Bark.Gen.C132_nobody",
    "Bark.Gen.C132_random",
    "Bark.Gen.C132_ids",
    "Bark.Gen.C132_positioning_partial",
    "Bark.Gen.C132_positioning_index",
    "Bark.Gen.C132_positioning_violated"
   ],
   "note": "Proved for the readers nobody, random and ids; the positioning reader is violated (proved only if all agents are on the lane)."
  },
  {
   "property": "C133",
   "status": "proved",
   "theorems": [
    "Bark.Gen.C133_resolved",
    "Bark.Gen.C133_raises_inside",
    "Bark.Gen.C133_raises_weights",
    "Bark.Gen.C133_succeeds",
    "Bark.Gen.C133_weights",
    "Bark.Gen.C133_not_applied_violated",
    "Bark.Gen.C133_decided"
   ],
   "note": "As stated. The resolution itself is proved; it is never called by the generation (C133_not_applied_violated)."
  },
  {
   "property": "C134",
   "status": "proved",
   "theorems": [
    "Bark.Data.C134_trajectory",
    "Bark.Data.C134_trajectory_open",
    "Bark.Data.C134_times",
    "Bark.Data.C134_init"
   ],
   "note": ""
  },
  {
   "property": "C135",
   "status": "proved",
   "theorems": [
    "Bark.Data.C135_rounded",
    "Bark.Data.C135_used",
    "Bark.Data.C135_tracks",
    "Bark.Data.C135_decompose",
    "Bark.Data.C135_mutual"
   ],
   "note": ""
  },
  {
   "property": "C136",
   "status": "partial",
   "theorems": [
    "Bark.Data.C136_scenario",
    "Bark.Data.C136_file",
    "Bark.Data.C136_partial",
    "Bark.Data.C136_excluded_violated",
    "Bark.Data.C136_files",
    "Bark.Data.C136_number_violated",
    "Bark.Data.C136_succeeds",
    "Bark.Data.C136_short_track_violated"
   ],
   "note": "Proved without excluded tracks and per file; violated: an excluded track ends the loop, the number is per file, a short track fails the whole file."
  },
  {
   "property": "C137",
   "status": "partial",
   "theorems": [
    "Bark.Data.C137_replay_partial",
    "Bark.Data.C137_ego_twice_violated",
    "Bark.Data.C137_default_end_violated",
    "Bark.Data.C137_raises"
   ],
   "note": "Proved if the ego is not among the chosen tracks; violated otherwise, and for the default end."
  },
  {
   "property": "C138",
   "status": "partial",
   "theorems": [
    "Bark.Win.C138_first_partial",
    "Bark.Win.C138_next_partial",
    "Bark.Win.C138_first_window_violated",
    "Bark.Win.C138_further_lanes_violated",
    "Bark.Win.C138_empty_window_violated",
    "Bark.Win.C138_terminates",
    "Bark.Win.C138_diverges_violated",
    "Bark.Win.C138_raises",
    "Bark.Win.C138_between_lanes_violated"
   ],
   "note": "Proved which vehicles and windows are found and that the search ends for positive steps; violated: first window skipped, further lanes dropped, empty selection, step 0, vehicle between lanes."
  },
  {
   "property": "C139",
   "status": "partial",
   "theorems": [
    "Bark.RssEval.C139_verdict",
    "Bark.RssEval.C139_verdict_world",
    "Bark.RssEval.C139_missing_agent_violated",
    "Bark.RssEval.C139_no_agent_violated",
    "Bark.RssEval.C139_missing_agent_pairwise_violated",
    "Bark.RssEval.C139_pairwise",
    "Bark.RssEval.C139_pairwise_none",
    "Bark.RssEval.C139_pairwise_world",
    "Bark.RssEval.C139_agree_partial",
    "Bark.RssEval.C139_safe_pairwise",
    "Bark.RssEval.C139_agree_violated",
    "Bark.RssEval.C139_failed_check_violated",
    "Bark.RssEval.C139_reported",
    "Bark.RssEval.C139_stale_violated"
   ],
   "note": "Verdict, pairwise entries and the exact history of what is reported are proved; violated: stale reports, failed check, missing agent, several situations with one agent. The RSS library is a parameter."
  },
  {
   "property": "C140",
   "status": "proved",
   "theorems": [
    "Bark.RssEval.C140_considered",
    "Bark.RssEval.C140_covers",
    "Bark.RssEval.C140_bound_violated",
    "Bark.RssEval.C140_fallback",
    "Bark.RssEval.C140_fallback_stop",
    "Bark.RssEval.C140_covers_violated"
   ],
   "note": "As stated. Beyond the stated precondition: The considered set is proved exactly; coverage only for equal decelerations; violated otherwise (C140_bound_violated, C140_covers_violated)."
  },
  {
   "property": "C141",
   "status": "proved",
   "theorems": [
    "Bark.RssEval.C141_route",
    "Bark.RssEval.C141_guess_violated",
    "Bark.RssEval.C141_turn_rate"
   ],
   "note": "As stated. Beyond the stated precondition: Proved for positive probabilities; violated for probability 0."
  },
  {
   "property": "C142",
   "status": "partial",
   "theorems": [
    "Bark.RssEval.C142_longitudinal_partial",
    "Bark.RssEval.C142_lateral_violated",
    "Bark.RssEval.C142_missing",
    "Bark.RssEval.C142_again_violated"
   ],
   "note": "Longitudinal part proved for all modes; lateral part violated for all vehicles; repeated computation appends. Exact angles."
  },
  {
   "property": "C143",
   "status": "proved",
   "theorems": [
    "Bark.Run.C143_served_as_created",
    "Bark.Run.C143_world_as_created",
    "Bark.Run.C143_always_served",
    "Bark.Run.C143_apart",
    "Bark.Run.C143_frame"
   ],
   "note": "Agents are contents on a heap with identity; sub-objects shared between agents and the shared nested json dictionaries are outside the model."
  },
  {
   "property": "C144",
   "status": "partial",
   "theorems": [
    "Bark.Run.C144_present_contents_partial",
    "Bark.Run.C144_same_objects",
    "Bark.Run.C144_second_call_not_initial"
   ],
   "note": "Present contents proved; violated for later calls (C144_second_call_not_initial)."
  },
  {
   "property": "C145",
   "status": "proved",
   "theorems": [
    "Bark.Run.C145_in_turn",
    "Bark.Run.C145_empty",
    "Bark.Run.C145_no_parameters"
   ],
   "note": ""
  },
  {
   "property": "C146",
   "status": "proved",
   "theorems": [
    "Bark.Run.C146_iteration",
    "Bark.Run.C146_nested_ends_outer"
   ],
   "note": "As stated. Proved for a single loop with arbitrary interleaved calls; violated for nested loops."
  },
  {
   "property": "C147",
   "status": "proved",
   "theorems": [
    "Bark.Run.C147_history",
    "Bark.Run.C147_drawn",
    "Bark.Run.C147_time_series",
    "Bark.Run.C147_no_series",
    "Bark.Run.C147_step_needs_reset"
   ],
   "note": "For every simulation given by planning and execution functions; a snapshot is the clone of the world."
  },
  {
   "property": "C148",
   "status": "proved",
   "theorems": [
    "Bark.Run.C148_reset",
    "Bark.Run.C148_given"
   ],
   "note": "As stated. Beyond the stated precondition: Proved for resets from the generator; the index is stale for a given scenario."
  },
  {
   "property": "C149",
   "status": "partial",
   "theorems": [
    "Bark.Run.C149_run_partial",
    "Bark.Run.C149_run_differs",
    "Bark.Run.C149_eval_partial",
    "Bark.Run.C149_eval_differs"
   ],
   "note": "Violated: both are shown to perform no step."
  },
  {
   "property": "C150",
   "status": "proved",
   "theorems": [
    "Bark.Run.C150_resolve",
    "Bark.Run.C150_map",
    "Bark.Run.C150_directory",
    "Bark.Run.C150_description",
    "Bark.Run.C150_reloaded"
   ],
   "note": "As stated. Beyond the stated precondition: Proved; violated for unknown extensions (empty map)."
  },
  {
   "property": "C151",
   "status": "proved",
   "theorems": [
    "Bark.Shape.C151_rigid",
    "Bark.Shape.C151_distances",
    "Bark.Shape.C151_additive",
    "Bark.Shape.C151_zero",
    "Bark.Shape.C151_undo",
    "Bark.Shape.C151_parts",
    "Bark.Shape.C151_area",
    "Bark.Shape.C151_scaled"
   ],
   "note": ""
  },
  {
   "property": "C152",
   "status": "proved",
   "theorems": [
    "Bark.Shape.C152_outline",
    "Bark.Shape.C152_centered",
    "Bark.Shape.C152_car_rectangle_violated"
   ],
   "note": "As stated. Beyond the stated precondition: Exact characterisation; violated for shapes not centered at the origin."
  },
  {
   "property": "C153",
   "status": "partial",
   "theorems": [
    "Bark.Shape.C153_extents_partial",
    "Bark.Shape.C153_transformed",
    "Bark.Shape.C153_left_right_violated",
    "Bark.Shape.C153_outside_violated",
    "Bark.Shape.C153_scaling_violated",
    "Bark.Shape.C153_turned_violated"
   ],
   "note": "Proved for front and rear of unturned shapes surrounding their center; left/right swapped; further violations proved."
  },
  {
   "property": "C154",
   "status": "partial",
   "theorems": [
    "Bark.Shape.C154_scale",
    "Bark.Shape.C154_inflate",
    "Bark.Shape.C154_inflated_extents_partial",
    "Bark.Shape.C154_scaled_extents",
    "Bark.Shape.C154_inflated_distances_partial",
    "Bark.Shape.C154_one_sided_violated"
   ],
   "note": "Exact effect proved; extents proved for shapes reaching behind and right of their center; violated otherwise."
  },
  {
   "property": "C155",
   "status": "proved",
   "theorems": [
    "Bark.Shape.C155_constructed",
    "Bark.Shape.C155_kept",
    "Bark.Shape.C155_degenerate",
    "Bark.Shape.C155_between_lines",
    "Bark.Shape.C155_car_rectangle",
    "Bark.Shape.C155_fixed_rectangle",
    "Bark.Shape.C155_goal_rectangle",
    "Bark.Shape.C155_limousine"
   ],
   "note": ""
  },
  {
   "property": "C156",
   "status": "partial",
   "theorems": [
    "Bark.Shape.C156_bounding_box",
    "Bark.Shape.C156_union_partial",
    "Bark.Shape.C156_parts_violated",
    "Bark.Shape.C156_buffer",
    "Bark.Shape.C156_reuse_violated"
   ],
   "note": "Bounding box proved; union and growth violated, with boost union and buffer as parameters."
  },
  {
   "property": "C157",
   "status": "proved",
   "theorems": [
    "Bark.LaneLine.C157_constant",
    "Bark.LaneLine.C157_sampled",
    "Bark.LaneLine.C157_append",
    "Bark.LaneLine.C157_overrun_violated"
   ],
   "note": "As stated. Beyond the stated precondition: Proved for both cases; violated within the last metre of a constant width. boost simplify is a parameter."
  },
  {
   "property": "C158",
   "status": "partial",
   "theorems": [
    "Bark.Xodr.C158_boundaries_partial",
    "Bark.Xodr.C158_section_start_violated",
    "Bark.Xodr.C158_offset_violated"
   ],
   "note": "Records, order and inner line proved for every lane; the lane offset of right lanes and the start of sections are violated (proved). boost simplify is a parameter."
  },
  {
   "property": "C159",
   "status": "proved",
   "theorems": [
    "Bark.Xodr.C159_section",
    "Bark.Xodr.C159_document",
    "Bark.Xodr.C159_header",
    "Bark.Xodr.C159_name_violated",
    "Bark.Xodr.C159_color_violated"
   ],
   "note": "As stated. Proved for every document that is accepted; refusals of valid documents proved. Python number conversions are parameters."
  },
  {
   "property": "C160",
   "status": "proved",
   "theorems": [
    "Bark.Xodr.C160_inside_out",
    "Bark.Xodr.C160_gap_refused"
   ],
   "note": ""
  },
  {
   "property": "C161",
   "status": "proved",
   "theorems": [
    "Bark.Xodr.C161_junctions",
    "Bark.Xodr.C161_lane_links",
    "Bark.Xodr.C161_no_link_violated",
    "Bark.Xodr.C161_road_links"
   ],
   "note": "As stated. Beyond the stated precondition: Links and junctions proved; missing links are indistinguishable from links to 0."
  },
  {
   "property": "C162",
   "status": "proved",
   "theorems": [
    "Bark.Xodr.C162_plan",
    "Bark.Xodr.C162_unsupported",
    "Bark.Xodr.C162_whole_step_violated"
   ],
   "note": "As stated. Order and shift proved; each geometry is that of C36/C72; whole-number steps are refused."
  },
  {
   "property": "C163",
   "status": "proved",
   "theorems": [
    "Bark.Anl.C163_find",
    "Bark.Anl.C163_scenario_ids",
    "Bark.Anl.C163_as_in",
    "Bark.Anl.C163_empty_violated",
    "Bark.Anl.C163_unknown_violated"
   ],
   "note": "As stated. Beyond the stated precondition: Proved when the lists are non-empty or absent; empty lists do not restrict (proved). pandas sort_values is a parameter (any sort, equal keys in any order)."
  },
  {
   "property": "C164",
   "status": "proved",
   "theorems": [
    "Bark.Anl.C164_congruent",
    "Bark.Anl.C164_succeeds",
    "Bark.Anl.C164_no_common_violated"
   ],
   "note": "As stated. Result and success proved; without a common scenario it raises (proved)."
  },
  {
   "property": "C165",
   "status": "proved",
   "theorems": [
    "Bark.Anl.C165_shown",
    "Bark.Anl.C165_empty_violated",
    "Bark.Anl.C165_step_time_violated",
    "Bark.Anl.C165_missing_stops",
    "Bark.Anl.C165_viewers",
    "Bark.Anl.C165_visualize",
    "Bark.Anl.C165_step_time"
   ],
   "note": "As stated. Beyond the stated precondition: Frames proved for non-empty histories; empty histories, step time of the last viewer and silent end proved."
  },
  {
   "property": "C166",
   "status": "proved",
   "theorems": [
    "Bark.Anl.C166_exported",
    "Bark.Anl.C166_no_filter",
    "Bark.Anl.C166_no_match_violated",
    "Bark.Anl.C166_table"
   ],
   "note": "As stated. Beyond the stated precondition: Selection proved when some configuration meets the filter; otherwise the whole list is exported (proved)."
  },
  {
   "property": "C167",
   "status": "proved",
   "theorems": [
    "Bark.Place.C167_placed",
    "Bark.Place.C167_apart",
    "Bark.Place.C167_pile_up_violated",
    "Bark.Place.C167_smin_violated",
    "Bark.Place.C167_endless_violated",
    "Bark.Place.C167_no_road"
   ],
   "note": "As stated. Beyond the stated precondition: Proved for lanes with at least two distinct successive points and positive spacing; pile-ups at the end of short lanes, s_min and zero spacing are proved violations. Random numbers are any sequence in [0,1)."
  },
  {
   "property": "C168",
   "status": "partial",
   "theorems": [
    "Bark.Place.C168_ids",
    "Bark.Place.C168_corridors",
    "Bark.Place.C168_behavior_partial",
    "Bark.Place.C168_controlled_violated",
    "Bark.Place.C168_shared_violated",
    "Bark.Place.C168_empty_violated",
    "Bark.Place.C168_created"
   ],
   "note": "Ids and evaluated agents proved; given models for controlled agents, sharing and empty corridors are proved violations."
  },
  {
   "property": "C169",
   "status": "proved",
   "theorems": [
    "Bark.Place.C169_placed",
    "Bark.Place.C169_mirrored_violated",
    "Bark.Place.C169_map_kept",
    "Bark.Place.C169_unmatched_violated",
    "Bark.Place.C169_pairs"
   ],
   "note": "As stated. Beyond the stated precondition: Proved when the sink is not before the source; otherwise mirrored and map reversed (proved)."
  },
  {
   "property": "C170",
   "status": "proved",
   "theorems": [
    "Bark.Place.C170_route",
    "Bark.Place.C170_no_route",
    "Bark.Place.C170_twice_violated",
    "Bark.Place.C170_nobody_violated",
    "Bark.Place.C170_goal_violated"
   ],
   "note": "As stated. Beyond the stated precondition: Proved with a route; duplication, empty case and goal region are proved violations. Corridor lookup is a parameter."
  },
  {
   "property": "C171",
   "status": "partial",
   "theorems": [
    "Bark.Conv.C171_name",
    "Bark.Conv.C171_roundtrip_partial",
    "Bark.Conv.C171_classes",
    "Bark.Conv.C171_macro_violated",
    "Bark.Conv.C171_incomplete_violated",
    "Bark.Conv.C171_lost_violated"
   ],
   "note": "Proved for classes with a text of their own and closed clockwise outlines; losses proved."
  },
  {
   "property": "C172",
   "status": "proved",
   "theorems": [
    "Bark.Conv.C172_made",
    "Bark.Conv.C172_created",
    "Bark.Conv.C172_ids_violated"
   ],
   "note": "As stated. Proved for every accepted list; duplicate and unknown ids are accepted (proved)."
  },
  {
   "property": "C173",
   "status": "proved",
   "theorems": [
    "Bark.CAcc.C173_constant_acceleration",
    "Bark.CAcc.C173_no_corridor",
    "Bark.CAcc.C173_speed_after_horizon",
    "Bark.CAcc.C173_max_velocity_violated"
   ],
   "note": "As stated. Proved for every state, corridor, acceleration and number of time points (Euler steps of the kinematic model). Missing because the code violates it: greatest speed (proved)."
  },
  {
   "property": "C174",
   "status": "partial",
   "theorems": [
    "Bark.CAcc.C174_brakes_for_lane_end",
    "Bark.CAcc.C174_full_braking",
    "Bark.CAcc.C174_far_from_lane_end",
    "Bark.CAcc.C174_restricted_everywhere_violated",
    "Bark.CAcc.C174_current_lane_end_violated",
    "Bark.CAcc.C174_discrete_aborts",
    "Bark.CAcc.C174_never_aborts"
   ],
   "note": "Proved exactly for both cases (coolness factor 0 near the lane end), and never aborting by induction over histories. Missing because the code violates it: restriction by the desired velocity everywhere, end of the current lane ignored (proved)."
  },
  {
   "property": "C175",
   "status": "proved",
   "theorems": [
    "Bark.CAcc.C175_available",
    "Bark.CAcc.C175_limits_violated"
   ],
   "note": "As stated. Beyond the stated precondition: Availability proved exactly. Missing because the code violates it: planning overwrites the limits of the vehicle (proved)."
  },
  {
   "property": "C176",
   "status": "proved",
   "theorems": [
    "Bark.CAcc.C176_primitives",
    "Bark.CAcc.C176_default_actions"
   ],
   "note": ""
  },
  {
   "property": "C177",
   "status": "proved",
   "theorems": [
    "Bark.Area.C177_counts",
    "Bark.Area.C177_history",
    "Bark.Area.C177_faults",
    "Bark.Area.C177_along",
    "Bark.Area.C177_across",
    "Bark.Area.C177_monotone"
   ],
   "note": ""
  },
  {
   "property": "C178",
   "status": "partial",
   "theorems": [
    "Bark.Area.C178_bounds",
    "Bark.Area.C178_side_violated",
    "Bark.Area.C178_turned_violated",
    "Bark.Area.C178_straight_partial"
   ],
   "note": "Bounds proved for all values; value proved for roads along the x-axis. Missing because the code violates it: side flag without effect, value depends on the orientation of the map (proved)."
  },
  {
   "property": "C179",
   "status": "proved",
   "theorems": [
    "Bark.Area.C179_near",
    "Bark.Area.C179_near_mutual",
    "Bark.Area.C179_near_labels",
    "Bark.Area.C179_no_lane",
    "Bark.Area.C179_one",
    "Bark.Area.C179_succeeding",
    "Bark.Area.C179_succeeding_labels",
    "Bark.Area.C179_succeeding_violated",
    "Bark.Area.C179_generic",
    "Bark.Area.C179_generic_type",
    "Bark.Area.C179_constant"
   ],
   "note": "As stated. Beyond the stated precondition: Proved for all worlds; the succeeding agent is the closest in front among the considered nearest agents. Missing because the code violates it: with many near agents the one in front is not considered (proved)."
  },
  {
   "property": "C180",
   "status": "proved",
   "theorems": [
    "Bark.Loop.C180_replay",
    "Bark.Loop.C180_clock"
   ],
   "note": ""
  },
  {
   "property": "C181",
   "status": "proved",
   "theorems": [
    "Bark.Loop.C181_constant_acceleration",
    "Bark.Loop.C181_no_lane"
   ],
   "note": ""
  },
  {
   "property": "C182",
   "status": "proved",
   "theorems": [
    "Bark.Loop.C182_idm"
   ],
   "note": ""
  },
  {
   "property": "C183",
   "status": "proved",
   "theorems": [
    "Bark.Loop.C183_never_above_desired",
    "Bark.Loop.C183_converges",
    "Bark.Loop.C183_long_steps"
   ],
   "note": ""
  },
  {
   "property": "C184",
   "status": "partial",
   "theorems": [
    "Bark.Lead.C184_nearest",
    "Bark.Lead.C184_aborts",
    "Bark.Lead.C184_in_world",
    "Bark.Lead.C184_lane_end_cautious",
    "Bark.Lead.C184_lane_end_hidden",
    "Bark.Lead.C184_overlap_accelerates",
    "Bark.Lead.C184_acceleration",
    "Bark.Lead.C184_leader_missed_violated"
   ],
   "note": "Proved except the parts marked violated (C184_leader_missed_violated, C184_lane_end_hidden, C184_overlap_accelerates)."
  },
  {
   "property": "C185",
   "status": "proved",
   "theorems": [
    "Bark.View.C185_follow",
    "Bark.View.C185_whole_map",
    "Bark.View.C185_fixed",
    "Bark.View.C185_off_follows_violated",
    "Bark.View.C185_agent_one_violated",
    "Bark.View.C185_not_enforced_violated",
    "Bark.View.C185_list_violated"
   ],
   "note": "As stated. Beyond the stated precondition: Proved for a followed agent, the whole map and the fixed view. Missing because the code violates it: the truth values of FollowAgentIds, no enforced length, lists of ids (all proved)."
  },
  {
   "property": "C186",
   "status": "partial",
   "theorems": [
    "Bark.View.C186_frame",
    "Bark.View.C186_colours_stay",
    "Bark.View.C186_colours_differ",
    "Bark.View.C186_returns_iff",
    "Bark.View.C186_agent_gone_violated",
    "Bark.View.C186_outline_violated",
    "Bark.View.C186_mp_colours_violated",
    "Bark.View.C186_history"
   ],
   "note": "Frames, colours over all histories and fading proved. Missing because the code violates it: size of the matplotlib colour map, outlines of agents not taking part, exception once the evaluated agent is gone (proved). Matplotlib itself is not modelled; an index beyond its colour map gives the last colour."
  },
  {
   "property": "C187",
   "status": "proved",
   "theorems": [
    "Bark.View.C187_numbered",
    "Bark.View.C187_intermediate_violated",
    "Bark.View.C187_gap_violated",
    "Bark.View.C187_frame_rate",
    "Bark.View.C187_zero_steps"
   ],
   "note": "As stated. Beyond the stated precondition: Numbering and frame rate proved without intermediate steps. Missing because the code violates it: intermediate steps overwrite each other (proved)."
  },
  {
   "property": "C188",
   "status": "proved",
   "theorems": [
    "Bark.View.C188_latest",
    "Bark.View.C188_later_violated"
   ],
   "note": "As stated. Beyond the stated precondition: Choice proved for queues in order of time. Missing because the code violates it: queues that begin later raise (proved)."
  },
  {
   "property": "C189",
   "status": "proved",
   "theorems": [
    "Bark.View.C189_buffer",
    "Bark.View.C189_frame",
    "Bark.View.C189_raises",
    "Bark.View.C189_rendered",
    "Bark.View.C189_grows_violated",
    "Bark.View.C189_failed_frame_violated"
   ],
   "note": "As stated. Beyond the stated precondition: Buffer contents proved for all sequences. Missing because the code violates it: growth without clearing, leftovers of failed frames (proved)."
  },
  {
   "property": "C190",
   "status": "partial",
   "theorems": [
    "Bark.PGeo.C190_point",
    "Bark.PGeo.C190_line",
    "Bark.PGeo.C190_line_reversed_violated",
    "Bark.PGeo.C190_polygon",
    "Bark.PGeo.C190_polygon_ring",
    "Bark.PGeo.C190_polygon_placed",
    "Bark.PGeo.C190_turned_violated",
    "Bark.PGeo.C190_safety_polygon",
    "Bark.PGeo.C190_corridor_partial",
    "Bark.PGeo.C190_corridor_violated",
    "Bark.PGeo.C190_settings",
    "Bark.PGeo.C190_settings_made",
    "Bark.PGeo.C190_observer_partial",
    "Bark.PGeo.C190_observer_violated",
    "Bark.PGeo.C190_execution_partial",
    "Bark.PGeo.C190_execution_violated"
   ],
   "note": "Points, lines, polygons (built, placed) and behaviour settings proved. Missing because the code violates it: turned polygons, reversed lines, road corridors, restricted observers and failed execution models do not come back as they were (each proved)."
  },
  {
   "property": "C191",
   "status": "proved",
   "theorems": [
    "Bark.Mvn.C191_sample",
    "Bark.Mvn.C191_solver_exists",
    "Bark.Mvn.C191_accepted",
    "Bark.Mvn.C191_covariance",
    "Bark.Mvn.C191_density",
    "Bark.Mvn.C191_default_violated",
    "Bark.Mvn.C191_reseed",
    "Bark.Mvn.C191_reseed_violated",
    "Bark.Mvn.C191_cdf_violated"
   ],
   "note": "As stated, with the eigen solver by its contract (existence proved from the spectral theorem). The violations for asymmetric covariances, odd reseeding and the CDF are proved."
  },
  {
   "property": "C192",
   "status": "proved",
   "theorems": [
    "Bark.Read.C192_fixed",
    "Bark.Read.C192_fixed_keeps",
    "Bark.Read.C192_fixed_succeeds",
    "Bark.Read.C192_fixed_unknown",
    "Bark.Read.C192_fixed_again",
    "Bark.Read.C192_execution",
    "Bark.Read.C192_sampled",
    "Bark.Read.C192_sampled_types",
    "Bark.Read.C192_sampled_succeeds",
    "Bark.Read.C192_track_behaviors",
    "Bark.Read.C192_tracks",
    "Bark.Read.C192_tracks_end_violated",
    "Bark.Read.C192_tracks_start",
    "Bark.Read.C192_reader",
    "Bark.Read.C192_scenario",
    "Bark.Read.C192_sizes",
    "Bark.Read.C192_prefix"
   ],
   "note": "As stated. Constructors and readers of the states are parameters; goals and controlled agents are C131, C132, assembling is C129."
  },
  {
   "property": "C193",
   "status": "proved",
   "theorems": [
    "Bark.Spi.C193_fresnel_accuracy",
    "Bark.Spi.C193_fresnel_everywhere",
    "Bark.Spi.C193_code_accuracy",
    "Bark.Spi.C193_add_spiral_code",
    "Bark.Spi.C193_clothoid",
    "Bark.Spi.C193_error",
    "Bark.Spi.C193_standard",
    "Bark.Spi.C193_straight_violated",
    "Bark.Spi.C193_arc_violated",
    "Bark.Spi.C193_add_spiral",
    "Bark.Spi.C193_straight_spiral_violated",
    "Bark.Spi.C193_zero_length",
    "Bark.Spi.C193_denominators",
    "Bark.Spi.C193_odd"
   ],
   "note": "As stated, over the reals, with the coefficient tables of the code. Outside the statement the code is wrong: constant curvature and length zero (C193_*_violated, C193_zero_length)."
  },
  {
   "property": "C194",
   "status": "proved",
   "theorems": [
    "Bark.Str.C194_direction",
    "Bark.Str.C194_approach",
    "Bark.Str.C194_limits",
    "Bark.Str.C194_straight",
    "Bark.Str.C194_lane_tracking_straight",
    "Bark.Str.C194_before_start_violated"
   ],
   "note": "As stated, over the reals, for the single track model."
  },
  {
   "property": "C195",
   "status": "proved",
   "theorems": [
    "Bark.Bnd.C195_map",
    "Bark.Bnd.C195_merge",
    "Bark.Bnd.C195_table",
    "Bark.Bnd.C195_removal"
   ],
   "note": "As stated; boost envelope and within of boxes over the reals, the outline of an agent is any non-empty list of points."
  },
  {
   "property": "C196",
   "status": "proved",
   "theorems": [
    "Bark.Bnd.C196_smooth",
    "Bark.Bnd.C196_straight",
    "Bark.Bnd.C196_few",
    "Bark.Bnd.C196_bad_width",
    "Bark.Bnd.C196_repeated"
   ],
   "note": "As stated, over the reals; the spline library is a parameter assumed to interpolate (and to reproduce straight data where used); conversion of huge quotients to int is not modelled."
  },
  {
   "property": "C197",
   "status": "proved",
   "theorems": [
    "Bark.Loop.C197_no_collision",
    "Bark.Loop.C197_two_vehicles",
    "Bark.Loop.C197_unavoidable",
    "Bark.Loop.C197_defaults"
   ],
   "note": "As stated, over the reals, along the corridor (arc lengths); positions are those of the trajectories, execution by interpolation."
  },
  {
   "property": "C198",
   "status": "partial",
   "theorems": [
    "Bark.Pick.C198_reacts",
    "Bark.Pick.C198_classic",
    "Bark.Pick.C198_tracking",
    "Bark.Pick.C198_empty_line",
    "Bark.Pick.C198_lane_change",
    "Bark.Pick.C198_decision_overruled_violated",
    "Bark.Pick.C198_leaving_violated"
   ],
   "note": "Proved except the parts marked violated (C198_leaving_violated, C198_decision_overruled_violated); relative values and steering are those of C184, C194, C60."
  },
  {
   "property": "C199",
   "status": "partial",
   "theorems": [
    "Bark.Pick.C199_plane",
    "Bark.Pick.C199_steps",
    "Bark.Pick.C199_first_step_violated",
    "Bark.Pick.C199_end_violated",
    "Bark.Pick.C199_jump_witness"
   ],
   "note": "Proved from the first planned state on (C199_plane, C199_steps); violated for the first step and at the end of the line (C199_first_step_violated, C199_jump_witness, C199_end_violated)."
  },
  {
   "property": "C200",
   "status": "proved",
   "theorems": [
    "Bark.Loop.C200_platoon",
    "Bark.Loop.C200_needed"
   ],
   "note": "As stated, over the reals, along the corridor (arc lengths), for the default parameters (base_idm.cpp:37-90)."
  },
  {
   "property": "C201",
   "status": "proved",
   "theorems": [
    "Bark.Flow.C201_traffic",
    "Bark.Flow.C201_unseen",
    "Bark.Flow.C201_crowd_violated"
   ],
   "note": "As stated, over the reals, for the whole loop: index, observation, front search in Frenet coordinates, IDM, trajectory in the plane, interpolation, state update, collision evaluator. The corridor lookup and boost box queries are parameters with stated assumptions. The bound on the number of agents is shown to be needed (C201_crowd_violated)."
  },
  {
   "property": "C202",
   "status": "proved",
   "theorems": [
    "Bark.Flow.C202_winding"
   ],
   "note": "As stated, over the reals. On a curved line gaps along the line do not imply that the outlines are disjoint, so unlike C201 nothing is claimed about the collision evaluator."
  },
  {
   "property": "C203",
   "status": "proved",
   "theorems": [
    "Bark.Flow.C203_front"
   ],
   "note": "As stated, over the reals."
  },
  {
   "property": "C204",
   "status": "proved",
   "theorems": [
    "Bark.Flow.C204_success",
    "Bark.Flow.C204_frenet_goal",
    "Bark.Flow.C204_polygon_goal"
   ],
   "note": "As stated, over the reals, composed of the models of the runner, the world, the IDM, the evaluators and the goals. The creation of the world from a scenario and drawing are left out; boost within for the goal shape is a parameter."
  },
  {
   "property": "C205",
   "status": "proved",
   "theorems": [
    "Bark.Flow.C205_everybody"
   ],
   "note": ""
  },
  {
   "property": "C206",
   "status": "proved",
   "theorems": [
    "Bark.Flow.C206_success"
   ],
   "note": ""
  },
  {
   "property": "C207",
   "status": "proved",
   "theorems": [
    "Bark.Areas.C207_boundaries",
    "Bark.Areas.C207_lane",
    "Bark.Areas.C207_route",
    "Bark.Areas.C207_stored",
    "Bark.Areas.C207_all",
    "Bark.Areas.C207_set"
   ],
   "note": ""
  },
  {
   "property": "C208",
   "status": "partial",
   "theorems": [
    "Bark.Areas.C208_junction_partial",
    "Bark.Areas.C208_junction_violated",
    "Bark.Areas.C208_enlarge",
    "Bark.Areas.C208_road_partial",
    "Bark.Areas.C208_covers_partial",
    "Bark.Areas.C208_split_violated",
    "Bark.Areas.C208_junctions",
    "Bark.Areas.C208_full"
   ],
   "note": "Proved where the unions come in one piece and shrinking leaves one polygon. The code keeps only the first part of a union and loses the road area when shrinking splits it (proved: C208_junction_violated, C208_split_violated)."
  },
  {
   "property": "C209",
   "status": "partial",
   "theorems": [
    "Bark.RssEval.C209_told",
    "Bark.RssEval.C209_undefined",
    "Bark.RssEval.C209_defined",
    "Bark.RssEval.C209_box_partial",
    "Bark.RssEval.C209_box_violated",
    "Bark.RssEval.C209_settings"
   ],
   "note": "Everything but the box is proved as stated; the box is right exactly for shapes that are symmetric about the state (C209_box_partial, C209_box_violated). Angles exact."
  },
  {
   "property": "C210",
   "status": "proved",
   "theorems": [
    "Bark.Rigid.C210_nearest",
    "Bark.Rigid.C210_point",
    "Bark.Rigid.C210_length",
    "Bark.Rigid.C210_tangent",
    "Bark.Rigid.C210_position",
    "Bark.Rigid.C210_frenet",
    "Bark.Rigid.C210_from_frenet",
    "Bark.Rigid.C210_uturn_violated"
   ],
   "note": "Proved for lines without repeated points that nowhere turn back by exactly half a turn; C210_uturn_violated shows that the last condition is needed (the direction reported at such a point is that of the first axis)."
  },
  {
   "property": "C211",
   "status": "proved",
   "theorems": [
    "Bark.Rigid.C211_classic",
    "Bark.Rigid.C211_dynamics",
    "Bark.Rigid.C211_steering",
    "Bark.Rigid.C211_lane_tracking",
    "Bark.Rigid.C211_outline",
    "Bark.Rigid.C211_contact",
    "Bark.Rigid.C211_centre_violated"
   ],
   "note": "Trajectories and steps over the reals; the steering angle is unchanged for any rounding of angles to float. The relation to the vehicle ahead is a parameter of the trajectories, the same in both systems. Contact is that of convex bodies; shapes have their centre at the reference point (C211_centre_violated: otherwise the outline moves)."
  },
  {
   "property": "C212",
   "status": "partial",
   "theorems": [
    "Bark.Rigid.C212_removal_partial",
    "Bark.Rigid.C212_removal_violated",
    "Bark.Rigid.C212_nearest_violated",
    "Bark.Rigid.C212_nearest_shift_partial"
   ],
   "note": "Holds for shifts, and the removal for turns by multiples of a quarter turn (C212_removal_partial, C212_nearest_shift_partial); it fails for other turns because boxes are parallel to the axes (C212_removal_violated, C212_nearest_violated)."
  },
  {
   "property": "C213",
   "status": "proved",
   "theorems": [
    "Bark.Flow.C213_judged"
   ],
   "note": ""
  },
  {
   "property": "C214",
   "status": "proved",
   "theorems": [
    "Bark.Props.C214_same_registry",
    "Bark.Props.C214_order"
   ],
   "note": ""
  },
  {
   "property": "C215",
   "status": "proved",
   "theorems": [
    "Bark.Later.C215_world",
    "Bark.Later.C215_traffic"
   ],
   "note": ""
  },
  {
   "property": "C216",
   "status": "proved",
   "theorems": [
    "Bark.Flow.C216_straight",
    "Bark.Flow.C216_winding"
   ],
   "note": ""
  },
  {
   "property": "C217",
   "status": "partial",
   "theorems": [
    "Bark.Sink.C217_route_partial",
    "Bark.Sink.C217_only",
    "Bark.Sink.C217_roads_violated",
    "Bark.Sink.C217_whole_violated"
   ],
   "note": "Sources given by road ids always raise (C217_roads_violated), two points with a whole first number as well (C217_whole_violated); proved for two points with a fraction."
  },
  {
   "property": "C218",
   "status": "proved",
   "theorems": [
    "Bark.Flow.C218_lanes",
    "Bark.Flow.C218_independent",
    "Bark.Flow.C218_hidden",
    "Bark.Flow.C218_oncoming_violated"
   ],
   "note": ""
  },
  {
   "property": "C219",
   "status": "proved",
   "theorems": [
    "Bark.Mix.C219_however_long",
    "Bark.Mix.C219_however_long_winding",
    "Bark.Mix.C219_mixed",
    "Bark.Mix.C219_winding",
    "Bark.Mix.C219_only_where",
    "Bark.Mix.C219_hard_stop"
   ],
   "note": ""
  },
  {
   "property": "C220",
   "status": "proved",
   "theorems": [
    "Bark.Mix.C220_however_long",
    "Bark.Mix.C220_however_long_winding",
    "Bark.Mix.C220_winding",
    "Bark.Mix.C220_replay_ahead",
    "Bark.Mix.C220_action"
   ],
   "note": ""
  },
  {
   "property": "C221",
   "status": "proved",
   "theorems": [
    "Bark.Mix.C221_undisturbed",
    "Bark.Mix.C221_winding",
    "Bark.Mix.C221_no_reaction"
   ],
   "note": ""
  },
  {
   "property": "C222",
   "status": "proved",
   "theorems": [
    "Bark.Rename.C222_world",
    "Bark.Rename.C222_queries",
    "Bark.Rename.C222_front_rear",
    "Bark.Rename.C222_traffic",
    "Bark.Rename.C222_order_violated"
   ],
   "note": ""
  },
  {
   "property": "C223",
   "status": "proved",
   "theorems": [
    "Bark.Trk.C223_steps",
    "Bark.Trk.C223_rates",
    "Bark.Trk.C223_messages",
    "Bark.Trk.C223_action",
    "Bark.Trk.C223_no_action"
   ],
   "note": ""
  },
  {
   "property": "C224",
   "status": "proved",
   "theorems": [
    "Bark.Mix.C224_behind",
    "Bark.Mix.C224_winding",
    "Bark.Mix.C224_action",
    "Bark.Mix.C224_long",
    "Bark.Mix.C224_long_winding",
    "Bark.Mix.C224_off_lane",
    "Bark.Mix.C224_too_hard"
   ],
   "note": ""
  }
 ]
}