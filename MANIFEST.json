{
 "claims": [
  {
   "property": "C01",
   "status": "proved",
   "theorems": [
    "Verif.Storyboard.announcements_legal",
    "Verif.Storyboard.state_is_history",
    "Verif.Storyboard.reset_only_below_repeatable",
    "Verif.Storyboard.complete_announces_nothing",
    "Verif.Storyboard.complete_final"
   ],
   "note": "ghost restarts (ScenarioEngine::ResetEvents) are outside the model"
  },
  {
   "property": "C02",
   "status": "proved",
   "theorems": [
    "Verif.Storyboard.max_executions",
    "Verif.Storyboard.max_executions_group"
   ],
   "note": "a maximum of 0 or below -1 still allows one execution"
  },
  {
   "property": "C03",
   "status": "proved",
   "theorems": [
    "Verif.Storyboard.running_ancestors",
    "Verif.Storyboard.standby_parent_running"
   ],
   "note": ""
  },
  {
   "property": "C04",
   "status": "proved",
   "theorems": [
    "Verif.Storyboard.stop_silences",
    "Verif.Storyboard.stop_completes",
    "Verif.Storyboard.stop_trigger_silences"
   ],
   "note": ""
  },
  {
   "property": "C05",
   "status": "proved",
   "theorems": [
    "Verif.Storyboard.running_has_live_child"
   ],
   "note": ""
  },
  {
   "property": "C06",
   "status": "proved",
   "theorems": [
    "Verif.Storyboard.start_terminates",
    "Verif.Storyboard.step_terminates",
    "Verif.Storyboard.end_terminates",
    "Verif.Storyboard.stop_terminates"
   ],
   "note": ""
  },
  {
   "property": "C07",
   "status": "proved",
   "theorems": [
    "Verif.Storyboard.overwrite_ends_siblings",
    "Verif.Storyboard.skip_ignored",
    "Verif.Storyboard.running_event_not_restarted",
    "Verif.Storyboard.parallel_keeps_siblings"
   ],
   "note": ""
  },
  {
   "property": "C08",
   "status": "proved",
   "theorems": [
    "Verif.Storyboard.start_needs_trigger"
   ],
   "note": ""
  },
  {
   "property": "C09",
   "status": "proved",
   "theorems": [
    "Verif.Condition.trigger_or_of_and",
    "Verif.Condition.trigger_plain",
    "Verif.Condition.trigger_order_irrelevant"
   ],
   "note": "order independence for conditions without edge or with a delay, as stated; C44 covers the rest"
  },
  {
   "property": "C10",
   "status": "proved",
   "theorems": [
    "Verif.Condition.edge_fires_exactly",
    "Verif.Condition.edge_not_at_first"
   ],
   "note": "evaluation times at least 1e-6 apart; after the trigger fires, the next evaluation counts as first"
  },
  {
   "property": "C100",
   "status": "partial",
   "theorems": [
    "Verif.Measure.euclid",
    "Verif.Measure.entity_axes",
    "Verif.Measure.road_axes",
    "Verif.Measure.trajectory_axes",
    "Verif.Measure.condition_distance",
    "Verif.Measure.headway_meets",
    "Verif.Measure.headway_iff",
    "Verif.Measure.headway_unreachable",
    "Verif.Measure.ttc_position",
    "Verif.Measure.ttc_standing",
    "Verif.Measure.ttc_line_partial",
    "Verif.Measure.ttc_undefined",
    "Verif.Measure.trajectory_point_fails",
    "Verif.Measure.world_fails",
    "Verif.Measure.ttc_standing_fails",
    "Verif.Measure.ttc_creeping_fails"
   ],
   "note": "Violated for points along a trajectory, in world coordinates, and for the time to collision of a standing entity or with a creeping target (witnesses). Entities moving in different directions are not covered."
  },
  {
   "property": "C101",
   "status": "partial",
   "theorems": [
    "Verif.Measure.reach_near",
    "Verif.Measure.orient_partial",
    "Verif.Measure.orient_half_partial",
    "Verif.Measure.orient_wrap_fails",
    "Verif.Measure.angle_exact",
    "Verif.Measure.angle_reference",
    "Verif.Measure.speed_axes",
    "Verif.Measure.acc_total",
    "Verif.Measure.relative_speed"
   ],
   "note": "ReachPosition violates the property for headings on both sides of 0 (witness); all else is proved."
  },
  {
   "property": "C102",
   "status": "partial",
   "theorems": [
    "Verif.Measure.since_partial",
    "Verif.Measure.duration_partial",
    "Verif.Measure.interrupted",
    "Verif.Measure.still_iff",
    "Verif.Measure.from_start_fails",
    "Verif.Measure.negative_time_fails"
   ],
   "note": "Violated for states that begin at time 0 or before (witnesses)."
  },
  {
   "property": "C103",
   "status": "partial",
   "theorems": [
    "Verif.Measure.clear_partial",
    "Verif.Measure.clear_free",
    "Verif.Measure.clear_opposite_fails"
   ],
   "note": "Violated for lane ranges across the reference line (witness)."
  },
  {
   "property": "C104",
   "status": "partial",
   "theorems": [
    "Verif.Ground.velocity",
    "Verif.Ground.velocity_teleport",
    "Verif.Ground.no_time",
    "Verif.Ground.speed",
    "Verif.Ground.acceleration",
    "Verif.Ground.heading_rate",
    "Verif.Ground.angular_acceleration_partial",
    "Verif.Ground.angular_acceleration_fails",
    "Verif.Ground.reported_kept",
    "Verif.Ground.path_run",
    "Verif.Ground.odometer_step",
    "Verif.Ground.odometer_mono",
    "Verif.Ground.odometer_distance",
    "Verif.Ground.steering",
    "Verif.Ground.steering_standing",
    "Verif.Ground.rolling"
   ],
   "note": "The angular acceleration violates the property for changes of the heading rate above pi rad/s (witness); all else is proved."
  },
  {
   "property": "C105",
   "status": "partial",
   "theorems": [
    "Verif.Ground.link",
    "Verif.Ground.coupled",
    "Verif.Ground.follows",
    "Verif.Ground.aligned",
    "Verif.Ground.rear_axle",
    "Verif.Ground.offset_decouples_fails"
   ],
   "note": "Violated for tow vehicles with offset reference point (witness). Trailers within 1 mm of the hitch are not covered."
  },
  {
   "property": "C106",
   "status": "partial",
   "theorems": [
    "Verif.Ground.trail_spaced",
    "Verif.Ground.trail_recent",
    "Verif.Ground.trail_keeps",
    "Verif.Ground.trail_true_partial",
    "Verif.Ground.trail_true_fails"
   ],
   "note": "Violated for steps of more than twice the sampling time (witness); proved for steps up to the sampling time."
  },
  {
   "property": "C107",
   "status": "partial",
   "theorems": [
    "Verif.Follow.starts_forward",
    "Verif.Follow.waits",
    "Verif.Follow.forward_step",
    "Verif.Follow.forward_run",
    "Verif.Follow.backward_step",
    "Verif.Follow.relative_run",
    "Verif.Follow.absolute_step",
    "Verif.Follow.relative_speed",
    "Verif.Follow.absolute_speed_partial",
    "Verif.Follow.relative_rest_partial",
    "Verif.Follow.backward_rest_fails",
    "Verif.Follow.closed_stuck_fails",
    "Verif.Follow.absolute_stale_fails",
    "Verif.Follow.relative_rest_fails",
    "Verif.Follow.override_endless_fails",
    "Verif.Follow.copy_fails"
   ],
   "note": "Violated backwards past the start, on closed trajectories, for the speed with absolute time and offset, past the end with a scale, with an overriding controller, and for copies (witnesses)."
  },
  {
   "property": "C108",
   "status": "partial",
   "theorems": [
    "Verif.Osi.send_wire",
    "Verif.Osi.send_data",
    "Verif.Osi.recv_send",
    "Verif.Osi.recv_recovers",
    "Verif.Osi.recv_losses_partial",
    "Verif.Osi.send_failure",
    "Verif.Osi.recv_send_failure_partial",
    "Verif.Osi.recv_stale",
    "Verif.Osi.recv_mixes_fails",
    "Verif.Osi.recvC_send",
    "Verif.Osi.recvC_large_fails",
    "Verif.Osi.recvC_lossy_fails"
   ],
   "note": "Violated with losses when messages fit in one packet (witness); with losses proved for messages of several packets whose first packet is not lost alone. C++ receiver: violated for large messages and with losses."
  },
  {
   "property": "C109",
   "status": "proved",
   "theorems": [
    "Verif.Osi.read_write",
    "Verif.Osi.read_cut"
   ],
   "note": ""
  },
  {
   "property": "C11",
   "status": "proved",
   "theorems": [
    "Verif.Condition.condition_reports",
    "Verif.Condition.delay_not_early",
    "Verif.Condition.delay_not_lost",
    "Verif.Condition.delay_false"
   ],
   "note": "evaluation times at least 1e-6 apart, delay >= 0"
  },
  {
   "property": "C110",
   "status": "partial",
   "theorems": [
    "Verif.Osi.frequency",
    "Verif.Osi.frequency_start",
    "Verif.Osi.log_due",
    "Verif.Osi.no_crash",
    "Verif.Osi.enable_late_fails",
    "Verif.Osi.enable_twice_fails"
   ],
   "note": "Violated when the file is switched on in a running scenario (witnesses)."
  },
  {
   "property": "C111",
   "status": "partial",
   "theorems": [
    "Verif.Osi.static_once",
    "Verif.Osi.static_complete",
    "Verif.Osi.static_step",
    "Verif.Osi.static_always",
    "Verif.Osi.api_raw",
    "Verif.Osi.get_raw",
    "Verif.Osi.get_api_fails",
    "Verif.Osi.late_file_fails",
    "Verif.Osi.get_empty_fails",
    "Verif.Osi.removed_fails"
   ],
   "note": "Violated for serialized data with a file open, for files switched on late and for objects that left (witnesses)."
  },
  {
   "property": "C112",
   "status": "proved",
   "theorems": [
    "Verif.Osi.stamp_time",
    "Verif.Osi.stamp_mono",
    "Verif.Osi.stamp_explicit"
   ],
   "note": ""
  },
  {
   "property": "C113",
   "status": "proved",
   "theorems": [
    "Verif.Osi.cropSet_spec",
    "Verif.Osi.table_spec",
    "Verif.Osi.reported_spec"
   ],
   "note": ""
  },
  {
   "property": "C114",
   "status": "partial",
   "theorems": [
    "Verif.Expr.expression_value_partial",
    "Verif.Expr.expression_value_fails"
   ],
   "note": "Violated for exactly one blank after a unary operator (witness); proved for all others."
  },
  {
   "property": "C115",
   "status": "partial",
   "theorems": [
    "Verif.Expr.literal_value_partial",
    "Verif.Expr.exponent_fails"
   ],
   "note": "Violated for exponents (witness); proved for all others."
  },
  {
   "property": "C116",
   "status": "proved",
   "theorems": [
    "Verif.Expr.strings_joined"
   ],
   "note": ""
  },
  {
   "property": "C117",
   "status": "partial",
   "theorems": [
    "Verif.Expr.names_value_partial",
    "Verif.Expr.names_value_fails"
   ],
   "note": "Violated for names at the end of other words or not followed by a blank (witnesses); proved for texts in which the names occur only as such and followed by a blank."
  },
  {
   "property": "C118",
   "status": "partial",
   "theorems": [
    "Verif.Expr.boolean_fails"
   ],
   "note": "Violated: false for every expression with a numerical value."
  },
  {
   "property": "C119",
   "status": "partial",
   "theorems": [
    "Verif.Expr.unbalanced_no_value_partial",
    "Verif.Expr.malformed_fails"
   ],
   "note": "Proved for unmatched parentheses; violated for missing operands and arguments (witnesses)."
  },
  {
   "property": "C12",
   "status": "partial",
   "theorems": [
    "Verif.Condition.any_all_fresh",
    "Verif.Condition.any_undef_partial",
    "Verif.Condition.any_reach_partial",
    "Verif.Condition.any_sticky_partial",
    "Verif.Condition.any_duration_partial",
    "Verif.Condition.any_all_clear_partial",
    "Verif.Condition.all_sticky_partial",
    "Verif.Condition.all_undef_fails",
    "Verif.Condition.all_undef_inactive_fails",
    "Verif.Condition.all_reach_fails",
    "Verif.Condition.all_sticky_fails",
    "Verif.Condition.all_duration_fails",
    "Verif.Condition.any_clear_fails"
   ],
   "note": "proved for speed, acceleration, relative speed, distances and angle; the code violates it with rule all for headway, TTC, reach position, collision, end of road, stand still, off road, and with rule any for relative clearance (negations proved)"
  },
  {
   "property": "C120",
   "status": "partial",
   "theorems": [
    "Verif.Expr.printed_close_partial",
    "Verif.Expr.printed_fails"
   ],
   "note": "Violated beyond six decimals (witness); bound on the difference proved."
  },
  {
   "property": "C121",
   "status": "partial",
   "theorems": [
    "Verif.Var.actions_value_partial",
    "Verif.Var.integer_near",
    "Verif.Var.declared_starts",
    "Verif.Var.undeclared_fails",
    "Verif.Var.parameter_value_fails",
    "Verif.Var.integer_fails"
   ],
   "note": "Proved for declared variables, whole variables changed to whole values; violated for undeclared variables, parameters as values of AddValue and MultiplyByValue and fractions (witnesses)."
  },
  {
   "property": "C122",
   "status": "partial",
   "theorems": [
    "Verif.Var.condition_value_partial",
    "Verif.Var.condition_value_fails"
   ],
   "note": "Doubles closer than 1e-6 count as equal; violated for whole variables and fractions (witness)."
  },
  {
   "property": "C123",
   "status": "proved",
   "theorems": [
    "Verif.File.normalize_same",
    "Verif.File.normalize_complete",
    "Verif.File.normalize_idem",
    "Verif.File.normalize_shortest",
    "Verif.File.normalize_slashes"
   ],
   "note": ""
  },
  {
   "property": "C124",
   "status": "partial",
   "theorems": [
    "Verif.File.locate_first",
    "Verif.File.combine_spec",
    "Verif.File.dirName_partial",
    "Verif.File.beside_scenario_partial",
    "Verif.File.dirName_fails",
    "Verif.File.beside_scenario_fails"
   ],
   "note": "The order is proved; files beside a scenario in the root directory are not found (witness). Paths with a colon are excluded."
  },
  {
   "property": "C125",
   "status": "partial",
   "theorems": [
    "Verif.File.runs_distinct",
    "Verif.File.run_name_partial",
    "Verif.File.run_name_fails",
    "Verif.File.stem_spec"
   ],
   "note": "Proved for names with an extension and for paths without any dot; violated otherwise (witness)."
  },
  {
   "property": "C126",
   "status": "partial",
   "theorems": [
    "Verif.Udp.xyh_followed",
    "Verif.Udp.h_followed",
    "Verif.Udp.complete_followed_partial",
    "Verif.Udp.complete_reckon_fails",
    "Verif.Udp.latest_only",
    "Verif.Udp.sync_in_order",
    "Verif.Udp.refused_step",
    "Verif.Udp.refused_fails",
    "Verif.Udp.other_fails",
    "Verif.Udp.driver_after_state",
    "Verif.Udp.driver_speed_fails"
   ],
   "note": "Proved for partial states and for complete states whose roll angle agrees with the flag; violated for the flag of complete states, refused messages, messages for other entities and the speed at the change to driver input (witnesses)."
  },
  {
   "property": "C127",
   "status": "partial",
   "theorems": [
    "Verif.Tc.reported_once",
    "Verif.Tc.participant_right_partial",
    "Verif.Tc.participant_fails",
    "Verif.Tc.lane_extent",
    "Verif.Tc.speed_extent_partial",
    "Verif.Tc.speed_extent_fails",
    "Verif.Tc.lane_absolute_iff",
    "Verif.Tc.lane_relative_iff",
    "Verif.Tc.lane_fails",
    "Verif.Tc.speed_target_partial",
    "Verif.Tc.speed_target_fails",
    "Verif.Tc.stamp_right"
   ],
   "note": "Each started action is reported once in order; violated for the participant of several entities, the number of lanes, the distance of speed actions and relative speeds (witnesses, exact conditions)."
  },
  {
   "property": "C128",
   "status": "partial",
   "theorems": [
    "Verif.Lib.unfinished_kept",
    "Verif.Lib.ended_by_own_or_rival",
    "Verif.Lib.replaced_partial",
    "Verif.Lib.frame_oneLive",
    "Verif.Lib.frame_started",
    "Verif.Lib.one_per_frame_partial",
    "Verif.Lib.replaced_fails",
    "Verif.Lib.finished_gone_partial",
    "Verif.Lib.ongoing_live",
    "Verif.Lib.ongoing_partial",
    "Verif.Lib.ongoing_fails",
    "Verif.Lib.stopped_stepped_fails"
   ],
   "note": "Holds with one injection per frame and one end per frame; violated for two injections before a frame and two ends in a frame (witnesses)."
  },
  {
   "property": "C129",
   "status": "partial",
   "theorems": [
    "Verif.Lib.registered_called",
    "Verif.Lib.only_registered",
    "Verif.Lib.calls_partial",
    "Verif.Lib.calls_count",
    "Verif.Lib.calls_fails",
    "Verif.Lib.restart_fails"
   ],
   "note": "Every registered callback is called; exactly once only with one registration per object in the first scenario."
  },
  {
   "property": "C13",
   "status": "proved",
   "theorems": [
    "Verif.Condition.ruleI_trichotomy",
    "Verif.Condition.ruleI_meaning",
    "Verif.Condition.ruleI_negate",
    "Verif.Condition.ruleR_negate",
    "Verif.Condition.ruleR_swap",
    "Verif.Condition.ruleR_outside_band",
    "Verif.Condition.ruleR_inside_band",
    "Verif.Condition.ruleR_trichotomy",
    "Verif.Condition.ruleB_negate",
    "Verif.Condition.ruleB_meaning",
    "Verif.Condition.ruleS_negate",
    "Verif.Condition.ruleS_trichotomy"
   ],
   "note": "exactly at the tolerance none of the three floating point rules holds (ruleR_band_edge)"
  },
  {
   "property": "C130",
   "status": "partial",
   "theorems": [
    "Verif.Lib.change_partial",
    "Verif.Lib.markAt_inForce",
    "Verif.Lib.change_none",
    "Verif.Lib.change_centre",
    "Verif.Lib.attribute_fails",
    "Verif.Lib.heading_fails"
   ],
   "note": "Exact for objects heading along the road on roads whose marks carry the attribute; violated otherwise (witnesses)."
  },
  {
   "property": "C131",
   "status": "partial",
   "theorems": [
    "Verif.Lib.setById_partial",
    "Verif.Lib.added_ids",
    "Verif.Lib.setById_fails",
    "Verif.Lib.delete_one_partial",
    "Verif.Lib.delete_two_fails"
   ],
   "note": "Holds without deletions and for at most one controller; violated otherwise (witnesses)."
  },
  {
   "property": "C132",
   "status": "partial",
   "theorems": [
    "Verif.Nd.speed_range",
    "Verif.Nd.speed_max_partial",
    "Verif.Nd.speed_max_fails",
    "Verif.Nd.rate_partial",
    "Verif.Nd.rate_fails",
    "Verif.Nd.free_road",
    "Verif.Nd.room_to_accelerate",
    "Verif.Nd.full_braking",
    "Verif.Nd.blind_change_fails",
    "Verif.Nd.lead_closest",
    "Verif.Nd.follow_closest",
    "Verif.Nd.right_exact",
    "Verif.Nd.left_iff",
    "Verif.Nd.left_partial",
    "Verif.Nd.left_fails",
    "Verif.Nd.adjacent_sound",
    "Verif.Nd.change_safe_partial",
    "Verif.Nd.follower_room",
    "Verif.Nd.standstill_fails",
    "Verif.Nd.reachable_inv",
    "Verif.Nd.change_spacing"
   ],
   "note": "Proved for speed range, free road, full braking, closest vehicles, lanes considered, spacing of changes and room of the follower; violated at standstill, for masked left lanes, too high desired speeds and during a change (witnesses)."
  },
  {
   "property": "C133",
   "status": "partial",
   "theorems": [
    "Verif.Alks.speed_range",
    "Verif.Alks.step_set",
    "Verif.Alks.standstill_holds",
    "Verif.Alks.aeb_brakes",
    "Verif.Alks.aeb_stops",
    "Verif.Alks.no_early_braking",
    "Verif.Alks.driver_brakes_partial",
    "Verif.Alks.clear_road",
    "Verif.Alks.lead_brakes_partial",
    "Verif.Alks.masked_fails",
    "Verif.Alks.faster_fails",
    "Verif.Alks.cut_in",
    "Verif.Alks.swerve_ignored",
    "Verif.Alks.rebrake_fails"
   ],
   "note": "Speed range, standstill, automatic braking to standstill, reaction time and the reaction to a single vehicle proved; violated with several vehicles, for faster vehicles and when vehicles leave the lane (witnesses)."
  },
  {
   "property": "C134",
   "status": "proved",
   "theorems": [
    "Verif.R157.reg_no_collision",
    "Verif.R157.reg_avoid",
    "Verif.R157.reg_room"
   ],
   "note": "Closed loop with a vehicle ahead that does not slow down; step sizes up to 0.2 s."
  },
  {
   "property": "C135",
   "status": "partial",
   "theorems": [
    "Verif.R157.gap_ge",
    "Verif.R157.rss_safe",
    "Verif.R157.rss_alarm",
    "Verif.R157.rss_same_speed_fails",
    "Verif.R157.fsm_safe",
    "Verif.R157.fsm_range",
    "Verif.R157.pfs_anti",
    "Verif.R157.cfs_anti",
    "Verif.R157.cfs_div"
   ],
   "note": "Proved for slower vehicles ahead, at every instant; for vehicles ahead that are not slower there is never an alarm (witness)."
  },
  {
   "property": "C136",
   "status": "partial",
   "theorems": [
    "Verif.R157.reg_speed",
    "Verif.R157.cruise_range",
    "Verif.R157.cruise_dec",
    "Verif.R157.rss_speed_partial",
    "Verif.R157.rss_speed_fails",
    "Verif.R157.rss_dec",
    "Verif.R157.rss_dec_fails",
    "Verif.R157.fsm_limits",
    "Verif.R157.fsm_demand",
    "Verif.R157.fsm_speed_fails"
   ],
   "note": "Regulation: speed range proved. RSS: upper limit proved, negative speed and unlimited deceleration (witnesses). FSM: deceleration and upper limit proved, negative speed (witness)."
  },
  {
   "property": "C137",
   "status": "proved",
   "theorems": [
    "Verif.R157.detect_closest",
    "Verif.R157.detect_some"
   ],
   "note": "For any list of measured entities; no cut-outs, which these models never report."
  },
  {
   "property": "C138",
   "status": "partial",
   "theorems": [
    "Verif.Rm.create_spec",
    "Verif.Rm.copy_spec",
    "Verif.Rm.update_spec",
    "Verif.Rm.updateChecked_eq",
    "Verif.Rm.bad_handle_partial",
    "Verif.Rm.negative_fails",
    "Verif.Rm.delete_spec_partial",
    "Verif.Rm.delete_shift_fails",
    "Verif.Rm.delete_all",
    "Verif.Rm.init_spec",
    "Verif.Rm.init_string_fails"
   ],
   "note": "Creating, copying, using and loading proved; negative handles, other handles after a deletion and loading from text fail (witnesses)."
  },
  {
   "property": "C139",
   "status": "proved",
   "theorems": [
    "Verif.Rm.lanes_by_index"
   ],
   "note": "For every lane section and mask."
  },
  {
   "property": "C14",
   "status": "proved",
   "theorems": [
    "Verif.Dat.packets_round_trip",
    "Verif.Dat.recording_round_trip",
    "Verif.Dat.fields_round_trip",
    "Verif.Dat.fields_newer",
    "Verif.Dat.fields_older",
    "Verif.Dat.string_round_trip",
    "Verif.Dat.vector_round_trip"
   ],
   "note": "ids and sizes below 2^32; file operations succeed"
  },
  {
   "property": "C140",
   "status": "partial",
   "theorems": [
    "Verif.Rm.validity_partial",
    "Verif.Rm.validity_fails",
    "Verif.Rm.option_first_partial",
    "Verif.Rm.option_value_fails"
   ],
   "note": "Proved for existing signs and the first option asked for; witnesses for the rest."
  },
  {
   "property": "C141",
   "status": "proved",
   "theorems": [
    "Verif.Rm.worldMode_spec",
    "Verif.Rm.modeField_same",
    "Verif.Rm.modeField_field"
   ],
   "note": "All bits of the mode."
  },
  {
   "property": "C142",
   "status": "partial",
   "theorems": [
    "Verif.Rm.ids_unique_partial",
    "Verif.Rm.ids_wrap_fails",
    "Verif.Rm.ids_round_trip",
    "Verif.Rm.generate_new",
    "Verif.Rm.numeric_decimal",
    "Verif.Rm.numeric_other"
   ],
   "note": "Proved when the largest numeric identifier plus the number of roads is below the largest allowed number; beyond that the numbers wrap (witness)."
  },
  {
   "property": "C143",
   "status": "partial",
   "theorems": [
    "Verif.Rm.look_partial",
    "Verif.Rm.look_fails",
    "Verif.Rm.look_fails_case",
    "Verif.Rm.against_cases",
    "Verif.Rm.againstRm_cases"
   ],
   "note": "Right for vehicles heading along the driving direction or turned round to the left; wrong for every vehicle turned round to the right."
  },
  {
   "property": "C144",
   "status": "proved",
   "theorems": [
    "Verif.Env.follows",
    "Verif.Env.latest",
    "Verif.Env.untouched",
    "Verif.Env.clamp_spec",
    "Verif.Env.elevation_fails"
   ],
   "note": "All nine quantities. The range of the sun elevation is the one of the code."
  },
  {
   "property": "C145",
   "status": "proved",
   "theorems": [
    "Verif.Env.classes",
    "Verif.Env.classes_negative",
    "Verif.Env.dayFactor_spec",
    "Verif.Env.factors_range"
   ],
   "note": "For values that are not negative; negative ones are reported as other."
  },
  {
   "property": "C146",
   "status": "partial",
   "theorems": [
    "Verif.Env.seconds_spec",
    "Verif.Env.seconds_day",
    "Verif.Env.time_still",
    "Verif.Env.time_runs_partial",
    "Verif.Env.time_init_fails",
    "Verif.Env.time_second_fails",
    "Verif.Env.time_midnight_fails"
   ],
   "note": "Proved without animation and for the first animated action after the first second, up to midnight; the other cases fail (witnesses)."
  },
  {
   "property": "C147",
   "status": "proved",
   "theorems": [
    "Verif.Env.recorded",
    "Verif.Env.record_env"
   ],
   "note": "The fog factor for visual ranges other than the number that stands for unlimited."
  },
  {
   "property": "C148",
   "status": "proved",
   "theorems": [
    "Verif.Sloppy.speed_band",
    "Verif.Sloppy.speed_adopted"
   ],
   "note": "A speed set by somebody else is followed from the step in which the timer runs out; before, the speed moves towards it."
  },
  {
   "property": "C149",
   "status": "partial",
   "theorems": [
    "Verif.Sloppy.straight_partial",
    "Verif.Sloppy.fuzz_step",
    "Verif.Sloppy.left_lane_fails",
    "Verif.Sloppy.override_heading_fails"
   ],
   "note": "Proved for lanes in the direction of the road (override mode: a road in the direction of the x axis); fails for the others (witnesses)."
  },
  {
   "property": "C15",
   "status": "partial",
   "theorems": [
    "Verif.Dat.readPacket_in_bounds",
    "Verif.Dat.readVector_in_bounds",
    "Verif.Dat.readString_in_bounds_partial",
    "Verif.Dat.readString_out_of_bounds_fails",
    "Verif.Dat.packets_inside_partial",
    "Verif.Dat.truncated_packet_fails",
    "Verif.Dat.truncated_prefix_partial"
   ],
   "note": "violated by the code: string packets are not bounds-checked, a truncated last payload is completed with zeros and accepted"
  },
  {
   "property": "C150",
   "status": "partial",
   "theorems": [
    "Verif.Ref.follows_partial",
    "Verif.Ref.catches_up",
    "Verif.Ref.lin_tendsto",
    "Verif.Ref.lin_behind",
    "Verif.Ref.lin_unstable",
    "Verif.Ref.swings_fails",
    "Verif.Ref.acceleration_fails"
   ],
   "note": "Proved if the time step is small enough for the stiffness, for speeds that stay between 0 and the limit (from behind: shown to do so); fails for larger steps, and for the acceleration (witnesses). Straight lines only."
  },
  {
   "property": "C151",
   "status": "partial",
   "theorems": [
    "Verif.Ref.towards",
    "Verif.Ref.line_step",
    "Verif.Ref.reverse_fails"
   ],
   "note": "Same heading as the reference entity. Driving backwards fails (witness)."
  },
  {
   "property": "C152",
   "status": "partial",
   "theorems": [
    "Verif.Loom.nearest_partial",
    "Verif.Loom.nearest_fails",
    "Verif.Loom.brakes_partial",
    "Verif.Loom.follow_sign",
    "Verif.Loom.speed_partial",
    "Verif.Loom.set_speed",
    "Verif.Loom.no_brake_fails",
    "Verif.Loom.exceeds_fails",
    "Verif.Loom.reverses_fails"
   ],
   "note": "Nearest vehicle: without tangent point and intersection. Braking: gaps of at least 1 m. Speed: at most set speed plus 1 m/s (or the one at activation) for time steps that give at most 1 m/s. The rest fails (witnesses)."
  },
  {
   "property": "C153",
   "status": "partial",
   "theorems": [
    "Verif.FollowRoute.canChange_iff",
    "Verif.FollowRoute.change_safe",
    "Verif.FollowRoute.change_allowed",
    "Verif.FollowRoute.change_fails"
   ],
   "note": "Safe for entities on the same road and the same side of it; entities on other roads or on the other side are ignored and entities in other lanes prevent the change (witness)."
  },
  {
   "property": "C154",
   "status": "partial",
   "theorems": [
    "Verif.FollowRoute.status_same",
    "Verif.FollowRoute.status_other",
    "Verif.FollowRoute.wants_spec",
    "Verif.FollowRoute.section_fails",
    "Verif.FollowRoute.next_target_partial",
    "Verif.FollowRoute.pick_ok_partial",
    "Verif.FollowRoute.out_of_range_fails",
    "Verif.FollowRoute.loop_fails",
    "Verif.FollowRoute.wrong_lane_fails",
    "Verif.FollowRoute.route_built",
    "Verif.FollowRoute.built_target_partial"
   ],
   "note": "Lane by number only; target for routes without a road twice; no access out of range if the last road is nowhere else on the route. A vehicle in a wrong lane may never ask for a lane change. The rest fails (witnesses)."
  },
  {
   "property": "C155",
   "status": "partial",
   "theorems": [
    "Verif.Swarm.population_le",
    "Verif.Swarm.population_below",
    "Verif.Swarm.population_zero",
    "Verif.Swarm.population_reached",
    "Verif.Swarm.single_fails"
   ],
   "note": "Never more than the number, but never the number itself either: at most one less (proved for all runs), which is reached."
  },
  {
   "property": "C156",
   "status": "partial",
   "theorems": [
    "Verif.Swarm.deleted_iff",
    "Verif.Swarm.despawn_each",
    "Verif.Swarm.despawn_ok",
    "Verif.Swarm.deleted_elsewhere_fails"
   ],
   "note": "Exact condition proved; fails if a vehicle was deleted by something else."
  },
  {
   "property": "C157",
   "status": "partial",
   "theorems": [
    "Verif.Swarm.new_vehicles",
    "Verif.Swarm.sample_spec",
    "Verif.Swarm.new_distance_partial",
    "Verif.Swarm.no_junction_partial",
    "Verif.Swarm.distance_fails",
    "Verif.Swarm.overlap_fails",
    "Verif.Swarm.junction_fails"
   ],
   "note": "Place, lane and direction proved; distance only from the place on the ellipse and only to the swarm; junctions only if there are enough places (witnesses for the rest)."
  },
  {
   "property": "C158",
   "status": "partial",
   "theorems": [
    "Verif.Swarm.ellipse_le_iff",
    "Verif.Swarm.ellipse_zero_iff",
    "Verif.Swarm.tangent_direction",
    "Verif.Swarm.corner_on_tangents",
    "Verif.Swarm.zero_found_partial",
    "Verif.Swarm.zero_fails"
   ],
   "note": "Geometry of the ellipse proved; the root is found if the start of the piece has the larger value and the search ends; otherwise it may be missed (witness). End of the search is not proved."
  },
  {
   "property": "C159",
   "status": "partial",
   "theorems": [
    "Verif.Swarm.Pool.pool_content",
    "Verif.Swarm.Pool.random_of_category",
    "Verif.Swarm.Pool.random_of_any",
    "Verif.Swarm.Pool.category_share",
    "Verif.Swarm.Pool.fallback",
    "Verif.Swarm.Pool.zero_weight_partial",
    "Verif.Swarm.Pool.single_trailer_fails"
   ],
   "note": "Shares are shifted by 1e-6; weight zero is possible for the first category (witness)."
  },
  {
   "property": "C16",
   "status": "partial",
   "theorems": [
    "Verif.Dat.replay_faithful_partial",
    "Verif.Dat.replay_lookup_partial",
    "Verif.Dat.replay_between_partial",
    "Verif.Dat.replay_presence",
    "Verif.Dat.recording_accepted",
    "Verif.Dat.recording_defined",
    "Verif.Dat.initial_value_fails",
    "Verif.Dat.reappearing_value_fails",
    "Verif.Dat.outline_change_fails",
    "Verif.Dat.emptied_text_fails"
   ],
   "note": "proved for every value other than the recorder's initial values, outline and box colour; the code violates it for those (negations proved). Light states are not modelled"
  },
  {
   "property": "C160",
   "status": "partial",
   "theorems": [
    "Verif.Place.rel_lane_partial",
    "Verif.Place.rel_lane_along_partial",
    "Verif.Place.rel_road_place",
    "Verif.Place.rel_road_partial",
    "Verif.Place.lane_number_fails",
    "Verif.Place.left_hand_fails",
    "Verif.Place.left_hand_all_fails",
    "Verif.Place.wrong_way_fails",
    "Verif.Place.rel_road_fails"
   ],
   "note": "Proved for lanes that keep their number, for `dsLane` except left-hand traffic in lanes left of the axis and wrong-way drivers, for roads with parallel lanes; the rest fails (witnesses)."
  },
  {
   "property": "C161",
   "status": "partial",
   "theorems": [
    "Verif.Place.rel_object_place",
    "Verif.Place.rel_place_road",
    "Verif.Place.rel_world_place",
    "Verif.Place.rel_object_level_partial",
    "Verif.Place.rel_lane_level_partial",
    "Verif.Place.rel_object_slope_fails",
    "Verif.Place.rel_lane_slope_fails"
   ],
   "note": "Places proved; orientations on level roads; on slopes they fail (witnesses)."
  },
  {
   "property": "C162",
   "status": "partial",
   "theorems": [
    "Verif.Place.world_abs",
    "Verif.Place.world_abs_angles",
    "Verif.Place.world_rel",
    "Verif.Place.world_level_partial",
    "Verif.Place.lane_rel",
    "Verif.Place.lane_abs",
    "Verif.Place.heading_fails",
    "Verif.Place.heading_drift_fails",
    "Verif.Place.pitch_fails"
   ],
   "note": "All angles absolute or all relative, and mixed modes on level roads; mixed modes elsewhere fail (witnesses)."
  },
  {
   "property": "C163",
   "status": "partial",
   "theorems": [
    "Verif.Place.putMode_spec",
    "Verif.Place.set_mode_partial",
    "Verif.Place.all_fails",
    "Verif.Place.all_z_fails",
    "Verif.Place.zero_mode_fails"
   ],
   "note": "SET and UPDATE proved; ALL and mode 0 fail (witnesses)."
  },
  {
   "property": "C164",
   "status": "partial",
   "theorems": [
    "Verif.Place.route_place_partial",
    "Verif.Place.route_heading_partial",
    "Verif.Place.route_pitch_partial",
    "Verif.Place.t_fails",
    "Verif.Place.order_fails",
    "Verif.Place.left_hand_route_fails",
    "Verif.Place.aligned_fails",
    "Verif.Place.route_pitch_fails",
    "Verif.Place.absolute_fails"
   ],
   "note": "Proved for the place as last element, integer t, relative orientation, right-hand traffic; the rest fails (witnesses)."
  },
  {
   "property": "C165",
   "status": "partial",
   "theorems": [
    "Verif.Place.world_offset",
    "Verif.Place.world_height_partial",
    "Verif.Place.world_height_fails"
   ],
   "note": "Fails for heights on roads without elevation."
  },
  {
   "property": "C166",
   "status": "partial",
   "theorems": [
    "Verif.Spring.entity_instant",
    "Verif.Spring.entity_side",
    "Verif.Spring.entity_speed",
    "Verif.Spring.entity_turn_partial",
    "Verif.Spring.entity_far",
    "Verif.Spring.entity_stays",
    "Verif.Spring.rigid_place",
    "Verif.Spring.rigid_ends",
    "Verif.Spring.rigid_heading",
    "Verif.Spring.side_partial",
    "Verif.Spring.entity_end_fails",
    "Verif.Spring.entity_turn_fails",
    "Verif.Spring.entity_reverse_fails",
    "Verif.Spring.rigid_standing_fails",
    "Verif.Spring.any_fails",
    "Verif.Spring.continuous_fails",
    "Verif.Spring.entity_heading_partial",
    "Verif.Spring.entity_forward_partial",
    "Verif.Spring.freespace_values"
   ],
   "note": "Reaching the line with a limited acceleration in finitely many steps is not proved; ends, turns on the line, backward driving and the attribute values named fail (witnesses)."
  },
  {
   "property": "C167",
   "status": "partial",
   "theorems": [
    "Verif.Storyboard.exclusive_partial",
    "Verif.Storyboard.start_keeps_others",
    "Verif.Storyboard.readEvent_known_partial",
    "Verif.Storyboard.readEvent_actors",
    "Verif.Storyboard.masks_partial",
    "Verif.Storyboard.light_only",
    "Verif.Storyboard.readEvent_known_fails",
    "Verif.Storyboard.masks_fails",
    "Verif.Storyboard.Ex.lat_distance_fails",
    "Verif.Storyboard.Ex.unknown_event_fails",
    "Verif.Storyboard.Ex.init_actions_fails",
    "Verif.Storyboard.Ex.injected_fails"
   ],
   "note": "Holds for actions of registered events against actions of registered events and init actions; fails for the cases of the witnesses."
  },
  {
   "property": "C168",
   "status": "partial",
   "theorems": [
    "Verif.Override.pedal_values",
    "Verif.Override.brake_force",
    "Verif.Override.wheel_value",
    "Verif.Override.limits",
    "Verif.Override.gears",
    "Verif.Override.active_partial",
    "Verif.Override.start_last",
    "Verif.Override.start_frame",
    "Verif.Override.after_actions",
    "Verif.Override.table_types",
    "Verif.Override.reported",
    "Verif.Override.readAll_list",
    "Verif.Override.domains_partial",
    "Verif.Override.readAll_domains",
    "Verif.Override.active_fails",
    "Verif.Override.domains_fails",
    "Verif.Override.copy_fails"
   ],
   "note": "Rounding and ghost restarts are left out; truth values, mixed actions and copies fail (witnesses)."
  },
  {
   "property": "C169",
   "status": "partial",
   "theorems": [
    "Verif.Log.logging_succeeds",
    "Verif.Log.console_messages",
    "Verif.Log.callback_messages_partial",
    "Verif.Log.buffer_messages_partial",
    "Verif.Log.file_messages",
    "Verif.Log.no_file",
    "Verif.Log.files_start_with_version",
    "Verif.Log.append_keeps",
    "Verif.Log.path_file",
    "Verif.Log.path_name",
    "Verif.Log.path_directory",
    "Verif.Log.path_missing",
    "Verif.Log.path_no_extension",
    "Verif.Log.validate_idem",
    "Verif.Log.setPath_target",
    "Verif.Log.message_partial",
    "Verif.Log.path_dotted_fails",
    "Verif.Log.message_fails",
    "Verif.Log.message_braces_fails",
    "Verif.Log.time_line_fails",
    "Verif.Log.callback_fails",
    "Verif.Log.buffer_fails",
    "Verif.Log.setPath_fails",
    "Verif.Log.version_fails",
    "Verif.Log.registered"
   ],
   "note": "Fails for the cases of the witnesses; files do not change from outside during the run."
  },
  {
   "property": "C17",
   "status": "partial",
   "theorems": [
    "Verif.Replay.lookup_in_force",
    "Verif.Replay.lookups_in_force",
    "Verif.Replay.inForce_unique",
    "Verif.Replay.binary_in_force_partial",
    "Verif.Replay.binary_last_fails"
   ],
   "note": "proved for the incremental look-up used by the replayer; the binary look-up returns the last but one entry from the last change on (negation proved). Entries at least 2e-6 s apart; get_values_until_time is modelled without theorem"
  },
  {
   "property": "C170",
   "status": "partial",
   "theorems": [
    "Verif.Catalog.reference_spec",
    "Verif.Catalog.registered",
    "Verif.Catalog.named_file_partial",
    "Verif.Catalog.last_name",
    "Verif.Catalog.entity_kind",
    "Verif.Catalog.controllers_partial",
    "Verif.Catalog.named_file_fails",
    "Verif.Catalog.parameter_name_fails",
    "Verif.Catalog.last_name_fails",
    "Verif.Catalog.controllers_fails",
    "Verif.Catalog.controllers_before_partial",
    "Verif.Catalog.controllers_only"
   ],
   "note": "Names of elements without parameters; fails in the cases of the witnesses."
  },
  {
   "property": "C171",
   "status": "partial",
   "theorems": [
    "Verif.Limit.limit_stated",
    "Verif.Limit.reported_speed",
    "Verif.Limit.reported_type",
    "Verif.Limit.limit_default",
    "Verif.Limit.limit_pos",
    "Verif.Limit.interactive_max",
    "Verif.Limit.offroad_max",
    "Verif.Limit.unit_partial",
    "Verif.Limit.unit_fails",
    "Verif.Limit.unit_missing_fails"
   ],
   "note": "The unit reported is wrong in the cases of the witnesses."
  },
  {
   "property": "C172",
   "status": "partial",
   "theorems": [
    "Verif.Mark.dash_points",
    "Verif.Mark.broken_line_partial",
    "Verif.Mark.solid_line",
    "Verif.Mark.explicit_line",
    "Verif.Mark.dash_closed_fails"
   ],
   "note": "The last point of a dash is marked only if it is within a micrometre of the end. Spaces and lengths below a micrometre and negative ones are not covered."
  },
  {
   "property": "C173",
   "status": "partial",
   "theorems": [
    "Verif.Mark.dots_spaced",
    "Verif.Mark.dots_endless",
    "Verif.Mark.dots_end_fails",
    "Verif.Mark.dots_within_fails"
   ],
   "note": "Endless for space 0; the first dot may be outside the mark."
  },
  {
   "property": "C174",
   "status": "partial",
   "theorems": [
    "Verif.Closest.closest_segment",
    "Verif.Closest.closest_point",
    "Verif.Closest.closest_local_partial",
    "Verif.Closest.closest_local_fails",
    "Verif.Closest.closest_last_fails"
   ],
   "note": "The search from the last segment or vertex fails, see the witnesses."
  },
  {
   "property": "C175",
   "status": "proved",
   "theorems": [
    "Verif.Closest.corner_continuous",
    "Verif.Closest.corner_middle",
    "Verif.Closest.end_angle",
    "Verif.Closest.segment_even"
   ],
   "note": ""
  },
  {
   "property": "C176",
   "status": "proved",
   "theorems": [
    "Verif.Clock.date_text_iff",
    "Verif.Clock.accepted_seconds"
   ],
   "note": ""
  },
  {
   "property": "C177",
   "status": "partial",
   "theorems": [
    "Verif.Clock.clock_partial",
    "Verif.Clock.reports_set",
    "Verif.Clock.clock_rate",
    "Verif.Clock.clock_midnight_fails",
    "Verif.Clock.clock_start_fails",
    "Verif.Clock.clock_again_fails"
   ],
   "note": "Holds up to midnight for an animation started at a positive time."
  },
  {
   "property": "C178",
   "status": "partial",
   "theorems": [
    "Verif.Interact.limit_kept",
    "Verif.Interact.pedals",
    "Verif.Interact.lat_moves",
    "Verif.Interact.long_only",
    "Verif.Interact.wheels",
    "Verif.Interact.keys_partial",
    "Verif.Interact.keys_fails",
    "Verif.Interact.deceleration_fails",
    "Verif.Interact.align_fails",
    "Verif.Interact.steers"
   ],
   "note": "Keys hold unless opposite keys are held together; the alignment on activation is lost, and a falling speed limit is applied at once."
  },
  {
   "property": "C179",
   "status": "partial",
   "theorems": [
    "Verif.Choice.follows_route_partial",
    "Verif.Choice.exit_first",
    "Verif.Choice.closest_angle",
    "Verif.Choice.only_connections",
    "Verif.Choice.single",
    "Verif.Choice.second_pass_fails",
    "Verif.Choice.turn_back_fails"
   ],
   "note": "Routes which pass the junction once from the road, not turning back; equal headings are compared up to 1e-6 per connection."
  },
  {
   "property": "C18",
   "status": "partial",
   "theorems": [
    "Verif.Replay.op_safe",
    "Verif.Replay.navigation_safe",
    "Verif.Replay.load_safe",
    "Verif.Replay.limits_safe",
    "Verif.Replay.navigation_within",
    "Verif.Replay.next_is_next",
    "Verif.Replay.previous_is_previous",
    "Verif.Replay.next_visits_all",
    "Verif.Replay.goToTime_finds",
    "Verif.Replay.play_no_skip",
    "Verif.Replay.op_located",
    "Verif.Replay.load_located",
    "Verif.Replay.frame_time_fails",
    "Verif.Replay.play_skips_frame_fails",
    "Verif.Replay.start_time_fails",
    "Verif.Replay.stop_time_fails"
   ],
   "note": "proved: safety, limits, next/previous/playing; the code violates it after a jump between two frames and for some start and stop times (negations proved)"
  },
  {
   "property": "C180",
   "status": "proved",
   "theorems": [
    "Verif.FreeDist.free_distance",
    "Verif.FreeDist.free_distance_none",
    "Verif.FreeDist.free_distance_symm",
    "Verif.FreeDist.free_distance_point",
    "Verif.FreeDist.free_distance_point_inside",
    "Verif.FreeDist.pointHit_iff"
   ],
   "note": "Sides of at least 2e-6; distances up to 1e10. Boxes without a common point, but with no gap of more than a millionth along any side, may be at distance 0."
  },
  {
   "property": "C181",
   "status": "partial",
   "theorems": [
    "Verif.FreeDist.Road.object_partial",
    "Verif.FreeDist.Road.object_none",
    "Verif.FreeDist.Road.point_partial",
    "Verif.FreeDist.Road.point_none",
    "Verif.FreeDist.Road.contains_fails",
    "Verif.FreeDist.Road.point_fails",
    "Verif.FreeDist.Road.middle_fails"
   ],
   "note": "Not: a target beside the middle part of the measuring object, points beside an object across the road or beside its middle (violated)."
  },
  {
   "property": "C182",
   "status": "proved",
   "theorems": [
    "Verif.Entities.point_plane",
    "Verif.Entities.point_road",
    "Verif.Entities.point_none",
    "Verif.Entities.point_train"
   ],
   "note": "Trains of at most 100 vehicles; distances below 1e10."
  },
  {
   "property": "C183",
   "status": "partial",
   "theorems": [
    "Verif.Visible.visibility_partial",
    "Verif.Visible.visibility_train_fails",
    "Verif.Visible.visibility_shown",
    "Verif.Visible.visibility_stable",
    "Verif.Visible.visibility_attribute",
    "Verif.Visible.visibility_ghost"
   ],
   "note": "Not: vehicles of a train more than one coupling away (violated)."
  },
  {
   "property": "C184",
   "status": "partial",
   "theorems": [
    "Verif.Teleport.teleport_ignored",
    "Verif.Teleport.teleport_partial",
    "Verif.Teleport.teleport_restart",
    "Verif.Teleport.teleport_trajectory_fails"
   ],
   "note": "Not: the place on a trajectory (violated)."
  },
  {
   "property": "C185",
   "status": "partial",
   "theorems": [
    "Verif.Geom.segment_straight",
    "Verif.Geom.segment_ratio",
    "Verif.Geom.segment_chain_partial",
    "Verif.Geom.segment_gap_fails",
    "Verif.Geom.segment_height"
   ],
   "note": "Segments of at least 1e-6. Not: positions exactly on the normal at a vertex (violated)."
  },
  {
   "property": "C186",
   "status": "partial",
   "theorems": [
    "Verif.Offroad.follow_steers_partial",
    "Verif.Offroad.follow_wheels_partial",
    "Verif.Offroad.follow_throttle",
    "Verif.Offroad.follow_speed"
   ],
   "note": "Steering: the vehicles are at least 1e-6 apart in x (otherwise the direction is found up to the angle of 1e-6). Speed: if it is within the limit before the step."
  },
  {
   "property": "C19",
   "status": "proved",
   "theorems": [
    "Verif.ParamDist.numPermutations_product",
    "Verif.ParamDist.entries_are_pick",
    "Verif.ParamDist.entries_unselected",
    "Verif.ParamDist.picks_length",
    "Verif.ParamDist.picks_complete",
    "Verif.ParamDist.picks_nodup",
    "Verif.ParamDist.increment_next",
    "Verif.ParamDist.increments_visit_all",
    "Verif.ParamDist.setIndex_accepts",
    "Verif.ParamDist.reading_safe",
    "Verif.ParamDist.permutations_overflow_fails"
   ],
   "note": "for less than 2^31 permutations; beyond, the count overflows (permutations_overflow_fails)"
  },
  {
   "property": "C20",
   "status": "partial",
   "theorems": [
    "Verif.Params.scope_restores",
    "Verif.Params.scope_lookup",
    "Verif.Params.assignment_survives",
    "Verif.Params.assignment_hits_visible",
    "Verif.Params.modifyFirst_exact",
    "Verif.Params.declare_shadows",
    "Verif.Params.catalog_assignment",
    "Verif.Params.reader_restores_partial",
    "Verif.Params.vehicle_with_trailer_fails",
    "Verif.Params.story_fails",
    "Verif.Params.maneuver_fails",
    "Verif.Params.shadow_assigned_fails"
   ],
   "note": "proved for scopes opened and closed once; the scenario reader opens most scopes twice but closes them once, so nested elements leak parameters (negations proved)"
  },
  {
   "property": "C21",
   "status": "partial",
   "theorems": [
    "Verif.Entities.registry_consistent",
    "Verif.Entities.ids_never_reused",
    "Verif.Entities.add_new_id",
    "Verif.Entities.activate_convoy",
    "Verif.Entities.deactivate_convoy",
    "Verif.Entities.add_convoy",
    "Verif.Entities.removeObject_convoy",
    "Verif.Entities.getObjectById_exact",
    "Verif.Entities.getObjectByName_exact",
    "Verif.Entities.getObjectIdxById_exact",
    "Verif.Entities.nameExists_active",
    "Verif.Entities.removeById_exact",
    "Verif.Entities.indexExists_fails",
    "Verif.Entities.remove_pooled_trailer_fails",
    "Verif.Entities.remove_trailer_fails",
    "Verif.Entities.add_twice_fails",
    "Verif.Entities.delete_deactivated_fails",
    "Verif.Entities.activate_stops_fails",
    "Verif.Entities.remove_cycle_fails"
   ],
   "note": "proved for histories that respect the conditions of Legal; the code does not refuse the others (negations proved)"
  },
  {
   "property": "C22",
   "status": "partial",
   "theorems": [
    "Verif.Router.calculatePath_optimal",
    "Verif.Router.calculatePath_heap",
    "Verif.Router.calculatePath_ends",
    "Verif.Router.calculatePath_empty",
    "Verif.Router.findGoal_spec",
    "Verif.Router.findGoal_ends",
    "Verif.Router.mem_nextNodes",
    "Verif.Router.heap_queue",
    "Verif.Router.weightCompare_order",
    "Verif.Router.weightCompare_tie",
    "Verif.Router.shortest_cost",
    "Verif.Router.shortest_total",
    "Verif.Router.fastest_cost",
    "Verif.Router.minInter_cost",
    "Verif.Router.start_cost_shortest",
    "Verif.Router.start_cost_fastest",
    "Verif.Router.leaves_far_end",
    "Verif.Router.leaves_far_end_junction",
    "Verif.Router.leaves_far_end_direct",
    "Verif.Router.target_after_junction_fails",
    "Verif.Router.behind_on_same_lane_fails",
    "Verif.Router.direct_junction_fails"
   ],
   "note": "cheapest with respect to the weights of the code, and the search always ends; the weights ignore the target road after a junction, same-lane targets behind the start are refused, and a number shared by road and direct junction confuses the direction (negations proved)"
  },
  {
   "property": "C23",
   "status": "proved",
   "theorems": [
    "Verif.AABB.build_exact",
    "Verif.AABB.candidates_exact",
    "Verif.AABB.intersect_perm",
    "Verif.AABB.collide_iff",
    "Verif.AABB.collide_symm",
    "Verif.AABB.boxOf_has",
    "Verif.AABB.boxOf_tight",
    "Verif.AABB.touching_triangles_found",
    "Verif.AABB.intersect_symm",
    "Verif.AABB.divide_spec",
    "Verif.AABB.rebuild_empty_fails"
   ],
   "note": "for trees built once, as all callers do"
  },
  {
   "property": "C24",
   "status": "proved",
   "theorems": [
    "Verif.Util.normalize_same_place",
    "Verif.Util.normalize_canonical",
    "Verif.Util.normalize_idempotent",
    "Verif.Util.normalize_shape"
   ],
   "note": "Windows drive prefixes and UNC roots are not modelled"
  },
  {
   "property": "C25",
   "status": "partial",
   "theorems": [
    "Verif.Options.last_value_wins",
    "Verif.Options.parse_last_wins",
    "Verif.Options.parse_default_value",
    "Verif.Options.parse_default_option",
    "Verif.Options.parse_ok_iff",
    "Verif.Options.parse_crash_iff",
    "Verif.Options.parse_set_iff",
    "Verif.Options.set_then_get",
    "Verif.Options.other_options_untouched",
    "Verif.Options.added_values",
    "Verif.Options.change_value",
    "Verif.Options.reset_keeps_persistent",
    "Verif.Options.value_survives_declaration",
    "Verif.Options.default_after_value_witness",
    "Verif.Options.bare_repeat_witness",
    "Verif.Options.flag_then_value_fails"
   ],
   "note": "holds for declared options without default value in every sequence of calls; deviations for options named again without value and for undeclared options (witnesses)"
  },
  {
   "property": "C26",
   "status": "partial",
   "theorems": [
    "Verif.Config.postProcess_quiet",
    "Verif.Config.postProcess_window_partial",
    "Verif.Config.postProcess_osc_partial",
    "Verif.Config.postProcess_osc_str_partial",
    "Verif.Config.postProcess_sublist",
    "Verif.Config.without_spec",
    "Verif.Config.adjacent_fails",
    "Verif.Config.incomplete_window_witness",
    "Verif.Config.stale_index_witness"
   ],
   "note": "false for adjacent repetitions, incomplete options and two overrides at once (negations proved); holds otherwise"
  },
  {
   "property": "C27",
   "status": "partial",
   "theorems": [
    "Verif.Collision.pairs_exact",
    "Verif.Collision.first_exact_partial",
    "Verif.Collision.no_vanished",
    "Verif.Collision.lists_exact_partial",
    "Verif.Collision.stale_witness",
    "Verif.Collision.duplicate_witness",
    "Verif.Collision.lists_exact_fails"
   ],
   "note": "false for objects that are added again (negation proved); holds for all other histories, and the pairs of a frame are always exact"
  },
  {
   "property": "C28",
   "status": "proved",
   "theorems": [
    "Verif.Engine.reached_sound",
    "Verif.Engine.true_monotone",
    "Verif.Engine.frame_sim",
    "Verif.Engine.frame_mode",
    "Verif.Engine.resume_synced",
    "Verif.Engine.frame_result"
   ],
   "note": "for non-negative steps (monotonicity for all steps)"
  },
  {
   "property": "C29",
   "status": "partial",
   "theorems": [
    "Verif.Engine.key_inj",
    "Verif.Engine.others_untouched",
    "Verif.Engine.inactive_forgotten",
    "Verif.Engine.active_answered",
    "Verif.Engine.success_fresh",
    "Verif.Engine.outdated_measured",
    "Verif.Engine.answer_origin_partial",
    "Verif.Engine.other_type_witness",
    "Verif.Engine.squared_witness",
    "Verif.Engine.squared_kept_witness",
    "Verif.Engine.reverse_witness",
    "Verif.Engine.answer_origin_fails"
   ],
   "note": "false when the return value is not 0 (negation proved); with return value 0 the answer is exact, otherwise it is an earlier measurement of the same pair and type or one of two placeholders"
  },
  {
   "property": "C30",
   "status": "proved",
   "theorems": [
    "Verif.Transition.value_at_zero",
    "Verif.Transition.value_at_end",
    "Verif.Transition.value_mono",
    "Verif.Transition.value_anti",
    "Verif.Transition.value_between",
    "Verif.Transition.value_mid",
    "Verif.Transition.value_immediate",
    "Verif.Transition.param_in_range",
    "Verif.Transition.param_after_step",
    "Verif.Transition.value_between_steps",
    "Verif.Transition.param_progress",
    "Verif.Transition.prim_is_derivative",
    "Verif.Transition.prim_bound",
    "Verif.Transition.peak_is_peak",
    "Verif.Transition.rate_respected",
    "Verif.Transition.max_rate_respected",
    "Verif.Transition.reader_transitions"
   ],
   "note": "exact real arithmetic"
  },
  {
   "property": "C31",
   "status": "partial",
   "theorems": [
    "Verif.Transition.speed_limited",
    "Verif.Transition.acceleration_limited",
    "Verif.Transition.step_acceleration",
    "Verif.Transition.step_wf",
    "Verif.Transition.start_wf",
    "Verif.Transition.target_kept",
    "Verif.Transition.start_jump_fails"
   ],
   "note": "false when an action with step shape starts (negation proved); holds in all steps, up to 1e-6, for steps longer than 1e-6 s"
  },
  {
   "property": "C32",
   "status": "proved",
   "theorems": [
    "Verif.LaneArith.getRelativeLaneId_moves",
    "Verif.LaneArith.getLaneIdDelta_counts",
    "Verif.LaneArith.getRelativeLaneId_delta",
    "Verif.LaneArith.getLaneIdDelta_relative",
    "Verif.LaneArith.getRelativeLaneId_add",
    "Verif.LaneArith.laneChangeRelativeTarget_moves",
    "Verif.LaneArith.laneChange_eq_relativeLaneId"
   ],
   "note": "lane 0 (centre lane) is excluded by hypothesis; lane_zero_not_inverse and laneChange_lane_zero_differs show why"
  },
  {
   "property": "C33",
   "status": "partial",
   "theorems": [
    "Verif.Lights.setState_lum",
    "Verif.Lights.emission_range",
    "Verif.Lights.emitting_partial",
    "Verif.Lights.emitting_fails",
    "Verif.Lights.conflicting_symm",
    "Verif.Lights.conflicting_iff",
    "Verif.Lights.lampsOf_iff",
    "Verif.Lights.indicators_exclusive",
    "Verif.Lights.reset_emitting_fails"
   ],
   "note": "emission false for colours without blue (negation proved), holds if all channels of the brightest colour are at least 0.6; conflicts proved"
  },
  {
   "property": "C34",
   "status": "partial",
   "theorems": [
    "Verif.Geom.interval2PI_spec",
    "Verif.Geom.interval2PI_eq_iff",
    "Verif.Geom.interval2PI_rounded",
    "Verif.Geom.interval2PI_rounding_fails",
    "Verif.Geom.interval2PI_direction",
    "Verif.Geom.intervalPI_spec",
    "Verif.Geom.intervalPI_eq",
    "Verif.Geom.intervalPI_half_open_fails",
    "Verif.Geom.angleDiff_spec",
    "Verif.Geom.absAngleDiff_spec",
    "Verif.Geom.absAngleDiff_comm",
    "Verif.Geom.isForward_iff",
    "Verif.Geom.angleSum_spec",
    "Verif.Geom.angleOfVector_range",
    "Verif.Geom.angleOfVector_direction",
    "Verif.Geom.angleOfVector_near"
   ],
   "note": "false at the open ends of both intervals (negations proved), holds otherwise"
  },
  {
   "property": "C35",
   "status": "proved",
   "theorems": [
    "Verif.Road.inner_eq_outer_neighbour",
    "Verif.Road.outer_sub_inner",
    "Verif.Road.center_midway",
    "Verif.Road.outer_eq_sum",
    "Verif.Road.outer_mono_left",
    "Verif.Road.outer_mono_right",
    "Verif.Road.outer_grows",
    "Verif.Road.lanes_beside",
    "Verif.Road.lanes_sorted",
    "Verif.Road.lane_found",
    "Verif.Road.order_irrelevant",
    "Verif.Road.totalPrim_eq_partial",
    "Verif.Road.totalPrim_fails_witness",
    "Verif.Road.offsetBetween_consistent",
    "Verif.Road.lane_width"
   ],
   "note": "exact arithmetic"
  },
  {
   "property": "C36",
   "status": "partial",
   "theorems": [
    "Verif.Road.addAll_sorted",
    "Verif.Road.entry_in_force",
    "Verif.Road.entry_before_all",
    "Verif.Road.entry_none_iff",
    "Verif.Road.entry_order_irrelevant",
    "Verif.Road.width_in_force",
    "Verif.Road.laneOffset_in_force",
    "Verif.Road.laneOffset_none",
    "Verif.Road.laneOffset_before_first_jumps_witness",
    "Verif.Road.laneOffset_before_first",
    "Verif.Road.elevIdx_bounds",
    "Verif.Road.z_in_force_partial",
    "Verif.Road.roll_in_force_partial",
    "Verif.Road.roll_hint_independent_fails",
    "Verif.Road.z_hint_independent_fails",
    "Verif.Road.z_before_first",
    "Verif.Road.type_in_force",
    "Verif.Road.type_before_all",
    "Verif.Road.section_in_force_partial",
    "Verif.Road.section_from_start",
    "Verif.Road.section_hint_independent_fails",
    "Verif.Road.section_beyond_end",
    "Verif.Road.section_hint_out_of_range",
    "Verif.Road.material_in_force_partial",
    "Verif.Road.addMaterial_sorted_fails",
    "Verif.Road.material_replaced"
   ],
   "note": "false at starts of entries for sections, heights and roll (negations proved); holds elsewhere and for widths, lane offsets and types everywhere"
  },
  {
   "property": "C37",
   "status": "partial",
   "theorems": [
    "Verif.Junction.count_eq",
    "Verif.Junction.byIdx_eq",
    "Verif.Junction.enumeration",
    "Verif.Junction.byIdx_without_section_fails",
    "Verif.Junction.roads_partial",
    "Verif.Junction.roads_null_fails",
    "Verif.Junction.throughJunction_eq",
    "Verif.Junction.connectingLane_mem"
   ],
   "note": "undefined behaviour for connecting roads without lane section and, for the variants by road, null incoming roads (negations proved)"
  },
  {
   "property": "C38",
   "status": "partial",
   "theorems": [
    "Verif.Semaphore.flag_up",
    "Verif.Semaphore.wait_justified_partial",
    "Verif.Semaphore.wait_spurious_fails",
    "Verif.Semaphore.single_waiter_not_stuck",
    "Verif.Semaphore.two_waiters_stuck_fails"
   ],
   "note": "false with spurious wake-ups (negation proved), holds without"
  },
  {
   "property": "C39",
   "status": "proved",
   "theorems": [
    "Verif.Util.split_join",
    "Verif.Util.join_split",
    "Verif.Util.split_parts_clean",
    "Verif.Util.split_count",
    "Verif.Util.swapByteOrder_spec",
    "Verif.Util.swapByteOrder_involutive"
   ],
   "note": ""
  },
  {
   "property": "C40",
   "status": "proved",
   "theorems": [
    "Verif.Util.date_valid_iff"
   ],
   "note": "the regular expression and get_time that produce the fields are not modelled; years before 1900 are rejected"
  },
  {
   "property": "C41",
   "status": "partial",
   "theorems": [
    "Verif.Storyboard.Ex.reexecution_count_witness",
    "Verif.Storyboard.executions_granted_partial"
   ],
   "note": "the code violates the property for events in a re-executed group: num_executions_ is not reset; negation proved on a witness"
  },
  {
   "property": "C42",
   "status": "partial",
   "theorems": [
    "Verif.Storyboard.Ex.declined_action_hangs_event",
    "Verif.Storyboard.running_has_live_child"
   ],
   "note": "the code violates the property; negation proved: the event runs forever"
  },
  {
   "property": "C43",
   "status": "partial",
   "theorems": [
    "Verif.Condition.register_chronological_partial",
    "Verif.Condition.evaluate_defined_partial",
    "Verif.Condition.rewind_order_fails",
    "Verif.Condition.same_time_undefined"
   ],
   "note": "violated by the code; holds while time moves forward"
  },
  {
   "property": "C44",
   "status": "partial",
   "theorems": [
    "Verif.Condition.trigger_order_irrelevant",
    "Verif.Condition.edge_order_witness"
   ],
   "note": "violated by the code for edge conditions without delay; proved for all others"
  },
  {
   "property": "C45",
   "status": "partial",
   "theorems": [
    "Verif.Util.quoted_arguments_partial",
    "Verif.Util.quoted_drops_words_fails"
   ],
   "note": "violated by the code: words before an opening quotation mark are dropped"
  },
  {
   "property": "C46",
   "status": "partial",
   "theorems": [
    "Verif.Replay.replace_spec",
    "Verif.Replay.clean_spec",
    "Verif.Replay.index_cut_partial",
    "Verif.Replay.index_single_fails"
   ],
   "note": "replacement and clean-up proved; the index for cutting a timeline is wrong for timelines with one entry (negation proved)"
  },
  {
   "property": "C47",
   "status": "partial",
   "theorems": [
    "Verif.ParamDist.range_values",
    "Verif.ParamDist.range_bounds",
    "Verif.ParamDist.range_nonpositive_step_fails"
   ],
   "note": "proved for positive steps; a zero, missing or negative step never ends (negation proved)"
  },
  {
   "property": "C48",
   "status": "proved",
   "theorems": [
    "Verif.Params.setInt_get",
    "Verif.Params.setDouble_get",
    "Verif.Params.setStr_get",
    "Verif.Params.setBool_get",
    "Verif.Params.setByString_get",
    "Verif.Params.setters_accept",
    "Verif.Params.setters_frame",
    "Verif.Params.setTyped_exact"
   ],
   "note": "conversions between text and numbers are arbitrary functions"
  },
  {
   "property": "C49",
   "status": "partial",
   "theorems": [
    "Verif.Params.resolve_expands",
    "Verif.Params.expands_no_ref",
    "Verif.Params.resolve_terminates",
    "Verif.Params.resolve_mono",
    "Verif.Params.resolve_hangs_fails"
   ],
   "note": "proved if no value contains a reference; a value that mentions itself makes the code hang (negation proved)"
  },
  {
   "property": "C50",
   "status": "proved",
   "theorems": [
    "Verif.Params.callback_values"
   ],
   "note": "distinct names without prefix; values that are ${...} expressions are not covered"
  },
  {
   "property": "C51",
   "status": "partial",
   "theorems": [
    "Verif.Entities.disconnect_linked",
    "Verif.Entities.connect_linked_partial",
    "Verif.Entities.connect_stolen_fails",
    "Verif.Entities.connect_no_hitch_fails"
   ],
   "note": "false for a trailer that is already towed and for a vehicle without hitch (negations proved)"
  },
  {
   "property": "C52",
   "status": "partial",
   "theorems": [
    "Verif.Entities.freeSpace_min_partial",
    "Verif.Entities.freeSpace_trailer_fails",
    "Verif.Entities.roadDistance_ignores_trailers_fails"
   ],
   "note": "Euclidean and entity coordinates, target not towed, at most 100 pairs; false otherwise (negations proved)"
  },
  {
   "property": "C53",
   "status": "partial",
   "theorems": [
    "Verif.AABB.overlap_exact_partial",
    "Verif.AABB.intersection2d_iff",
    "Verif.AABB.testEdges_iff",
    "Verif.AABB.testVertex_iff",
    "Verif.AABB.separated_iff",
    "Verif.AABB.touching_reported_partial",
    "Verif.AABB.overlap_missed_fails",
    "Verif.AABB.overlap_invented_fails",
    "Verif.AABB.overlap_asymmetric_fails"
   ],
   "note": "false in one of the branches of the test (negations proved), exact in all others; triangles without area are not covered"
  },
  {
   "property": "C54",
   "status": "partial",
   "theorems": [
    "Verif.AABB.lineSegments_cover",
    "Verif.AABB.line_uncovered_fails"
   ],
   "note": "coverage holds from the first distance on; the first distance is wrong for geometries that do not start at zero (negation proved)"
  },
  {
   "property": "C55",
   "status": "proved",
   "theorems": [
    "Verif.Config.load_iff",
    "Verif.Config.expandLoop_iff",
    "Verif.Config.loadFile_iff",
    "Verif.Config.loadFiles_iff",
    "Verif.Config.means_unique",
    "Verif.Config.means_clean"
   ],
   "note": "for files whose values do not contain the option naming a config file as a word"
  },
  {
   "property": "C56",
   "status": "partial",
   "theorems": [
    "Verif.Config.initialise_limit_fails",
    "Verif.Config.same_arguments_partial"
   ],
   "note": "false: exactly the first 100 files of a process load (negation proved)"
  },
  {
   "property": "C57",
   "status": "partial",
   "theorems": [
    "Verif.Collision.collision_symm",
    "Verif.Collision.reported_touch",
    "Verif.Collision.touching_reported_partial",
    "Verif.Collision.touching_centred_partial",
    "Verif.Collision.missed_witness",
    "Verif.Collision.touching_reported_fails"
   ],
   "note": "overlaps are missed for boxes far off their reference point (negation proved); reported ones are always real"
  },
  {
   "property": "C58",
   "status": "proved",
   "theorems": [
    "Verif.Collision.long_gap",
    "Verif.Collision.lat_gap",
    "Verif.Collision.point_exact"
   ],
   "note": "exact arithmetic; gaps up to a millionth count as none"
  },
  {
   "property": "C59",
   "status": "partial",
   "theorems": [
    "Verif.Engine.frame_returns_partial",
    "Verif.Engine.frame_result",
    "Verif.Engine.frame_advance",
    "Verif.Engine.zero_step_hangs",
    "Verif.Engine.frame_returns_fails"
   ],
   "note": "false for a step of 0 (negation proved); holds for all other steps and finitely many restarts"
  },
  {
   "property": "C60",
   "status": "partial",
   "theorems": [
    "Verif.Transition.speed_action_ends",
    "Verif.Transition.zero_rate_never_ends"
   ],
   "note": "false for a rate below 1e-6 (negation proved); holds otherwise for limits of at least 1e-6 and steps longer than 1e-6 s"
  },
  {
   "property": "C61",
   "status": "partial",
   "theorems": [
    "Verif.Transition.driven_eq",
    "Verif.Transition.distance_driven",
    "Verif.Transition.repeated_distance_fails"
   ],
   "note": "false for a second execution (negation proved); holds for the first, without change of driving direction and within the limits"
  },
  {
   "property": "C62",
   "status": "proved",
   "theorems": [
    "Verif.Transition.acceleration_bound",
    "Verif.Transition.lane_offset_acceleration",
    "Verif.Transition.lane_offset_ends"
   ],
   "note": "exact real arithmetic; acceleration for cubic and sinusoidal shape"
  },
  {
   "property": "C63",
   "status": "partial",
   "theorems": [
    "Verif.Transition.exSelf_start",
    "Verif.Transition.relative_to_self_fails"
   ],
   "note": "false; the negation is proved"
  },
  {
   "property": "C64",
   "status": "partial",
   "theorems": [
    "Verif.Geom.seen_exists",
    "Verif.Geom.detects_ahead_partial",
    "Verif.Geom.detects_left_partial",
    "Verif.Geom.detects_mirrored_fails",
    "Verif.Geom.detects_wrong_side_fails",
    "Verif.Geom.detects_right_fails",
    "Verif.Geom.update_exact",
    "Verif.Geom.update_sound",
    "Verif.Geom.update_overflow_fails",
    "Verif.Geom.hit_local",
    "Verif.Geom.yaw_rate_fails"
   ],
   "note": "false for sensors not looking straight ahead and for more than maxObj objects (negations proved); exact for mounting angle 0 and objects at least 1e-6 away"
  },
  {
   "property": "C65",
   "status": "proved",
   "theorems": [
    "Verif.Geom.project_spec",
    "Verif.Geom.project_nearest",
    "Verif.Geom.between_line",
    "Verif.Geom.edge_distance",
    "Verif.Geom.edge_distance_tiny",
    "Verif.Geom.projectSigned_eq",
    "Verif.Geom.lineDistSigned_spec",
    "Verif.Geom.sideOfVec_spec",
    "Verif.Geom.lineAngleDist_spec"
   ],
   "note": "exact real arithmetic; segments shorter than 1e-6 in both coordinates up to 2e-6"
  },
  {
   "property": "C66",
   "status": "partial",
   "theorems": [
    "Verif.Geom.lineIntersection_spec",
    "Verif.Geom.circle_two",
    "Verif.Geom.circle_none",
    "Verif.Geom.circle_one",
    "Verif.Geom.circle_nan_fails",
    "Verif.Geom.frames_inverse",
    "Verif.Geom.frames_positive_fails",
    "Verif.Geom.rotate_spec"
   ],
   "note": "false for a discriminant of exactly -1e-6 (negation proved); a nearly tangent line gives one point near the circle"
  },
  {
   "property": "C67",
   "status": "partial",
   "theorems": [
    "Verif.Geom.rot_isRot",
    "Verif.Geom.rot_eulerOf",
    "Verif.Geom.compose_spec_partial",
    "Verif.Geom.invert_spec",
    "Verif.Geom.relAngles_spec_partial",
    "Verif.Geom.relAngles_compose_partial",
    "Verif.Geom.invert_ninety_fails",
    "Verif.Geom.relAngles_ninety_fails",
    "Verif.Geom.compose_ninety_fails",
    "Verif.Geom.rotateVec_inverse_partial",
    "Verif.Geom.rotateVec_ninety_fails",
    "Verif.Geom.rotateVec_near"
   ],
   "note": "false at 90 degrees (negations proved); holds where no entry is replaced and the elimination succeeds"
  },
  {
   "property": "C68",
   "status": "partial",
   "theorems": [
    "Verif.Road.heightIdx_spec",
    "Verif.Road.height_in_force_partial",
    "Verif.Road.height_between_edges",
    "Verif.Road.height_before_first_fails",
    "Verif.Road.height_without_width",
    "Verif.Road.height_zero_width"
   ],
   "note": "false before the first entry (negation proved); positive width needed"
  },
  {
   "property": "C69",
   "status": "partial",
   "theorems": [
    "Verif.Road.closest_spec",
    "Verif.Road.inside_unique",
    "Verif.Road.lane_track_lane",
    "Verif.Road.track_lane_track",
    "Verif.Road.nearest_edge_fails_witness"
   ],
   "note": "nearest by centre, not by edge (negation proved); round trips proved"
  },
  {
   "property": "C70",
   "status": "partial",
   "theorems": [
    "Verif.Road.roadWidth_partial",
    "Verif.Road.roadWidth_without_centre_fails_witness"
   ],
   "note": "false without centre lane (negation proved)"
  },
  {
   "property": "C71",
   "status": "partial",
   "theorems": [
    "Verif.Road.connected_to_end_partial",
    "Verif.Road.connected_to_start_partial",
    "Verif.Road.connected_within_fails",
    "Verif.Road.connected_backwards_witness",
    "Verif.Road.laneInfo_follows_links"
   ],
   "note": "false for targets within the road (negation proved)"
  },
  {
   "property": "C72",
   "status": "partial",
   "theorems": [
    "Verif.Lights.intensity_linear",
    "Verif.Lights.run_going",
    "Verif.Lights.final_intensity_partial",
    "Verif.Lights.final_intensity_fails",
    "Verif.Lights.instant",
    "Verif.Lights.tiny_transition_fails",
    "Verif.Lights.minMax_partial",
    "Verif.Lights.minMax_bright_fails",
    "Verif.Lights.switched_on_partial",
    "Verif.Lights.switched_on_bright_fails",
    "Verif.Lights.flash_phase",
    "Verif.Lights.first_flash"
   ],
   "note": "false for steps that do not divide the transition time and for bright colours (negations proved)"
  },
  {
   "property": "C73",
   "status": "partial",
   "theorems": [
    "Verif.Signal.words_iff",
    "Verif.Signal.check_iff",
    "Verif.Signal.update_spec",
    "Verif.Signal.checked_update",
    "Verif.Signal.condition_partial",
    "Verif.Signal.condition_same_words_fails",
    "Verif.Signal.lamps_tile"
   ],
   "note": "condition false for texts with the same words but other separators (negation proved)"
  },
  {
   "property": "C74",
   "status": "partial",
   "theorems": [
    "Verif.Control.new_inactive",
    "Verif.Control.activate_domain",
    "Verif.Control.activate_frame",
    "Verif.Control.activate_sound",
    "Verif.Control.active_iff_some_domain",
    "Verif.Control.assign_effect",
    "Verif.Control.unassign_effect",
    "Verif.Control.unassignAll_effect",
    "Verif.Control.unassignAll_links_fails",
    "Verif.Control.assign_activation_swapped_fails",
    "Verif.Control.assign_activation_exact",
    "Verif.Control.assign_activation_partial",
    "Verif.Control.activate_action_target",
    "Verif.Control.activate_action_gets",
    "Verif.Control.activate_action_keeps_unspecified",
    "Verif.Control.activate_old_loses_unspecified_fails"
   ],
   "note": "Assignment and activation are exact; the code violates the claim when the assign action activates one driving domain only (swapped) and, before OpenSCENARIO 1.3, for domains not mentioned (both shown by witness)."
  },
  {
   "property": "C75",
   "status": "partial",
   "theorems": [
    "Verif.Control.activate_new_exclusive_fails",
    "Verif.Control.activate_new_others_untouched",
    "Verif.Control.activate_old_exclusive_fails",
    "Verif.Control.activate_exclusive_partial",
    "Verif.Control.activate_old_takes_over_partial"
   ],
   "note": "The code violates the claim (witnesses for both versions); it holds when no other controller has a requested domain, and before 1.3 when at most one controller was active."
  },
  {
   "property": "C76",
   "status": "partial",
   "theorems": [
    "Verif.Control.active_query_exact",
    "Verif.Control.active_query_type_fails",
    "Verif.Control.mode_query_exact",
    "Verif.Control.mode_query_shadowed_fails",
    "Verif.Control.type_active_on",
    "Verif.Control.default_moves_iff",
    "Verif.Control.lat_distance_yields_to_long",
    "Verif.Control.lat_distance_domain_fails",
    "Verif.Control.actions_yield"
   ],
   "note": "Holds under at most one controller per domain except for the type argument of the query and the lateral distance action, which the code gets wrong (witnesses)."
  },
  {
   "property": "C77",
   "status": "partial",
   "theorems": [
    "Verif.Traj.evaluate_on_line",
    "Verif.Traj.evaluate_exact",
    "Verif.Traj.evaluate_start_irrelevant",
    "Verif.Traj.evaluate_outside",
    "Verif.Traj.evaluate_reports_negative_fails",
    "Verif.Traj.addVertex_sorted",
    "Verif.Traj.ahead_code"
   ],
   "note": "Within the tolerance 1e-6 at vertices; a distance before the start is reported back unclamped although the first vertex is returned (witness)."
  },
  {
   "property": "C78",
   "status": "partial",
   "theorems": [
    "Verif.Traj.time2s_mid",
    "Verif.Traj.time2s_inside",
    "Verif.Traj.time2s_start_irrelevant",
    "Verif.Traj.time2s_outside",
    "Verif.Traj.time2s_reads_past_end_fails"
   ],
   "note": "Holds except for a time exactly one tolerance before the end (witness)."
  },
  {
   "property": "C79",
   "status": "partial",
   "theorems": [
    "Verif.Traj.segment_travel",
    "Verif.Traj.follow_monotone",
    "Verif.Traj.follow_hits_vertices",
    "Verif.Traj.follow_speeds_nonneg",
    "Verif.Traj.follow_initial_speed",
    "Verif.Traj.position_interpolates",
    "Verif.Traj.shape_after_end",
    "Verif.Traj.follow_standstill_fails",
    "Verif.Traj.position_last_speed_fails"
   ],
   "note": "Vertices must advance by more than the tolerance in FOLLOW mode and differ in time; stand-still phases in FOLLOW mode are violated by the code (witness)."
  },
  {
   "property": "C80",
   "status": "partial",
   "theorems": [
    "Verif.Traj.filter_result",
    "Verif.Traj.filter_short",
    "Verif.Traj.vertsUnique_far",
    "Verif.Traj.vertsUnique_signed_fails"
   ],
   "note": "The filter is exact for any closeness relation; the relation in use ignores growing headings (witness)."
  },
  {
   "property": "C81",
   "status": "partial",
   "theorems": [
    "Verif.Traj.clothoid_from_zero",
    "Verif.Traj.clothoid_outside",
    "Verif.Traj.clothoid_start_time_fails",
    "Verif.Traj.spline_time",
    "Verif.Traj.spline_copy_fails",
    "Verif.Traj.spline_sampling_partial",
    "Verif.Traj.spline_sampling_end",
    "Verif.Traj.spline_sampling_fails"
   ],
   "note": "Holds for clothoids from time 0, spline times, and sampling with segments of at least a metre; violated otherwise (witnesses)."
  },
  {
   "property": "C82",
   "status": "partial",
   "theorems": [
    "Verif.Traj.cox_support",
    "Verif.Traj.cox_nonneg",
    "Verif.Traj.cox_partition",
    "Verif.Traj.cox_at_start",
    "Verif.Traj.nurbs_hull_partial",
    "Verif.Traj.nurbs_start",
    "Verif.Traj.nurbs_local",
    "Verif.Traj.nurbs_defined",
    "Verif.Traj.nurbs_auto",
    "Verif.Traj.nurbs_end_fails",
    "Verif.Traj.nurbs_unclamped_fails"
   ],
   "note": "Basis functions fully; the hull needs that no contribution is within (0, 1e-6] (the code drops those, witness)."
  },
  {
   "property": "C83",
   "status": "partial",
   "theorems": [
    "Verif.Profile.position_follows_profile",
    "Verif.Profile.position_step_speed",
    "Verif.Profile.start_tracks",
    "Verif.Profile.position_ends",
    "Verif.Profile.position_same_slope_fails",
    "Verif.Profile.omitted_times_jump_fails",
    "Verif.Profile.omitted_times_underrun_fails",
    "Verif.Profile.constant_end_early_fails",
    "Verif.Profile.skipped_never_ends",
    "Verif.Profile.copy_forgets_limits_fails"
   ],
   "note": "Holds for entries with times whose slopes differ from the third on; equal slopes, omitted times, a constant last entry and copies violate it (witnesses)."
  },
  {
   "property": "C84",
   "status": "partial",
   "theorems": [
    "Verif.Profile.follow_smooth",
    "Verif.Profile.acc_within",
    "Verif.Profile.single_meets",
    "Verif.Profile.single_ordered",
    "Verif.Profile.acc_between",
    "Verif.Profile.single_target_smooth",
    "Verif.Profile.follow_same_slope_fails",
    "Verif.Profile.follow_speed_limit_fails",
    "Verif.Profile.single_no_solution_fails",
    "Verif.Profile.follow_initial_acc_fails",
    "Verif.Profile.follow_fallback_jump_fails"
   ],
   "note": "Several targets: slopes must differ and the action must not fall back to linear mode. One target: opposite jerks; order and no overshoot from zero acceleration. The rest is violated (witnesses)."
  },
  {
   "property": "C85",
   "status": "partial",
   "theorems": [
    "Verif.Move.move_travels",
    "Verif.Move.move_stops",
    "Verif.Move.move_shifts_partial",
    "Verif.Move.actual_distance",
    "Verif.Move.move_lost_fails",
    "Verif.Move.move_shift_repeated_fails",
    "Verif.Move.move_shift_side_fails",
    "Verif.Move.move_lane_index_fails",
    "Verif.Move.move_missing_lane_fails",
    "Verif.Move.place_on_road",
    "Verif.Move.beyond_reported"
   ],
   "note": "Roads whose lanes go through all sections, up to 7 road ends per move, no lateral shift over a road end; beyond that the code violates it (witnesses)."
  },
  {
   "property": "C86",
   "status": "partial",
   "theorems": [
    "Verif.Move.move_twice",
    "Verif.Move.move_back",
    "Verif.Move.reach_add",
    "Verif.Move.reach_back",
    "Verif.Move.move_lane_index_fails",
    "Verif.Move.move_lost_fails"
   ],
   "note": "On the networks of C85; with other sections or more ends it is violated (witnesses)."
  },
  {
   "property": "C87",
   "status": "partial",
   "theorems": [
    "Verif.Move.angle_closest",
    "Verif.Move.route_followed",
    "Verif.Move.angle_drift_fails"
   ],
   "note": "Closest up to 1e-6 per connection; the tolerance adds up (witness). The headings and the road at the other end are parameters."
  },
  {
   "property": "C88",
   "status": "partial",
   "theorems": [
    "Verif.Path.distance_exists",
    "Verif.Path.distance_shortest_partial",
    "Verif.Path.no_distance_partial",
    "Verif.Path.distance_same_road",
    "Verif.Path.shortest_fails",
    "Verif.Path.double_connection_fails",
    "Verif.Path.rounds_fail",
    "Verif.Path.lanes_merge_fails",
    "Verif.Path.sign_fails",
    "Verif.Path.start_lane_fails"
   ],
   "note": "Shortest among the ways that enter the target road at the same end, and if the lane at an end of a road does not depend on the way; violated otherwise (witnesses)."
  },
  {
   "property": "C89",
   "status": "partial",
   "theorems": [
    "Verif.Path.lanes_partial",
    "Verif.Path.direction_right_iff",
    "Verif.Path.direction_fails",
    "Verif.Path.lanes_fail"
   ],
   "note": "Lane difference right if lanes keep their numbers along each road; the direction is wrong exactly if the roads are joined at unlike ends."
  },
  {
   "property": "C90",
   "status": "partial",
   "theorems": [
    "Verif.Transition.change_between",
    "Verif.Transition.change_standing",
    "Verif.Transition.change_ends_at_target",
    "Verif.Transition.change_ends",
    "Verif.Transition.change_ends_distance",
    "Verif.Transition.change_follows",
    "Verif.Transition.change_follows_distance",
    "Verif.Transition.change_along",
    "Verif.Transition.change_linear_travel",
    "Verif.Transition.change_immediate",
    "Verif.Transition.change_heading",
    "Verif.Transition.change_jump_fails",
    "Verif.Transition.change_zero_rate_fails",
    "Verif.Transition.change_reverse_heading_fails",
    "Verif.Transition.change_end_heading",
    "Verif.Transition.change_idle"
   ],
   "note": "Violated for slow entities with other than linear shapes, rates of 0 and reverse driving (witnesses); travelled distance exact for linear shapes only."
  },
  {
   "property": "C91",
   "status": "partial",
   "theorems": [
    "Verif.Curve.line_follows",
    "Verif.Curve.arc_follows",
    "Verif.Curve.spiral_follows",
    "Verif.Curve.spiral_curvature",
    "Verif.Curve.spiral_ends",
    "Verif.Curve.follows_unique",
    "Verif.Curve.flat_arc_fails"
   ],
   "note": "Violated by curvatures below 1e-6, which are ignored (bound given, witness). Fresnel integrals taken as exact."
  },
  {
   "property": "C92",
   "status": "partial",
   "theorems": [
    "Verif.Curve.param_point",
    "Verif.Curve.param_tangent",
    "Verif.Curve.param_turn",
    "Verif.Curve.param_passes",
    "Verif.Curve.param_parts",
    "Verif.Curve.param_even",
    "Verif.Curve.param_curvature_partial",
    "Verif.Curve.poly3_on_curve",
    "Verif.Curve.poly3_short_partial",
    "Verif.Curve.poly3_fails",
    "Verif.Curve.poly3_curvature_fails",
    "Verif.Curve.param_curvature_fails"
   ],
   "note": "Violated: poly3 geometries longer than 10 m do not reach their end, their curvature is wrong with a slope, and that of paramPoly3 geometries is taken at the wrong place (witnesses)."
  },
  {
   "property": "C93",
   "status": "proved",
   "theorems": [
    "Verif.Curve.beside_perpendicular",
    "Verif.Curve.arc_lane_distance",
    "Verif.Curve.lane_speed"
   ],
   "note": "Exact on arcs; elsewhere at the start of each movement. Level roads."
  },
  {
   "property": "C94",
   "status": "proved",
   "theorems": [
    "Verif.Spring.spring_converges",
    "Verif.Spring.spring_fails",
    "Verif.Spring.spring_no_overshoot",
    "Verif.Spring.spring_undamped",
    "Verif.Spring.spring_tension"
   ],
   "note": "With the exact bound on the time step."
  },
  {
   "property": "C95",
   "status": "partial",
   "theorems": [
    "Verif.Spring.long_limits",
    "Verif.Spring.long_jerk_partial",
    "Verif.Spring.jerk_fails",
    "Verif.Spring.long_toward",
    "Verif.Spring.long_rest",
    "Verif.Spring.long_exact",
    "Verif.Spring.long_ends",
    "Verif.Spring.long_requested",
    "Verif.Spring.long_converges_partial"
   ],
   "note": "Rates are violated when the acceleration decreases in size (witness). Convergence is proved near the goal, with equal limits for acceleration and deceleration and rates that do not act."
  },
  {
   "property": "C96",
   "status": "partial",
   "theorems": [
    "Verif.Spring.lat_start",
    "Verif.Spring.lat_restart_fails",
    "Verif.Spring.lat_speed",
    "Verif.Spring.lat_limits",
    "Verif.Spring.lat_direct",
    "Verif.Spring.lat_ends",
    "Verif.Spring.lat_converges_partial",
    "Verif.Spring.lat_standing_fails",
    "Verif.Spring.lat_reverse_fails"
   ],
   "note": "Violated for entities that stand still or drive backwards, and by a second start (witnesses). Convergence with limits is proved near the goal. Road coordinate system only."
  },
  {
   "property": "C97",
   "status": "partial",
   "theorems": [
    "Verif.Sync.apex_profile",
    "Verif.Sync.apex_profile_equal",
    "Verif.Sync.phases_direction",
    "Verif.Sync.phases_unique",
    "Verif.Sync.first_step",
    "Verif.Sync.sync_arrives",
    "Verif.Sync.sync_arrives_free",
    "Verif.Sync.stop_profile",
    "Verif.Sync.stop_waits",
    "Verif.Sync.sync_waits",
    "Verif.Sync.sync_restart_fails",
    "Verif.Sync.sync_glitch_fails",
    "Verif.Sync.sync_early_fails"
   ],
   "note": "Violated by second executions, by a stop in the last millisecond before the steady state, and without final speed for entities that are too fast (witnesses). Arrival is exact for masters with constant speed whose time is a multiple of the step; for two phases the acceleration of each step is that of the exact profile."
  },
  {
   "property": "C98",
   "status": "partial",
   "theorems": [
    "Verif.Vehicle.step_motion",
    "Verif.Vehicle.no_slip",
    "Verif.Vehicle.speed_bounded",
    "Verif.Vehicle.wheels_bounded",
    "Verif.Vehicle.accelerates",
    "Verif.Vehicle.brake_partial",
    "Verif.Vehicle.stays_stopped",
    "Verif.Vehicle.analog_brake_stops",
    "Verif.Vehicle.analog_stays_stopped",
    "Verif.Vehicle.coast",
    "Verif.Vehicle.target_partial",
    "Verif.Vehicle.wheels_return_partial",
    "Verif.Vehicle.steers",
    "Verif.Vehicle.disabled_keeps",
    "Verif.Vehicle.brake_exact_fails",
    "Verif.Vehicle.coast_rate_fails",
    "Verif.Vehicle.target_swings_fails",
    "Verif.Vehicle.wheels_swing_fails",
    "Verif.Vehicle.throttle_flag_fails"
   ],
   "note": "Violated by braking that ends exactly at standstill, by drag per step, by long steps for target speed and return of the wheels, and by the reported throttle flag (witnesses). Partial theorems: braking with the keys when the speed is no multiple of the speed lost per step; target speed for acceleration limit times step at most one; wheel return for return factor times step below two."
  },
  {
   "property": "C99",
   "status": "partial",
   "theorems": [
    "Verif.Acc.lead_in_the_way",
    "Verif.Acc.free_road",
    "Verif.Acc.lead_nearest_partial",
    "Verif.Acc.gap_ends",
    "Verif.Acc.looks_ahead",
    "Verif.Acc.follow_range",
    "Verif.Acc.follow_limits_partial",
    "Verif.Acc.follow_stop",
    "Verif.Acc.follow_direction",
    "Verif.Acc.never_hits",
    "Verif.Acc.keeps_gap",
    "Verif.Acc.cruise_partial",
    "Verif.Acc.new_set_speed",
    "Verif.Acc.activate_set",
    "Verif.Acc.virtual_keeps",
    "Verif.Acc.lead_nearest_fails",
    "Verif.Acc.follow_limits_fails",
    "Verif.Acc.cruise_pass_fails",
    "Verif.Acc.same_speed_fails",
    "Verif.Acc.virtual_close_fails",
    "Verif.Acc.request_limits_partial",
    "Verif.Acc.free_approaches"
   ],
   "note": "Violated for several close entities, by the stop within a metre and a lowered set speed, by long time steps, by requests of the current speed and in virtual mode (witnesses). No collision is proved for a set speed that covers less than a metre per step; convergence to the time gap from other states is not proved, only that it is kept and the direction of the acceleration."
  }
 ]
}