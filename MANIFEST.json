{
 "claims": [
  {
   "property": "C01",
   "status": "proved",
   "theorems": [
    "BLE.C01_critical_forces_up",
    "BLE.C01_up_only_when_critical",
    "BLE.C01_needs_strong_envelope"
   ],
   "note": ""
  },
  {
   "property": "C02",
   "status": "proved",
   "theorems": [
    "BLE.C02_paused_iff_unsafe",
    "BLE.C02_effect",
    "BLE.C02_no_descent_near_limits"
   ],
   "note": ""
  },
  {
   "property": "C03",
   "status": "proved",
   "theorems": [
    "BLE.C03_paused_iff_too_low",
    "BLE.C03_effect",
    "BLE.C03_no_descent_below_buffer"
   ],
   "note": ""
  },
  {
   "property": "C04",
   "status": "proved",
   "theorems": [
    "BLE.C04_power_only_weakens"
   ],
   "note": ""
  },
  {
   "property": "C05",
   "status": "proved",
   "theorems": [
    "BLE.C05_pause_latch"
   ],
   "note": ""
  },
  {
   "property": "C06",
   "status": "proved",
   "theorems": [
    "BLE.C06_clock",
    "BLE.C06_next_unique"
   ],
   "note": ""
  },
  {
   "property": "C07",
   "status": "proved",
   "theorems": [
    "BLE.C07_flown_command",
    "BLE.C07_flown_command_is_simulated"
   ],
   "note": ""
  },
  {
   "property": "C08",
   "status": "proved",
   "theorems": [
    "BLE.C08_records_request"
   ],
   "note": ""
  },
  {
   "property": "C09",
   "status": "proved",
   "theorems": [
    "BLE.C09_charge_in_range",
    "BLE.C09_soc_in_unit"
   ],
   "note": ""
  },
  {
   "property": "C10",
   "status": "proved",
   "theorems": [
    "BLE.C10_direction",
    "BLE.C10_never_negative"
   ],
   "note": ""
  },
  {
   "property": "C11",
   "status": "partial",
   "theorems": [
    "BLE.C11_clock_partial",
    "BLE.C11_fractional_stride_overruns",
    "BLE.C11_exact_advance",
    "BLE.C11_start_time_constant"
   ],
   "note": "Proved for whole-second strides; for fractional-second strides the property is false of the code (C11_fractional_stride_overruns): the number of sub-steps is computed from truncated seconds but each sub-step advances by the exact stride. C11_exact_advance gives the exact clock law for every duration and every stride of at least a second."
  },
  {
   "property": "C12",
   "status": "proved",
   "theorems": [
    "BLE.C12_status",
    "BLE.C12_status_after_step"
   ],
   "note": ""
  },
  {
   "property": "C13",
   "status": "proved",
   "theorems": [
    "BLE.C13_frozen"
   ],
   "note": ""
  },
  {
   "property": "C14",
   "status": "proved",
   "theorems": [
    "BLE.C14_solves",
    "BLE.C14_unique",
    "BLE.C14_exact"
   ],
   "note": ""
  },
  {
   "property": "C15",
   "status": "proved",
   "theorems": [
    "BLE.C15_monotone_lipschitz",
    "BLE.C15_ambient_antitone"
   ],
   "note": ""
  },
  {
   "property": "C16",
   "status": "proved",
   "theorems": [
    "BLE.C16_drift"
   ],
   "note": ""
  },
  {
   "property": "C17",
   "status": "proved",
   "theorems": [
    "BLE.C17_buoyancy"
   ],
   "note": ""
  },
  {
   "property": "C18",
   "status": "proved",
   "theorems": [
    "BLE.C18_bad_stride_raises",
    "BLE.C18_only_then",
    "BLE.C18_subsecond_stride"
   ],
   "note": ""
  },
  {
   "property": "C19",
   "status": "proved",
   "theorems": [
    "BLE.C19_in_range",
    "BLE.C19_total"
   ],
   "note": ""
  },
  {
   "property": "C20",
   "status": "proved",
   "theorems": [
    "BLE.C20_shape",
    "BLE.C20_monotone",
    "BLE.C20_penalty",
    "BLE.C20_excess_energy",
    "BLE.C20_power",
    "BLE.C20_default"
   ],
   "note": ""
  },
  {
   "property": "C21",
   "status": "proved",
   "theorems": [
    "BLE.C21_terminal_iff",
    "BLE.C21_no_step_after_end"
   ],
   "note": ""
  },
  {
   "property": "C22",
   "status": "proved",
   "theorems": [
    "BLE.C22_invalid_action",
    "BLE.C22_meaning"
   ],
   "note": ""
  },
  {
   "property": "C23",
   "status": "proved",
   "theorems": [
    "BLE.C23_reproducible",
    "BLE.C23_fresh_keys"
   ],
   "note": ""
  },
  {
   "property": "C24",
   "status": "partial",
   "theorems": [
    "BLE.C24_restore_is_noop",
    "BLE.C24_not_restored",
    "BLE.C24_restore_partial",
    "BLE.C24_weather_overwritten",
    "BLE.C24_before_reset"
   ],
   "note": "The full statement is false of the code. get_simulator_state returns live references, so restoring after steps is a no-op (C24_restore_is_noop) and does not bring the balloon back (C24_not_restored); after a reset the wind field and the atmosphere have been overwritten in place (C24_weather_overwritten). C24_restore_partial proves what holds: restoring immediately is the identity, and restoring after an intervening reset brings back the balloon state."
  },
  {
   "property": "C25",
   "status": "proved",
   "theorems": [
    "BLE.C25_each_once",
    "BLE.C25_no_failure"
   ],
   "note": ""
  },
  {
   "property": "C26",
   "status": "proved",
   "theorems": [
    "BLE.C26_centred",
    "BLE.C26_angle"
   ],
   "note": ""
  },
  {
   "property": "C27",
   "status": "proved",
   "theorems": [
    "BLE.C27_in_space"
   ],
   "note": ""
  },
  {
   "property": "C28",
   "status": "partial",
   "theorems": [
    "BLE.C28_roundtrip_partial",
    "BLE.C28_observed",
    "BLE.C28_navigation_swapped"
   ],
   "note": "False for the navigation flags: NamedPerciatelliFeatures reads navigation_enabled from entry 11 and navigation_paused from entry 12, but the constructor writes paused to 11 and not-paused to 12 (C28_navigation_swapped). Everything else in the statement is proved (C28_roundtrip_partial)."
  },
  {
   "property": "C29",
   "status": "proved",
   "theorems": [
    "BLE.C29_valid_iff_reachable"
   ],
   "note": ""
  },
  {
   "property": "C30",
   "status": "partial",
   "theorems": [
    "BLE.C30_in_range_partial",
    "BLE.C30_never_value_error",
    "BLE.C30_negative_wraps"
   ],
   "note": "False: the guard `0 > level >= n` is a chained comparison that is never true (C30_never_value_error); levels -361..-2 are answered with the wind of level+361 (C30_negative_wraps); levels above 360 raise TypeError. Proved: levels 0..360 are answered with their own triple (C30_in_range_partial)."
  },
  {
   "property": "C31",
   "status": "proved",
   "theorems": [
    "BLE.C31_nearest",
    "BLE.C31_valid"
   ],
   "note": ""
  },
  {
   "property": "C32",
   "status": "proved",
   "theorems": [
    "BLE.C32_range",
    "BLE.C32_increases"
   ],
   "note": ""
  },
  {
   "property": "C33",
   "status": "proved",
   "theorems": [
    "BLE.C33_reflection"
   ],
   "note": ""
  },
  {
   "property": "C34",
   "status": "proved",
   "theorems": [
    "BLE.C34_on_grid",
    "BLE.C34_negative_time"
   ],
   "note": ""
  },
  {
   "property": "C35",
   "status": "proved",
   "theorems": [
    "BLE.C35_within_extremes",
    "BLE.C35_boundary_extension",
    "BLE.C35_nodes",
    "BLE.C35_lipschitz"
   ],
   "note": ""
  },
  {
   "property": "C36",
   "status": "proved",
   "theorems": [
    "BLE.C36_column_base",
    "BLE.C36_column_grid",
    "BLE.C36_reset_needed"
   ],
   "note": ""
  },
  {
   "property": "C37",
   "status": "proved",
   "theorems": [
    "BLE.C37_ground_truth"
   ],
   "note": ""
  },
  {
   "property": "C38",
   "status": "proved",
   "theorems": [
    "BLE.C38_no_observations",
    "BLE.C38_history",
    "BLE.C38_history_new",
    "BLE.C38_query"
   ],
   "note": ""
  },
  {
   "property": "C39",
   "status": "partial",
   "theorems": [
    "BLE.C39_recent_partial",
    "BLE.C39_stale_fails",
    "BLE.C39_succeeds_iff",
    "BLE.C39_after_observation"
   ],
   "note": "Window, values and absence of side effects are proved (C39_recent_partial) and queries right after a measurement always succeed (C39_after_observation). That every query succeeds is false of the code: with observations but none within six hours the fit is called on an empty training set and raises ValueError (C39_stale_fails). C39_succeeds_iff says exactly when a query succeeds."
  },
  {
   "property": "C40",
   "status": "proved",
   "theorems": [
    "BLE.C40_static"
   ],
   "note": ""
  },
  {
   "property": "C41",
   "status": "proved",
   "theorems": [
    "BLE.C41_total",
    "BLE.C41_monotone_in_charge",
    "BLE.C41_reserve"
   ],
   "note": ""
  },
  {
   "property": "C42",
   "status": "proved",
   "theorems": [
    "BLE.C42_power_range",
    "BLE.C42_power_monotone",
    "BLE.C42_efficiency",
    "BLE.C42_always_pumps"
   ],
   "note": ""
  },
  {
   "property": "C43",
   "status": "proved",
   "theorems": [
    "BLE.C43_height_roundtrip",
    "BLE.C43_pressure_roundtrip"
   ],
   "note": ""
  },
  {
   "property": "C44",
   "status": "proved",
   "theorems": [
    "BLE.C44_higher_is_thinner",
    "BLE.C44_positive",
    "BLE.C44_pressure_direction",
    "BLE.C44_continuous"
   ],
   "note": ""
  },
  {
   "property": "C45",
   "status": "proved",
   "theorems": [
    "BLE.C45_height_domain",
    "BLE.C45_pressure_domain"
   ],
   "note": ""
  },
  {
   "property": "C46",
   "status": "proved",
   "theorems": [
    "BLE.C46_start_above_floor",
    "BLE.C46_default_range_conservative"
   ],
   "note": ""
  },
  {
   "property": "C47",
   "status": "proved",
   "theorems": [
    "BLE.C47_crossing"
   ],
   "note": ""
  },
  {
   "property": "C48",
   "status": "proved",
   "theorems": [
    "BLE.C48_consistent",
    "BLE.C48_total",
    "BLE.C48_empty_ballonet_floats"
   ],
   "note": ""
  },
  {
   "property": "C49",
   "status": "proved",
   "theorems": [
    "BLE.C49_search",
    "BLE.C49_symmetric_minimiser",
    "BLE.C49_convexity_not_enough",
    "BLE.C49_window"
   ],
   "note": "The documented assumption (convex objective) is not sufficient for a global minimiser, see C49_convexity_not_enough; symmetry is."
  },
  {
   "property": "C50",
   "status": "proved",
   "theorems": [
    "BLE.C50_within_a_day",
    "BLE.C50_assertions_hold",
    "BLE.C50_failures"
   ],
   "note": ""
  },
  {
   "property": "C51",
   "status": "proved",
   "theorems": [
    "BLE.C51_shadow",
    "BLE.C51_attenuation",
    "BLE.C51_attenuation_monotone",
    "BLE.C51_solar_power"
   ],
   "note": ""
  },
  {
   "property": "C52",
   "status": "proved",
   "theorems": [
    "BLE.C52_black_body",
    "BLE.C52_total_absorptivity"
   ],
   "note": ""
  },
  {
   "property": "C53",
   "status": "proved",
   "theorems": [
    "BLE.C53_arcsine_argument",
    "BLE.C53_destination",
    "BLE.C53_distance",
    "BLE.C53_zero_offset",
    "BLE.C53_pole_bearing_ignored"
   ],
   "note": "At the poles the bearing is ignored, see C53_pole_bearing_ignored; the bearing claim is proved for cos(lat) > 0."
  },
  {
   "property": "C54",
   "status": "proved",
   "theorems": [
    "BLE.C54_distance_round_trip",
    "BLE.C54_velocity_round_trip",
    "BLE.C54_velocity_time",
    "BLE.C54_power_time",
    "BLE.C54_add_sub",
    "BLE.C54_comparisons",
    "BLE.C54_relative_distance",
    "BLE.C54_degrees"
   ],
   "note": ""
  },
  {
   "property": "C55",
   "status": "partial",
   "theorems": [
    "BLE.C55_energy_power",
    "BLE.C55_tolerance_partial",
    "BLE.C55_not_transitive"
   ],
   "note": "Reflexivity and symmetry hold; transitivity and consistency with < are false of the code because equality is up to a 1e-9 tolerance (C55_not_transitive). Energy and power equality is exact and an equivalence."
  },
  {
   "property": "C56",
   "status": "proved",
   "theorems": [
    "BLE.C56_rescale",
    "BLE.C56_saturation",
    "BLE.C56_squash",
    "BLE.C56_squash_array"
   ],
   "note": ""
  },
  {
   "property": "C57",
   "status": "partial",
   "theorems": [
    "BLE.C57_guard_partial",
    "BLE.C57_not_rejected"
   ],
   "note": "The guard `0 > x >= 1` is never true: no input is rejected by it (C57_not_rejected). x = 1 fails in the division; all other inputs return a value."
  },
  {
   "property": "C58",
   "status": "proved",
   "theorems": [
    "BLE.C58_schedule",
    "BLE.C58_probability"
   ],
   "note": ""
  },
  {
   "property": "C59",
   "status": "proved",
   "theorems": [
    "BLE.C59_select",
    "BLE.C59_steers",
    "BLE.C59_targets"
   ],
   "note": ""
  },
  {
   "property": "C60",
   "status": "partial",
   "theorems": [
    "BLE.C60_increment_partial",
    "BLE.C60_not_since_last_update"
   ],
   "note": "False of the code from the second step of an episode on (C60_not_since_last_update): the elapsed time is never reset, so the increment at the k-th step uses 180k seconds. C60_increment_partial states the actual increment; it is as claimed at the first step."
  },
  {
   "property": "C61",
   "status": "proved",
   "theorems": [
    "BLE.C61_best",
    "BLE.C61_agent",
    "BLE.C61_no_level",
    "BLE.C61_flying"
   ],
   "note": ""
  },
  {
   "property": "C62",
   "status": "proved",
   "theorems": [
    "BLE.C62_results",
    "BLE.C62_length_checked",
    "BLE.C62_flags"
   ],
   "note": ""
  },
  {
   "property": "C63",
   "status": "proved",
   "theorems": [
    "BLE.C63_partition",
    "BLE.C63_balanced"
   ],
   "note": ""
  },
  {
   "property": "C64",
   "status": "partial",
   "theorems": [
    "BLE.C64_combined",
    "BLE.C64_combine_partial",
    "BLE.C64_swallows"
   ],
   "note": "Proved when no other file in the directory matches the pattern (C64_combine_partial). In general it is false of the code: `{model}_*.json` also matches the files of every agent whose name extends this one with an underscore, e.g. random / random_walk (C64_swallows)."
  },
  {
   "property": "C65",
   "status": "proved",
   "theorems": [
    "BLE.C65_resume",
    "BLE.C65_each_once",
    "BLE.C65_without_checkpoints",
    "BLE.C65_records"
   ],
   "note": ""
  },
  {
   "property": "C66",
   "status": "partial",
   "theorems": [
    "BLE.C66_resumes_partial",
    "BLE.C66_torn"
   ],
   "note": "False of the code when the process dies with the new file opened but incomplete: the torn file is the newest match, unpickling raises EOFError, which is not caught, and every later run dies the same way (C66_torn). C66_resumes_partial: crashes before the file is opened or during the clean-up afterwards resume from the last complete checkpoint."
  },
  {
   "property": "C67",
   "status": "partial",
   "theorems": [
    "BLE.C67_names",
    "BLE.C67_exact_partial",
    "BLE.C67_six_digits",
    "BLE.C67_stray",
    "BLE.C67_newest",
    "BLE.C67_negative_duration"
   ],
   "note": "C67_exact_partial proves the claim for directories in which all names checkpoint_?????.pkl are those of checkpoints. In general false: iterations >= 100000 are never removed (C67_six_digits), a stray checkpoint_final.pkl makes save raise ValueError (C67_stray), a negative duration deletes the newest (C67_negative_duration). C67_names (round trip) and C67_newest are unconditional on iteration numbers."
  },
  {
   "property": "C68",
   "status": "partial",
   "theorems": [
    "BLE.C68_max_partial",
    "BLE.C68_hidden"
   ],
   "note": "C68_max_partial proves the claim if every file checkpoint_*.pkl holds a number. False in general: one such file without a number hides all checkpoints and -1 is returned (C68_hidden)."
  },
  {
   "property": "C69",
   "status": "partial",
   "theorems": [
    "BLE.C69_reported_partial",
    "BLE.C69_double_count"
   ],
   "note": "False of the code: run_one_episode passes the last reward to end_episode although it was already passed to step, so it is counted twice (C69_double_count). C69_reported_partial gives the reported value (sum plus last reward) and proves the length claim, for all environments, agents, collectors and episodes."
  },
  {
   "property": "C70",
   "status": "partial",
   "theorems": [
    "BLE.C70_record_partial",
    "BLE.C70_extra"
   ],
   "note": "False of the code: one entry more than steps is recorded (C70_extra). C70_record_partial: the entries of the steps, in order, come first, followed by one entry for end_episode; no other file is touched."
  },
  {
   "property": "C71",
   "status": "partial",
   "theorems": [
    "BLE.C71_distribution_partial",
    "BLE.C71_invalid_raises",
    "BLE.C71_negative_pending"
   ],
   "note": "C71_distribution_partial: non-negative, sums to 1, for every completed episode, and all flown actions were valid; C71_invalid_raises: flown invalid actions raise. The pending action at the end is counted without the validity check, so a negative one is silently counted as another action (C71_negative_pending)."
  },
  {
   "property": "C72",
   "status": "proved",
   "theorems": [
    "BLE.C72_all_events",
    "BLE.C72_exception"
   ],
   "note": ""
  },
  {
   "property": "C73",
   "status": "partial",
   "theorems": [
    "BLE.C73_no_wraparound",
    "BLE.C73_sampled",
    "BLE.C73_incompressible_partial",
    "BLE.C73_diverges_as_flown"
   ],
   "note": "Incompressible if the first array axis is y, as the decoder builds it; the simulator indexes the first axis by x, and C73_diverges_as_flown exhibits a generated field whose flown wind converges. Wrap-around independence is proved in full."
  },
  {
   "property": "C74",
   "status": "partial",
   "theorems": [
    "BLE.C74_disjoint_partial",
    "BLE.C74_size_zero",
    "BLE.C74_dataset"
   ],
   "note": "Proved for every evaluation batch size >= 1. For size 0 the slice [-0:] is the whole dataset (C74_size_zero)."
  },
  {
   "property": "C75",
   "status": "proved",
   "theorems": [
    "BLE.C75_kl"
   ],
   "note": ""
  },
  {
   "property": "C76",
   "status": "proved",
   "theorems": [
    "BLE.C76_constant",
    "BLE.C76_schedule"
   ],
   "note": ""
  },
  {
   "property": "C77",
   "status": "partial",
   "theorems": [
    "BLE.C77_loading_partial",
    "BLE.C77_wrong_error",
    "BLE.C77_errors"
   ],
   "note": "Proved for the wind model in all cases and for Perciatelli44 except when all default locations are missing, where TensorFlow's NotFoundError escapes instead of RuntimeError (C77_wrong_error)."
  },
  {
   "property": "C78",
   "status": "proved",
   "theorems": [
    "BLE.C78_location",
    "BLE.C78_time",
    "BLE.C78_upwelling",
    "BLE.C78_distance"
   ],
   "note": ""
  },
  {
   "property": "C79",
   "status": "proved",
   "theorems": [
    "BLE.C79_neutral_at_base_volume",
    "BLE.C79_envelope_balanced",
    "BLE.C79_starts_climbing"
   ],
   "note": ""
  },
  {
   "property": "C80",
   "status": "proved",
   "theorems": [
    "BLE.C80_no_exception",
    "BLE.C80_single_stride"
   ],
   "note": ""
  },
  {
   "property": "C81",
   "status": "proved",
   "theorems": [
    "BLE.C81_vehicle_constant",
    "BLE.C81_layer_rating"
   ],
   "note": ""
  },
  {
   "property": "C82",
   "status": "proved",
   "theorems": [
    "BLE.C82_energy_balance",
    "BLE.C82_night_drains"
   ],
   "note": ""
  },
  {
   "property": "C83",
   "status": "partial",
   "theorems": [
    "BLE.C83_mixed_kinds_raise_partial",
    "BLE.C83_energy_ge",
    "BLE.C83_products"
   ],
   "note": "Holds for every operator except Energy.__ge__, which returns (instead of raising) a ValueError object, which is truthy (C83_energy_ge)."
  },
  {
   "property": "C84",
   "status": "proved",
   "theorems": [
    "BLE.C84_steps_to_sunrise"
   ],
   "note": ""
  },
  {
   "property": "C85",
   "status": "proved",
   "theorems": [
    "BLE.C85_position",
    "BLE.C85_flux",
    "BLE.C85_flight",
    "BLE.C85_direction",
    "BLE.C85_refraction"
   ],
   "note": ""
  },
  {
   "property": "C86",
   "status": "partial",
   "theorems": [
    "BLE.C86_julian_day_partial",
    "BLE.C86_modern",
    "BLE.C86_skips_a_day"
   ],
   "note": "Exact except for a one-day excess in March-August of century years that are no leap years and in the January after (C86_skips_a_day); C86_julian_day_partial states exactly which dates, C86_modern covers February 1901 to February 2100."
  },
  {
   "property": "C87",
   "status": "proved",
   "theorems": [
    "BLE.C87_noise",
    "BLE.C87_offsets",
    "BLE.C87_noise_bounded",
    "BLE.C87_before_reset"
   ],
   "note": ""
  },
  {
   "property": "C88",
   "status": "proved",
   "theorems": [
    "BLE.C88_range",
    "BLE.C88_fit_total",
    "BLE.C88_more_data",
    "BLE.C88_at_observation"
   ],
   "note": ""
  },
  {
   "property": "C89",
   "status": "proved",
   "theorems": [
    "BLE.C89_updates",
    "BLE.C89_eval_frozen",
    "BLE.C89_last_reward_unused"
   ],
   "note": ""
  },
  {
   "property": "C90",
   "status": "proved",
   "theorems": [
    "BLE.C90_no_exploration",
    "BLE.C90_stored_actions"
   ],
   "note": ""
  },
  {
   "property": "C91",
   "status": "proved",
   "theorems": [
    "BLE.C91_function_of_seed",
    "BLE.C91_sharding"
   ],
   "note": ""
  },
  {
   "property": "C92",
   "status": "partial",
   "theorems": [
    "BLE.C92_loaded_partial",
    "BLE.C92_not_loaded"
   ],
   "note": "C92_loaded_partial proves the claim for directories whose files checkpoint_*.pkl are named as save_checkpoint names them. False for a file without leading zeros: it is reported as restored but nothing is loaded (C92_not_loaded)."
  },
  {
   "property": "C93",
   "status": "partial",
   "theorems": [
    "BLE.C93_epoch_partial",
    "BLE.C93_never_saves"
   ],
   "note": "The updates of the first epoch are as claimed; then undefined variables (mse_series etc.) raise NameError, so no epoch completes and nothing is ever saved (C93_never_saves)."
  },
  {
   "property": "C94",
   "status": "proved",
   "theorems": [
    "BLE.C94_cold_start_total",
    "BLE.C94_starts_superpressured",
    "BLE.C94_real_sun"
   ],
   "note": ""
  },
  {
   "property": "C95",
   "status": "proved",
   "theorems": [
    "BLE.C95_sunrise_found",
    "BLE.C95_init",
    "BLE.C95_reset",
    "BLE.C95_first_climb"
   ],
   "note": ""
  },
  {
   "property": "C96",
   "status": "proved",
   "theorems": [
    "BLE.C96_motion",
    "BLE.C96_reported",
    "BLE.C96_observation"
   ],
   "note": ""
  },
  {
   "property": "C97",
   "status": "proved",
   "theorems": [
    "BLE.C97_invariants",
    "BLE.C97_duration",
    "BLE.C97_from_reset"
   ],
   "note": ""
  },
  {
   "property": "C98",
   "status": "proved",
   "theorems": [
    "BLE.C98_return"
   ],
   "note": ""
  },
  {
   "property": "C99",
   "status": "partial",
   "theorems": [
    "BLE.C99_radius_partial",
    "BLE.C99_radius_ignored"
   ],
   "note": "C99_radius_partial proves it when the radius bound in the reward function is the one of the environment (true for the defaults). In general false of the code: the constructor argument is only stored for the metric and never reaches the reward function, which keeps its own 50 km (C99_radius_ignored)."
  },
  {
   "property": "C100",
   "status": "proved",
   "theorems": [
    "BLE.C100_range_exists",
    "BLE.C100_real_sun"
   ],
   "note": ""
  },
  {
   "property": "C101",
   "status": "proved",
   "theorems": [
    "BLE.C101_sunrise_found",
    "BLE.C101_feature",
    "BLE.C101_steps_to_sunrise",
    "BLE.C101_reset"
   ],
   "note": ""
  },
  {
   "property": "C102",
   "status": "proved",
   "theorems": [
    "BLE.C102_observation",
    "BLE.C102_reset",
    "BLE.C102_arena_step",
    "BLE.C102_episode",
    "BLE.C102_env_reset",
    "BLE.C102_new"
   ],
   "note": ""
  },
  {
   "property": "C103",
   "status": "proved",
   "theorems": [
    "BLE.C103_float_is_safe",
    "BLE.C103_init",
    "BLE.C103_reset"
   ],
   "note": ""
  },
  {
   "property": "C104",
   "status": "proved",
   "theorems": [
    "BLE.C104_score",
    "BLE.C104_against_twr",
    "BLE.C104_edges"
   ],
   "note": ""
  },
  {
   "property": "C105",
   "status": "partial",
   "theorems": [
    "BLE.C105_exploration_partial",
    "BLE.C105_first_phase_short",
    "BLE.C105_evaluation"
   ],
   "note": "False as stated: in every exploratory episode the 80th action is already the exploratory agent's (C105_first_phase_short), because CombinedActor consults the exploration for the first observation as well and so its counter runs one ahead; the policy flies 79 actions first, then 40 exploratory, then 80 and 40 in turn. Proved: exactly which actions are whose, that the learner is told the flown action, and that evaluation actors are not wrapped."
  },
  {
   "property": "C106",
   "status": "proved",
   "theorems": [
    "BLE.C106_heavier",
    "BLE.C106_slack",
    "BLE.C106_ordered"
   ],
   "note": ""
  },
  {
   "property": "C107",
   "status": "partial",
   "theorems": [
    "BLE.C107_update_partial",
    "BLE.C107_small_rate",
    "BLE.C107_stock",
    "BLE.C107_not_sarsa",
    "BLE.C107_overshoots"
   ],
   "note": "False as stated, in two ways. The loss is differentiated through the target, so the weights of the next action move as well (C107_not_sarsa). With the stock rates (0.001, discount 0.9), the one-layer network of mlp.gin and observations of the environment, every update in which the agent changes its action overshoots: the temporal-difference error changes sign (C107_overshoots). Proved: the exact update for any network differentiable at its parameters, the exact new weights and new temporal-difference error of the stock network, that the next action is the greedy one before the update, and that the squared temporal-difference error does decrease for all small enough learning rates."
  },
  {
   "property": "C108",
   "status": "proved",
   "theorems": [
    "BLE.C108_total",
    "BLE.C108_snapshot",
    "BLE.C108_fresh",
    "BLE.C108_count",
    "BLE.C108_stock",
    "BLE.C108_zero_period"
   ],
   "note": ""
  },
  {
   "property": "C109",
   "status": "proved",
   "theorems": [
    "BLE.C109_priority",
    "BLE.C109_weights"
   ],
   "note": ""
  },
  {
   "property": "C110",
   "status": "partial",
   "theorems": [
    "BLE.C110_answer_partial",
    "BLE.C110_monotone",
    "BLE.C110_collinear_raises"
   ],
   "note": "False for columns whose winds all lie on one line: there SciPy raises QhullError (C110_collinear_raises). Proved for all other columns, assuming of SciPy that ConvexHull returns points with the same convex hull and that find_simplex decides membership in it."
  },
  {
   "property": "C111",
   "status": "proved",
   "theorems": [
    "BLE.C111_speed"
   ],
   "note": ""
  },
  {
   "property": "C112",
   "status": "proved",
   "theorems": [
    "BLE.C112_strata",
    "BLE.C112_lookup",
    "BLE.C112_available",
    "BLE.C112_nested"
   ],
   "note": ""
  },
  {
   "property": "C113",
   "status": "proved",
   "theorems": [
    "BLE.C113_convection",
    "BLE.C113_response",
    "BLE.C113_band",
    "BLE.C113_direction",
    "BLE.C113_episode_band",
    "BLE.C113_episode"
   ],
   "note": ""
  },
  {
   "property": "C114",
   "status": "proved",
   "theorems": [
    "BLE.C114_shows",
    "BLE.C114_modes",
    "BLE.C114_aligned",
    "BLE.C114_total",
    "BLE.C114_start"
   ],
   "note": ""
  },
  {
   "property": "C115",
   "status": "proved",
   "theorems": [
    "BLE.C115_int_of_quotient",
    "BLE.C115_shards",
    "BLE.C115_seconds",
    "BLE.C115_search",
    "BLE.C115_julian_day",
    "BLE.C115_bound_needed"
   ],
   "note": ""
  },
  {
   "property": "C116",
   "status": "proved",
   "theorems": [
    "BLE.C116_results",
    "BLE.C116_outcome",
    "BLE.C116_unknown_agent",
    "BLE.C116_misspelt",
    "BLE.C116_excess_shard",
    "BLE.C116_pipeline"
   ],
   "note": ""
  },
  {
   "property": "C117",
   "status": "partial",
   "theorems": [
    "BLE.C117_files_partial",
    "BLE.C117_shard_or_checkpoint",
    "BLE.C117_checkpoint_not_loaded",
    "BLE.C117_run_dirs"
   ],
   "note": "False of the code in two ways, both proved: shard i of an evaluation without checkpoint and the unsharded evaluation of checkpoint i of the same agent write the same file (C117_shard_or_checkpoint), and with a checkpoint number but no checkpoint directory nothing is loaded although the file bears the number (C117_checkpoint_not_loaded). Proved: file names are injective in agent, checkpoint and shard among sharded and among unsharded evaluations, and run directories are injective."
  },
  {
   "property": "C118",
   "status": "proved",
   "theorems": [
    "BLE.C118_transforms",
    "BLE.C118_battery",
    "BLE.C118_ratio",
    "BLE.C118_reward",
    "BLE.C118_reward_monotone",
    "BLE.C118_ambient",
    "BLE.C118_wind",
    "BLE.C118_squash_reaches_one"
   ],
   "note": ""
  },
  {
   "property": "C119",
   "status": "proved",
   "theorems": [
    "BLE.C119_forward",
    "BLE.C119_between",
    "BLE.C119_bias",
    "BLE.C119_dead",
    "BLE.C119_weights",
    "BLE.C119_finetune"
   ],
   "note": ""
  },
  {
   "property": "C120",
   "status": "proved",
   "theorems": [
    "BLE.C120_perciatelli",
    "BLE.C120_sharding",
    "BLE.C120_random",
    "BLE.C120_draws"
   ],
   "note": ""
  },
  {
   "property": "C121",
   "status": "proved",
   "theorems": [
    "BLE.C121_injective",
    "BLE.C121_fields",
    "BLE.C121_combine",
    "BLE.C121_foreign",
    "BLE.C121_not_a_list",
    "BLE.C121_set"
   ],
   "note": ""
  },
  {
   "property": "C122",
   "status": "proved",
   "theorems": [
    "BLE.C122_squash",
    "BLE.C122_encoder_bounded",
    "BLE.C122_latents",
    "BLE.C122_divergence",
    "BLE.C122_loss",
    "BLE.C122_forward",
    "BLE.C122_layers",
    "BLE.C122_ravel",
    "BLE.C122_objective",
    "BLE.C122_evaluation"
   ],
   "note": ""
  },
  {
   "property": "C123",
   "status": "partial",
   "theorems": [
    "BLE.C123_sizes",
    "BLE.C123_shape_partial",
    "BLE.C123_ignored"
   ],
   "note": "False of the code: WindFieldVAE.setup builds Decoder() without its field_shape, so any other shape is silently ignored (C123_ignored). Proved: all sizes are consistent for every shape, the decoder alone has its shape, and the claim for the default shape."
  },
  {
   "property": "C124",
   "status": "proved",
   "theorems": [
    "BLE.C124_probabilities",
    "BLE.C124_eval",
    "BLE.C124_behaviour",
    "BLE.C124_config",
    "BLE.C124_rates",
    "BLE.C124_learning_rate"
   ],
   "note": ""
  },
  {
   "property": "C125",
   "status": "partial",
   "theorems": [
    "BLE.C125_agent",
    "BLE.C125_checkpoint",
    "BLE.C125_sharding_partial",
    "BLE.C125_ties"
   ],
   "note": "Independence of sharding is false of the code when several actions tie for the maximal value: rlax then chooses among them with a generator that runs on from episode to episode. C125_ties exhibits it for the network with zero parameters; C125_sharding_partial proves the claim for all parameters under which the maximal action is unique. The other parts are proved in full."
  },
  {
   "property": "C126",
   "status": "partial",
   "theorems": [
    "BLE.C126_kept_partial",
    "BLE.C126_console_lost",
    "BLE.C126_fine_restarts",
    "BLE.C126_recorded",
    "BLE.C126_rerun"
   ],
   "note": "the full statement is false of the code: pre_training opens console.log with 'w', so a resumed (or repeated) command erases the earlier log (C126_console_lost, C126_rerun), and the fine-grained curve restarts at position 0 (C126_fine_restarts); pickles and the episode curves are kept whatever happens (C126_kept_partial), and new records are complete (C126_recorded)"
  },
  {
   "property": "C127",
   "status": "partial",
   "theorems": [
    "BLE.C127_command_partial",
    "BLE.C127_misspelt",
    "BLE.C127_unknown_collectors",
    "BLE.C127_image_shared"
   ],
   "note": "the full statement is false of the code: unknown names in --collectors are dropped silently (C127_unknown_collectors) and all runs under one base directory share balloon_path.png (C127_image_shared); the rest is proved"
  },
  {
   "property": "C128",
   "status": "proved",
   "theorems": [
    "BLE.C128_unroll",
    "BLE.C128_rows",
    "BLE.C128_cut",
    "BLE.C128_duelling",
    "BLE.C128_bounded",
    "BLE.C128_torso",
    "BLE.C128_embedding",
    "BLE.C128_parts",
    "BLE.C128_fresh",
    "BLE.C128_remembers"
   ],
   "note": ""
  },
  {
   "property": "C129",
   "status": "proved",
   "theorems": [
    "BLE.C129_order",
    "BLE.C129_superposition",
    "BLE.C129_never_certain",
    "BLE.C129_single",
    "BLE.C129_fades",
    "BLE.C129_query_order",
    "BLE.C129_query_uncertain"
   ],
   "note": ""
  },
  {
   "property": "C130",
   "status": "proved",
   "theorems": [
    "BLE.C130_lasts_the_night",
    "BLE.C130_default_vehicle",
    "BLE.C130_too_little",
    "BLE.C130_real_dark"
   ],
   "note": ""
  },
  {
   "property": "C131",
   "status": "partial",
   "theorems": [
    "BLE.C131_panels",
    "BLE.C131_day_charges_partial",
    "BLE.C131_noon_drains",
    "BLE.C131_runs_out_at_noon"
   ],
   "note": "The panels deliver 200 W (C131_panels) and a vehicle that does not pump gains 79.6 W and does not run out (C131_day_charges_partial). With DOWN commanded the property is false of the code: at a pressure ratio of 1.25 the compressor draws 400 W, more than the panels give even with the sun above 80 degrees (C131_noon_drains), and the layer, unpaused by day, lets DOWN through whatever the charge: a step at noon ends out of power (C131_runs_out_at_noon)."
  },
  {
   "property": "C132",
   "status": "partial",
   "theorems": [
    "BLE.C132_found_partial",
    "BLE.C132_late"
   ],
   "note": "The statement is false of the code (C132_late): the search halves the bracket midnight..noon by comparing |el - MIN_SOLAR_EL_DEG| at its ends, which is not symmetric, and can discard the half that contains the crossing; at 14.5 N on 3 March 2000 the sun is above the level for more than four minutes before the sunrise that is found. Proved instead (C132_found_partial): within 15 degrees of the equator and 48 minutes away from noon and midnight the sunrise found lies in the morning with the sun rising between -7 and 3.1 degrees, and half an hour later (for the sunset: earlier) it is above the horizon."
  },
  {
   "property": "C133",
   "status": "partial",
   "theorems": [
    "BLE.C133_clock_partial",
    "BLE.C133_drift"
   ],
   "note": "The statement is false of the code (C133_drift): the clock is not moved with the balloon, so 30 degrees further west, one second after the layer's sunrise plus half an hour, the layer takes it to be day and lets DOWN through at five percent charge while the sun is at least 12 degrees below the horizon. Proved instead (C133_clock_partial): for two days and within 2 degrees of where the layer was made (15 degrees of the equator, 48 minutes clear of noon and midnight), day by the clock - from half an hour after the making, until half an hour before the layer's sunset - means the sun above MIN_SOLAR_EL_DEG, and night by the clock means the sun below 16 degrees."
  },
  {
   "property": "C134",
   "status": "partial",
   "theorems": [
    "BLE.C134_culminations_partial",
    "BLE.C134_morning_called_afternoon"
   ],
   "note": "The statement is false of the code (C134_morning_called_afternoon): the refraction formula drops from five arc seconds to zero at 85 degrees, so in the second in which the rising sun passes 85 degrees the elevation decreases; at a place within 9 degrees of the equator this happens four and a half minutes before noon on 3 March 2000, is_solar_afternoon says afternoon and the next solar noon returned is 12 hours or more away. Proved instead (C134_culminations_partial): the full statement at every instant that is 48 minutes clear of noon and midnight."
  },
  {
   "property": "C135",
   "status": "proved",
   "theorems": [
    "BLE.C135_aloft",
    "BLE.C135_no_crash"
   ],
   "note": ""
  },
  {
   "property": "C136",
   "status": "proved",
   "theorems": [
    "BLE.C136_reach",
    "BLE.C136_no_crash",
    "BLE.C136_static_limit",
    "BLE.C136_grid_limit"
   ],
   "note": "The distance is exact up to the speed limit B, which is a hypothesis about the ground-truth winds (forecast plus noise) and is discharged for the static field and for sampled fields with bounded grid values; the noise generator (opensimplex) is assumed to return values in [-1, 1]."
  },
  {
   "property": "C137",
   "status": "proved",
   "theorems": [
    "BLE.C137_range",
    "BLE.C137_seeker",
    "BLE.C137_episode"
   ],
   "note": "Stock vehicle, the code's own ephemeris and Gaussian-process regressor; the wind field is any class whose forecasts answer after a reset."
  },
  {
   "property": "C138",
   "status": "proved",
   "theorems": [
    "BLE.C138_evaluates",
    "BLE.C138_seeker",
    "BLE.C138_walk",
    "BLE.C138_mlp",
    "BLE.C138_quantile",
    "BLE.C138_static"
   ],
   "note": "As C136: the speed limit of the ground-truth winds is a hypothesis, discharged for the static field (opensimplex values in [-1, 1] assumed). The agents' networks and Dopamine parts are parameters assumed to choose among three actions."
  },
  {
   "property": "C139",
   "status": "proved",
   "theorems": [
    "BLE.C139_trains",
    "BLE.C139_collectors",
    "BLE.C139_constructed",
    "BLE.C139_marco",
    "BLE.C139_quantile",
    "BLE.C139_checkpoints",
    "BLE.C139_command"
   ],
   "note": "As C138. The collectors are as the command constructs them with frequencies other than 0; writing a file is taken to succeed; the checkpoint directory holds checkpoints of earlier iterations only and the latest is complete (or it is empty)."
  },
  {
   "property": "C140",
   "status": "proved",
   "theorems": [
    "BLE.C140_only_draws",
    "BLE.C140_draws",
    "BLE.C140_episodes",
    "BLE.C140_flights",
    "BLE.C140_infrared",
    "BLE.C140_average",
    "BLE.C140_reported",
    "BLE.C140_static",
    "BLE.C140_harmonic_reuse"
   ],
   "note": ""
  },
  {
   "property": "C141",
   "status": "proved",
   "theorems": [
    "BLE.C141_endurance",
    "BLE.C141_light_wind"
   ],
   "note": ""
  },
  {
   "property": "C142",
   "status": "proved",
   "theorems": [
    "BLE.C142_pause_ends"
   ],
   "note": ""
  },
  {
   "property": "C143",
   "status": "proved",
   "theorems": [
    "BLE.C143_registered_once",
    "BLE.C143_namespace_kept"
   ],
   "note": ""
  },
  {
   "property": "C144",
   "status": "proved",
   "theorems": [
    "BLE.C144_at_most",
    "BLE.C144_layer_limits",
    "BLE.C144_at_least",
    "BLE.C144_not_all_night",
    "BLE.C144_real_night"
   ],
   "note": ""
  },
  {
   "property": "C145",
   "status": "proved",
   "theorems": [
    "BLE.C145_episode",
    "BLE.C145_script",
    "BLE.C145_apart",
    "BLE.C145_budget",
    "BLE.C145_score",
    "BLE.C145_scores",
    "BLE.C145_completes"
   ],
   "note": "Acme's GymWrapper, StepLimitWrapper and EnvironmentLoop are outside the repository and modelled after their documentation; the evaluation actor reads the agent's variables without changing the agent"
  },
  {
   "property": "C146",
   "status": "partial",
   "theorems": [
    "BLE.C146_failures_partial",
    "BLE.C146_low_is_no_failure"
   ],
   "note": "false of the code as far as flying too low is concerned: no altitude ends a flight (C146_low_is_no_failure gives a stock balloon below the altitude layer's floor that flies on whatever is commanded). The other three causes are proved to be exactly the ends of a flight"
  },
  {
   "property": "C147",
   "status": "partial",
   "theorems": [
    "BLE.C147_checkpoint",
    "BLE.C147_trained_partial",
    "BLE.C147_cleaned_up",
    "BLE.C147_mlp_untrained",
    "BLE.C147_mlp_refuted"
   ],
   "note": "The full statement is false of the code: a checkpoint older than checkpoint_duration (5 in the stock configurations) has been removed and load_checkpoint only logs that it is missing, so the untrained agent is evaluated (C147_cleaned_up); MLPAgent does not override load_checkpoint at all, so every \"checkpoint\" of it is a newly made agent (C147_mlp_untrained, C147_mlp_refuted). Proved for the Dopamine agents and all checkpoints still kept, assuming of a bundle only that an agent restored from it acts like the one it was made of."
  },
  {
   "property": "C148",
   "status": "partial",
   "theorems": [
    "BLE.C148_constructor",
    "BLE.C148_timestamps",
    "BLE.C148_position_partial",
    "BLE.C148_wrong_day",
    "BLE.C148_none_is_naive",
    "BLE.C148_default_utc",
    "BLE.C148_flux_differs"
   ],
   "note": "The constructor, the conversions and the ephemeris of times whose date is the date in Greenwich (all UTC times, so all the simulator makes) are proved. The full statement is false of the code: for other zones the date is taken from the zone and the time of day from the instant, so the ephemeris is that of exactly one day earlier or later (C148_wrong_day), and the flux differs everywhere on earth for a concrete instant (C148_flux_differs). The documented default 'If None, it will default to UTC' is false as well: the datetime is naive and rejected (C148_none_is_naive)."
  },
  {
   "property": "C149",
   "status": "proved",
   "theorems": [
    "BLE.C149_memory",
    "BLE.C149_samples",
    "BLE.C149_evaluation",
    "BLE.C149_mlp"
   ],
   "note": ""
  },
  {
   "property": "C150",
   "status": "proved",
   "theorems": [
    "BLE.C150_leg",
    "BLE.C150_share",
    "BLE.C150_ended_early"
   ],
   "note": ""
  },
  {
   "property": "C151",
   "status": "partial",
   "theorems": [
    "BLE.C151_session",
    "BLE.C151_run_partial",
    "BLE.C151_starts",
    "BLE.C151_not_from_seed"
   ],
   "note": "The full statement is false of the code: create_env builds BalloonEnv() without a seed, so the flag --seed reaches the agent only and each environment seeds itself from the clock. C151_not_from_seed gives, for every agent and every seed, two runs with the same seed of which one scores in every evaluation and the other in none. Proved instead: a session with an environment is determined by the seed it was built with (C151_session), and the script's run by --seed together with the two clock readings with which the training and the evaluation environment seed themselves (C151_run_partial); C151_starts shows that the hypotheses are met."
  },
  {
   "property": "C152",
   "status": "proved",
   "theorems": [
    "BLE.C152_flight",
    "BLE.C152_evaluation",
    "BLE.C152_rendering",
    "BLE.C152_agents"
   ],
   "note": "C152_flight: flights under different reward functions, renderers, estimators, radii and histories; C152_evaluation: evaluations under different rewards and renderers, for agents that do not look at the difference; C152_agents: all shipped agents qualify when evaluated; C152_rendering: rendering changes nothing for any agent. Reward functions and renderers are functions of the balloon state (they do not modify it), as the ones of the package."
  },
  {
   "property": "C153",
   "status": "proved",
   "theorems": [
    "BLE.C153_path",
    "BLE.C153_agent",
    "BLE.C153_future",
    "BLE.C153_agent_future"
   ],
   "note": "C153_path: any use of an environment; C153_agent: the flight of any agent in an evaluation; C153_future, C153_agent_future: gusts after the present step, for episodes from any reset. The true winds are the forecast plus the noise (C37); the noise function is replaced."
  },
  {
   "property": "C154",
   "status": "proved",
   "theorems": [
    "BLE.C154_observation",
    "BLE.C154_defined",
    "BLE.C154_seeker",
    "BLE.C154_forecasts",
    "BLE.C154_mirror"
   ],
   "note": "C154_observation: the entries; C154_defined: existence; C154_seeker: StationSeeker's choice. C154_forecasts and C154_mirror: every forecast can be turned, and every balloon has a mirror image over the same place. The place on earth is required to be the same because the sun (elevation, time of sunrise, heat) enters the observation. In exact arithmetic."
  },
  {
   "property": "C155",
   "status": "proved",
   "theorems": [
    "BLE.C155_hidden",
    "BLE.C155_forgotten"
   ],
   "note": "C155_hidden: present and past; C155_forgotten: the last six hours, if the forecast answers at the balloon (otherwise the measurement there is lost and the query may fail). The regressor is any function of the measurements given to it."
  },
  {
   "property": "C156",
   "status": "proved",
   "theorems": [
    "BLE.C156_vertical",
    "BLE.C156_turned"
   ],
   "note": "C156_vertical: different winds; C156_turned: turned winds and rewards. The hypothesis on the sun is what makes it exact: with the real sun, places differ in how high it stands."
  },
  {
   "property": "C157",
   "status": "proved",
   "theorems": [
    "BLE.C157_more_charge",
    "BLE.C157_descents"
   ],
   "note": "C157_more_charge; C157_descents shows that the restriction to flights without requests to descend (or without the layer), which is part of the property, cannot be dropped: the balloon with more charge may descend where the other may not, and then has less."
  },
  {
   "property": "C158",
   "status": "proved",
   "theorems": [
    "BLE.C158_cut",
    "BLE.C158_ended"
   ],
   "note": "C158_cut: the flight goes on after the first part; C158_ended: it does not."
  },
  {
   "property": "C159",
   "status": "proved",
   "theorems": [
    "BLE.C159_postponed",
    "BLE.C159_search",
    "BLE.C159_observation"
   ],
   "note": "C159_postponed: flights and rewards; C159_search: sunrise, sunset and what is derived from them. C159_observation: the whole feature vector."
  },
  {
   "property": "C160",
   "status": "proved",
   "theorems": [
    "BLE.C160_elsewhere",
    "BLE.C160_uniform"
   ],
   "note": "C160_elsewhere: displaced forecasts; C160_uniform: uniform forecasts, for single queries. Regression as documented by scikit-learn, in exact arithmetic."
  },
  {
   "property": "C161",
   "status": "proved",
   "theorems": [
    "BLE.C161_state",
    "BLE.C161_flight"
   ],
   "note": "C161_state for single states, C161_flight for sums along flights."
  },
  {
   "property": "C162",
   "status": "proved",
   "theorems": [
    "BLE.C162_superposition",
    "BLE.C162_local",
    "BLE.C162_mirrors",
    "BLE.C162_worlds"
   ],
   "note": "C162_superposition: linearity; C162_local: which nodes matter; C162_mirrors: the directions; C162_worlds: mirrored and turned worlds, columns included, as C154 supposes them."
  },
  {
   "property": "C163",
   "status": "proved",
   "theorems": [
    "BLE.C163_row",
    "BLE.C163_order",
    "BLE.C163_shards",
    "BLE.C163_pooled",
    "BLE.C163_table",
    "BLE.C163_label"
   ],
   "note": "C163_row: one evaluation; C163_order, C163_shards, C163_pooled: order, shards and pooling; C163_table, C163_label: the table and its labels. Parsing of the uploaded files as in C121; combining as in C64."
  },
  {
   "property": "C164",
   "status": "proved",
   "theorems": [
    "BLE.C164_same_episode",
    "BLE.C164_second_episode",
    "BLE.C164_kept",
    "BLE.C164_times",
    "BLE.C164_lengths",
    "BLE.C164_curves",
    "BLE.C164_completes"
   ],
   "note": "C164_same_episode, C164_second_episode: which episode; C164_kept: what is recorded; C164_times, C164_lengths, C164_curves: the curves; C164_completes: runs that never raise. Episodes differ under keys that never repeat (as in C23)."
  },
  {
   "property": "C165",
   "status": "partial",
   "theorems": [
    "BLE.C165_sequence",
    "BLE.C165_all_hours",
    "BLE.C165_places_partial",
    "BLE.C165_misplaced"
   ],
   "note": "The frames, hours and pressures are as stated (C165_sequence, C165_all_hours, C165_places_partial); the places are not: meshgrid exchanges the horizontal axes and the picture spans 150 km instead of 500, so that the arrow drawn at (x, y) is the wind at (10/3 y, 10/3 x) (C165_places_partial), refuted for the claimed place by C165_misplaced."
  }
 ]
}
