import Verif.Props.Acme
import Verif.Props.AcmePolicy
import Verif.Props.AcmeTrain
import Verif.Props.Acs
import Verif.Props.Afternoon
import Verif.Props.Agents
import Verif.Props.Aloft
import Verif.Props.Atmosphere
import Verif.Props.Balloon
import Verif.Props.Calendar
import Verif.Props.Charged
import Verif.Props.Checkpoint
import Verif.Props.Commands
import Verif.Props.Control
import Verif.Props.Cutting
import Verif.Props.DateTime
import Verif.Props.DayPower
import Verif.Props.Decoupled
import Verif.Props.Dopamine
import Verif.Props.Elsewhere
import Verif.Props.Endurance
import Verif.Props.Env
import Verif.Props.Envelope
import Verif.Props.Ephemeris
import Verif.Props.Episode
import Verif.Props.EpisodeStart
import Verif.Props.Eval
import Verif.Props.Evaluates
import Verif.Props.FailureModes
import Verif.Props.Features
import Verif.Props.Flight
import Verif.Props.FlightView
import Verif.Props.Float
import Verif.Props.FloatRange
import Verif.Props.Generative
import Verif.Props.Generous
import Verif.Props.Geometry
import Verif.Props.Gym
import Verif.Props.Heat
import Verif.Props.Hidden
import Verif.Props.Independent
import Verif.Props.Json
import Verif.Props.Learning
import Verif.Props.Networks
import Verif.Props.NightBudget
import Verif.Props.NightReserve
import Verif.Props.Observable
import Verif.Props.Onlooker
import Verif.Props.PauseEnds
import Verif.Props.PowerClock
import Verif.Props.PressureRange
import Verif.Props.R2D2
import Verif.Props.Reach
import Verif.Props.Reachable
import Verif.Props.RealNight
import Verif.Props.RealSun
import Verif.Props.Rendering
import Verif.Props.Replay
import Verif.Props.Reward
import Verif.Props.RunSeed
import Verif.Props.SafeStart
import Verif.Props.Safety
import Verif.Props.Seeker
import Verif.Props.SolarSearch
import Verif.Props.StableInit
import Verif.Props.Suites
import Verif.Props.Summary
import Verif.Props.SunLight
import Verif.Props.Sunrise
import Verif.Props.SunriseLate
import Verif.Props.Superposed
import Verif.Props.Thermal
import Verif.Props.TimeWithin
import Verif.Props.Train
import Verif.Props.TrainCommand
import Verif.Props.TrainedEval
import Verif.Props.Trains
import Verif.Props.Turned
import Verif.Props.Units
import Verif.Props.Unseen
import Verif.Props.Vae
import Verif.Props.Wind
import Verif.Props.WindAnim
import Verif.Props.WindBelief
import Verif.Props.WindColumn
import Verif.Props.WindGP

/-! Axioms of every property theorem (expected: propext, Classical.choice, Quot.sound). -/

#print axioms BLE.C01_critical_forces_up
#print axioms BLE.C01_up_only_when_critical
#print axioms BLE.C01_needs_strong_envelope
#print axioms BLE.C02_paused_iff_unsafe
#print axioms BLE.C02_effect
#print axioms BLE.C02_no_descent_near_limits
#print axioms BLE.C03_paused_iff_too_low
#print axioms BLE.C03_effect
#print axioms BLE.C03_no_descent_below_buffer
#print axioms BLE.C04_power_only_weakens
#print axioms BLE.C05_pause_latch
#print axioms BLE.C06_clock
#print axioms BLE.C06_next_unique
#print axioms BLE.C07_flown_command
#print axioms BLE.C07_flown_command_is_simulated
#print axioms BLE.C08_records_request
#print axioms BLE.C09_charge_in_range
#print axioms BLE.C09_soc_in_unit
#print axioms BLE.C10_direction
#print axioms BLE.C10_never_negative
#print axioms BLE.C11_clock_partial
#print axioms BLE.C11_fractional_stride_overruns
#print axioms BLE.C11_exact_advance
#print axioms BLE.C11_start_time_constant
#print axioms BLE.C12_status
#print axioms BLE.C12_status_after_step
#print axioms BLE.C13_frozen
#print axioms BLE.C14_solves
#print axioms BLE.C14_unique
#print axioms BLE.C14_exact
#print axioms BLE.C15_monotone_lipschitz
#print axioms BLE.C15_ambient_antitone
#print axioms BLE.C16_drift
#print axioms BLE.C17_buoyancy
#print axioms BLE.C18_bad_stride_raises
#print axioms BLE.C18_only_then
#print axioms BLE.C18_subsecond_stride
#print axioms BLE.C19_in_range
#print axioms BLE.C19_total
#print axioms BLE.C20_shape
#print axioms BLE.C20_monotone
#print axioms BLE.C20_penalty
#print axioms BLE.C20_excess_energy
#print axioms BLE.C20_power
#print axioms BLE.C20_default
#print axioms BLE.C21_terminal_iff
#print axioms BLE.C21_no_step_after_end
#print axioms BLE.C22_invalid_action
#print axioms BLE.C22_meaning
#print axioms BLE.C23_reproducible
#print axioms BLE.C23_fresh_keys
#print axioms BLE.C24_restore_is_noop
#print axioms BLE.C24_not_restored
#print axioms BLE.C24_restore_partial
#print axioms BLE.C24_weather_overwritten
#print axioms BLE.C24_before_reset
#print axioms BLE.C25_each_once
#print axioms BLE.C25_no_failure
#print axioms BLE.C26_centred
#print axioms BLE.C26_angle
#print axioms BLE.C27_in_space
#print axioms BLE.C28_roundtrip_partial
#print axioms BLE.C28_observed
#print axioms BLE.C28_navigation_swapped
#print axioms BLE.C29_valid_iff_reachable
#print axioms BLE.C30_in_range_partial
#print axioms BLE.C30_never_value_error
#print axioms BLE.C30_negative_wraps
#print axioms BLE.C31_nearest
#print axioms BLE.C31_valid
#print axioms BLE.C32_range
#print axioms BLE.C32_increases
#print axioms BLE.C33_reflection
#print axioms BLE.C34_on_grid
#print axioms BLE.C34_negative_time
#print axioms BLE.C35_within_extremes
#print axioms BLE.C35_boundary_extension
#print axioms BLE.C35_nodes
#print axioms BLE.C35_lipschitz
#print axioms BLE.C36_column_base
#print axioms BLE.C36_column_grid
#print axioms BLE.C36_reset_needed
#print axioms BLE.C37_ground_truth
#print axioms BLE.C38_no_observations
#print axioms BLE.C38_history
#print axioms BLE.C38_history_new
#print axioms BLE.C38_query
#print axioms BLE.C39_recent_partial
#print axioms BLE.C39_stale_fails
#print axioms BLE.C39_succeeds_iff
#print axioms BLE.C39_after_observation
#print axioms BLE.C40_static
#print axioms BLE.C41_total
#print axioms BLE.C41_monotone_in_charge
#print axioms BLE.C41_reserve
#print axioms BLE.C42_power_range
#print axioms BLE.C42_power_monotone
#print axioms BLE.C42_efficiency
#print axioms BLE.C42_always_pumps
#print axioms BLE.C43_height_roundtrip
#print axioms BLE.C43_pressure_roundtrip
#print axioms BLE.C44_higher_is_thinner
#print axioms BLE.C44_positive
#print axioms BLE.C44_pressure_direction
#print axioms BLE.C44_continuous
#print axioms BLE.C45_height_domain
#print axioms BLE.C45_pressure_domain
#print axioms BLE.C46_start_above_floor
#print axioms BLE.C46_default_range_conservative
#print axioms BLE.C47_crossing
#print axioms BLE.C48_consistent
#print axioms BLE.C48_total
#print axioms BLE.C48_empty_ballonet_floats
#print axioms BLE.C49_search
#print axioms BLE.C49_symmetric_minimiser
#print axioms BLE.C49_convexity_not_enough
#print axioms BLE.C49_window
#print axioms BLE.C50_within_a_day
#print axioms BLE.C50_assertions_hold
#print axioms BLE.C50_failures
#print axioms BLE.C51_shadow
#print axioms BLE.C51_attenuation
#print axioms BLE.C51_attenuation_monotone
#print axioms BLE.C51_solar_power
#print axioms BLE.C52_black_body
#print axioms BLE.C52_total_absorptivity
#print axioms BLE.C53_arcsine_argument
#print axioms BLE.C53_destination
#print axioms BLE.C53_distance
#print axioms BLE.C53_zero_offset
#print axioms BLE.C53_pole_bearing_ignored
#print axioms BLE.C54_distance_round_trip
#print axioms BLE.C54_velocity_round_trip
#print axioms BLE.C54_velocity_time
#print axioms BLE.C54_power_time
#print axioms BLE.C54_add_sub
#print axioms BLE.C54_comparisons
#print axioms BLE.C54_relative_distance
#print axioms BLE.C54_degrees
#print axioms BLE.C55_energy_power
#print axioms BLE.C55_tolerance_partial
#print axioms BLE.C55_not_transitive
#print axioms BLE.C56_rescale
#print axioms BLE.C56_saturation
#print axioms BLE.C56_squash
#print axioms BLE.C56_squash_array
#print axioms BLE.C57_guard_partial
#print axioms BLE.C57_not_rejected
#print axioms BLE.C58_schedule
#print axioms BLE.C58_probability
#print axioms BLE.C59_select
#print axioms BLE.C59_steers
#print axioms BLE.C59_targets
#print axioms BLE.C60_increment_partial
#print axioms BLE.C60_not_since_last_update
#print axioms BLE.C61_best
#print axioms BLE.C61_agent
#print axioms BLE.C61_no_level
#print axioms BLE.C61_flying
#print axioms BLE.C62_results
#print axioms BLE.C62_length_checked
#print axioms BLE.C62_flags
#print axioms BLE.C63_partition
#print axioms BLE.C63_balanced
#print axioms BLE.C64_combined
#print axioms BLE.C64_combine_partial
#print axioms BLE.C64_swallows
#print axioms BLE.C65_resume
#print axioms BLE.C65_each_once
#print axioms BLE.C65_without_checkpoints
#print axioms BLE.C65_records
#print axioms BLE.C66_resumes_partial
#print axioms BLE.C66_torn
#print axioms BLE.C67_names
#print axioms BLE.C67_exact_partial
#print axioms BLE.C67_six_digits
#print axioms BLE.C67_stray
#print axioms BLE.C67_newest
#print axioms BLE.C67_negative_duration
#print axioms BLE.C68_max_partial
#print axioms BLE.C68_hidden
#print axioms BLE.C69_reported_partial
#print axioms BLE.C69_double_count
#print axioms BLE.C70_record_partial
#print axioms BLE.C70_extra
#print axioms BLE.C71_distribution_partial
#print axioms BLE.C71_invalid_raises
#print axioms BLE.C71_negative_pending
#print axioms BLE.C72_all_events
#print axioms BLE.C72_exception
#print axioms BLE.C73_no_wraparound
#print axioms BLE.C73_sampled
#print axioms BLE.C73_incompressible_partial
#print axioms BLE.C73_diverges_as_flown
#print axioms BLE.C74_disjoint_partial
#print axioms BLE.C74_size_zero
#print axioms BLE.C74_dataset
#print axioms BLE.C75_kl
#print axioms BLE.C76_constant
#print axioms BLE.C76_schedule
#print axioms BLE.C77_loading_partial
#print axioms BLE.C77_wrong_error
#print axioms BLE.C77_errors
#print axioms BLE.C78_location
#print axioms BLE.C78_time
#print axioms BLE.C78_upwelling
#print axioms BLE.C78_distance
#print axioms BLE.C79_neutral_at_base_volume
#print axioms BLE.C79_envelope_balanced
#print axioms BLE.C79_starts_climbing
#print axioms BLE.C80_no_exception
#print axioms BLE.C80_single_stride
#print axioms BLE.C81_vehicle_constant
#print axioms BLE.C81_layer_rating
#print axioms BLE.C82_energy_balance
#print axioms BLE.C82_night_drains
#print axioms BLE.C83_mixed_kinds_raise_partial
#print axioms BLE.C83_energy_ge
#print axioms BLE.C83_products
#print axioms BLE.C84_steps_to_sunrise
#print axioms BLE.C85_position
#print axioms BLE.C85_flux
#print axioms BLE.C85_flight
#print axioms BLE.C85_direction
#print axioms BLE.C85_refraction
#print axioms BLE.C86_julian_day_partial
#print axioms BLE.C86_modern
#print axioms BLE.C86_skips_a_day
#print axioms BLE.C87_noise
#print axioms BLE.C87_offsets
#print axioms BLE.C87_noise_bounded
#print axioms BLE.C87_before_reset
#print axioms BLE.C88_range
#print axioms BLE.C88_fit_total
#print axioms BLE.C88_more_data
#print axioms BLE.C88_at_observation
#print axioms BLE.C89_updates
#print axioms BLE.C89_eval_frozen
#print axioms BLE.C89_last_reward_unused
#print axioms BLE.C90_no_exploration
#print axioms BLE.C90_stored_actions
#print axioms BLE.C91_function_of_seed
#print axioms BLE.C91_sharding
#print axioms BLE.C92_loaded_partial
#print axioms BLE.C92_not_loaded
#print axioms BLE.C93_epoch_partial
#print axioms BLE.C93_never_saves
#print axioms BLE.C94_cold_start_total
#print axioms BLE.C94_starts_superpressured
#print axioms BLE.C94_real_sun
#print axioms BLE.C95_sunrise_found
#print axioms BLE.C95_init
#print axioms BLE.C95_reset
#print axioms BLE.C95_first_climb
#print axioms BLE.C96_motion
#print axioms BLE.C96_reported
#print axioms BLE.C96_observation
#print axioms BLE.C97_invariants
#print axioms BLE.C97_duration
#print axioms BLE.C97_from_reset
#print axioms BLE.C98_return
#print axioms BLE.C99_radius_partial
#print axioms BLE.C99_radius_ignored
#print axioms BLE.C100_range_exists
#print axioms BLE.C100_real_sun
#print axioms BLE.C101_sunrise_found
#print axioms BLE.C101_feature
#print axioms BLE.C101_steps_to_sunrise
#print axioms BLE.C101_reset
#print axioms BLE.C102_observation
#print axioms BLE.C102_reset
#print axioms BLE.C102_arena_step
#print axioms BLE.C102_episode
#print axioms BLE.C102_env_reset
#print axioms BLE.C102_new
#print axioms BLE.C103_float_is_safe
#print axioms BLE.C103_init
#print axioms BLE.C103_reset
#print axioms BLE.C104_score
#print axioms BLE.C104_against_twr
#print axioms BLE.C104_edges
#print axioms BLE.C105_exploration_partial
#print axioms BLE.C105_first_phase_short
#print axioms BLE.C105_evaluation
#print axioms BLE.C106_heavier
#print axioms BLE.C106_slack
#print axioms BLE.C106_ordered
#print axioms BLE.C107_update_partial
#print axioms BLE.C107_small_rate
#print axioms BLE.C107_stock
#print axioms BLE.C107_not_sarsa
#print axioms BLE.C107_overshoots
#print axioms BLE.C108_total
#print axioms BLE.C108_snapshot
#print axioms BLE.C108_fresh
#print axioms BLE.C108_count
#print axioms BLE.C108_stock
#print axioms BLE.C108_zero_period
#print axioms BLE.C109_priority
#print axioms BLE.C109_weights
#print axioms BLE.C110_answer_partial
#print axioms BLE.C110_monotone
#print axioms BLE.C110_collinear_raises
#print axioms BLE.C111_speed
#print axioms BLE.C112_strata
#print axioms BLE.C112_lookup
#print axioms BLE.C112_available
#print axioms BLE.C112_nested
#print axioms BLE.C113_convection
#print axioms BLE.C113_response
#print axioms BLE.C113_band
#print axioms BLE.C113_direction
#print axioms BLE.C113_episode_band
#print axioms BLE.C113_episode
#print axioms BLE.C114_shows
#print axioms BLE.C114_modes
#print axioms BLE.C114_aligned
#print axioms BLE.C114_total
#print axioms BLE.C114_start
#print axioms BLE.C115_int_of_quotient
#print axioms BLE.C115_shards
#print axioms BLE.C115_seconds
#print axioms BLE.C115_search
#print axioms BLE.C115_julian_day
#print axioms BLE.C115_bound_needed
#print axioms BLE.C116_results
#print axioms BLE.C116_outcome
#print axioms BLE.C116_unknown_agent
#print axioms BLE.C116_misspelt
#print axioms BLE.C116_excess_shard
#print axioms BLE.C116_pipeline
#print axioms BLE.C117_files_partial
#print axioms BLE.C117_shard_or_checkpoint
#print axioms BLE.C117_checkpoint_not_loaded
#print axioms BLE.C117_run_dirs
#print axioms BLE.C118_transforms
#print axioms BLE.C118_battery
#print axioms BLE.C118_ratio
#print axioms BLE.C118_reward
#print axioms BLE.C118_reward_monotone
#print axioms BLE.C118_ambient
#print axioms BLE.C118_wind
#print axioms BLE.C118_squash_reaches_one
#print axioms BLE.C119_forward
#print axioms BLE.C119_between
#print axioms BLE.C119_bias
#print axioms BLE.C119_dead
#print axioms BLE.C119_weights
#print axioms BLE.C119_finetune
#print axioms BLE.C120_perciatelli
#print axioms BLE.C120_sharding
#print axioms BLE.C120_random
#print axioms BLE.C120_draws
#print axioms BLE.C121_injective
#print axioms BLE.C121_fields
#print axioms BLE.C121_combine
#print axioms BLE.C121_foreign
#print axioms BLE.C121_not_a_list
#print axioms BLE.C121_set
#print axioms BLE.C122_squash
#print axioms BLE.C122_encoder_bounded
#print axioms BLE.C122_latents
#print axioms BLE.C122_divergence
#print axioms BLE.C122_loss
#print axioms BLE.C122_forward
#print axioms BLE.C122_layers
#print axioms BLE.C122_ravel
#print axioms BLE.C122_objective
#print axioms BLE.C122_evaluation
#print axioms BLE.C123_sizes
#print axioms BLE.C123_shape_partial
#print axioms BLE.C123_ignored
#print axioms BLE.C124_probabilities
#print axioms BLE.C124_eval
#print axioms BLE.C124_behaviour
#print axioms BLE.C124_config
#print axioms BLE.C124_rates
#print axioms BLE.C124_learning_rate
#print axioms BLE.C125_agent
#print axioms BLE.C125_checkpoint
#print axioms BLE.C125_sharding_partial
#print axioms BLE.C125_ties
#print axioms BLE.C126_kept_partial
#print axioms BLE.C126_console_lost
#print axioms BLE.C126_fine_restarts
#print axioms BLE.C126_recorded
#print axioms BLE.C126_rerun
#print axioms BLE.C127_command_partial
#print axioms BLE.C127_misspelt
#print axioms BLE.C127_unknown_collectors
#print axioms BLE.C127_image_shared
#print axioms BLE.C128_unroll
#print axioms BLE.C128_rows
#print axioms BLE.C128_cut
#print axioms BLE.C128_duelling
#print axioms BLE.C128_bounded
#print axioms BLE.C128_torso
#print axioms BLE.C128_embedding
#print axioms BLE.C128_parts
#print axioms BLE.C128_fresh
#print axioms BLE.C128_remembers
#print axioms BLE.C129_order
#print axioms BLE.C129_superposition
#print axioms BLE.C129_never_certain
#print axioms BLE.C129_single
#print axioms BLE.C129_fades
#print axioms BLE.C129_query_order
#print axioms BLE.C129_query_uncertain
#print axioms BLE.C130_lasts_the_night
#print axioms BLE.C130_default_vehicle
#print axioms BLE.C130_too_little
#print axioms BLE.C130_real_dark
#print axioms BLE.C131_panels
#print axioms BLE.C131_day_charges_partial
#print axioms BLE.C131_noon_drains
#print axioms BLE.C131_runs_out_at_noon
#print axioms BLE.C132_found_partial
#print axioms BLE.C132_late
#print axioms BLE.C133_clock_partial
#print axioms BLE.C133_drift
#print axioms BLE.C134_culminations_partial
#print axioms BLE.C134_morning_called_afternoon
#print axioms BLE.C135_aloft
#print axioms BLE.C135_no_crash
#print axioms BLE.C136_reach
#print axioms BLE.C136_no_crash
#print axioms BLE.C136_static_limit
#print axioms BLE.C136_grid_limit
#print axioms BLE.C137_range
#print axioms BLE.C137_seeker
#print axioms BLE.C137_episode
#print axioms BLE.C138_evaluates
#print axioms BLE.C138_seeker
#print axioms BLE.C138_walk
#print axioms BLE.C138_mlp
#print axioms BLE.C138_quantile
#print axioms BLE.C138_static
#print axioms BLE.C139_trains
#print axioms BLE.C139_collectors
#print axioms BLE.C139_constructed
#print axioms BLE.C139_marco
#print axioms BLE.C139_quantile
#print axioms BLE.C139_checkpoints
#print axioms BLE.C139_command
#print axioms BLE.C140_only_draws
#print axioms BLE.C140_draws
#print axioms BLE.C140_episodes
#print axioms BLE.C140_flights
#print axioms BLE.C140_infrared
#print axioms BLE.C140_average
#print axioms BLE.C140_reported
#print axioms BLE.C140_static
#print axioms BLE.C140_harmonic_reuse
#print axioms BLE.C141_endurance
#print axioms BLE.C141_light_wind
#print axioms BLE.C142_pause_ends
#print axioms BLE.C143_registered_once
#print axioms BLE.C143_namespace_kept
#print axioms BLE.C144_at_most
#print axioms BLE.C144_layer_limits
#print axioms BLE.C144_at_least
#print axioms BLE.C144_not_all_night
#print axioms BLE.C144_real_night
#print axioms BLE.C145_episode
#print axioms BLE.C145_script
#print axioms BLE.C145_apart
#print axioms BLE.C145_budget
#print axioms BLE.C145_score
#print axioms BLE.C145_scores
#print axioms BLE.C145_completes
#print axioms BLE.C146_failures_partial
#print axioms BLE.C146_low_is_no_failure
#print axioms BLE.C147_checkpoint
#print axioms BLE.C147_trained_partial
#print axioms BLE.C147_cleaned_up
#print axioms BLE.C147_mlp_untrained
#print axioms BLE.C147_mlp_refuted
#print axioms BLE.C148_constructor
#print axioms BLE.C148_timestamps
#print axioms BLE.C148_position_partial
#print axioms BLE.C148_wrong_day
#print axioms BLE.C148_none_is_naive
#print axioms BLE.C148_default_utc
#print axioms BLE.C148_flux_differs
#print axioms BLE.C149_memory
#print axioms BLE.C149_samples
#print axioms BLE.C149_evaluation
#print axioms BLE.C149_mlp
#print axioms BLE.C150_leg
#print axioms BLE.C150_share
#print axioms BLE.C150_ended_early
#print axioms BLE.C151_session
#print axioms BLE.C151_run_partial
#print axioms BLE.C151_starts
#print axioms BLE.C151_not_from_seed
#print axioms BLE.C152_flight
#print axioms BLE.C152_evaluation
#print axioms BLE.C152_rendering
#print axioms BLE.C152_agents
#print axioms BLE.C153_path
#print axioms BLE.C153_agent
#print axioms BLE.C153_future
#print axioms BLE.C153_agent_future
#print axioms BLE.C154_observation
#print axioms BLE.C154_defined
#print axioms BLE.C154_seeker
#print axioms BLE.C154_forecasts
#print axioms BLE.C154_mirror
#print axioms BLE.C155_hidden
#print axioms BLE.C155_forgotten
#print axioms BLE.C156_vertical
#print axioms BLE.C156_turned
#print axioms BLE.C157_more_charge
#print axioms BLE.C157_descents
#print axioms BLE.C158_cut
#print axioms BLE.C158_ended
#print axioms BLE.C159_postponed
#print axioms BLE.C159_search
#print axioms BLE.C159_observation
#print axioms BLE.C160_elsewhere
#print axioms BLE.C160_uniform
#print axioms BLE.C161_state
#print axioms BLE.C161_flight
#print axioms BLE.C162_superposition
#print axioms BLE.C162_local
#print axioms BLE.C162_mirrors
#print axioms BLE.C162_worlds
#print axioms BLE.C163_row
#print axioms BLE.C163_order
#print axioms BLE.C163_shards
#print axioms BLE.C163_pooled
#print axioms BLE.C163_table
#print axioms BLE.C163_label
#print axioms BLE.C164_same_episode
#print axioms BLE.C164_second_episode
#print axioms BLE.C164_kept
#print axioms BLE.C164_times
#print axioms BLE.C164_lengths
#print axioms BLE.C164_curves
#print axioms BLE.C164_completes
#print axioms BLE.C165_sequence
#print axioms BLE.C165_all_hours
#print axioms BLE.C165_places_partial
#print axioms BLE.C165_misplaced
