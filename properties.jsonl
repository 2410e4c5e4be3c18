{"id": "C01", "title": "Critical superpressure always forces an ascent", "statement": "Whatever command is requested and whatever superpressures were seen before, asking the envelope safety layer for an action while superpressure is below 150 Pa, or within 150 Pa of (or above) the envelope maximum, returns UP.", "quantifier": "every envelope with max superpressure of at least 450 Pa, every finite history of (command, superpressure) calls, every command, every superpressure", "why_tests_cant": "unbounded call histories over a continuous reading; the layer is a hidden state machine", "anchors": ["balloon_learning_environment/env/balloon/envelope_safety.py:EnvelopeSafetyLayer.get_action", "balloon_learning_environment/env/balloon/envelope_safety.py:_transition_state"]}
{"id": "C02", "title": "Envelope layer blocks descent exactly while near a limit, with hysteresis", "statement": "For an envelope with max superpressure of at least 600 Pa, the layer reports navigation paused after a history of readings exactly when the last reading is < 250 or >= max-250, or lies in the 50 Pa hysteresis band next to a limit and the most recent reading outside that band was on the dangerous side of it. While paused it never returns DOWN; while not paused it returns the requested command unchanged.", "quantifier": "every finite history of readings, every command", "why_tests_cant": "the claim is about all histories of a hysteresis automaton", "anchors": ["balloon_learning_environment/env/balloon/envelope_safety.py:EnvelopeSafetyLayer.get_action", "balloon_learning_environment/env/balloon/envelope_safety.py:EnvelopeSafetyLayer.navigation_is_paused"]}
{"id": "C03", "title": "Altitude floor with hysteresis", "statement": "The altitude layer returns UP whenever the altitude is below 50,000 ft, never returns DOWN below 50,500 ft, and pauses navigation exactly when the most recent altitude outside [50,500 ft, 51,000 ft) was below 50,500 ft; when not paused the command passes through.", "quantifier": "every finite history of altitudes and commands", "why_tests_cant": "unbounded histories of a hysteresis automaton over a continuous quantity", "anchors": ["balloon_learning_environment/env/balloon/altitude_safety.py:AltitudeSafetyLayer.get_action", "balloon_learning_environment/env/balloon/altitude_safety.py:_transition_state"]}
{"id": "C04", "title": "Power layer only ever weakens DOWN to STAY", "statement": "For every history, the power safety layer returns the requested command, or STAY in place of DOWN; it never produces DOWN or UP that was not requested, and it replaces DOWN exactly when it is paused after the call.", "quantifier": "every state of the layer, time, load, charge, capacity and command", "why_tests_cant": "continuous inputs and internal pause/sunrise state accumulated over time", "anchors": ["balloon_learning_environment/env/balloon/power_safety.py:PowerSafetyLayer.get_action"]}
{"id": "C05", "title": "Power pause latches overnight until daytime with enough charge", "statement": "Once the power layer pauses navigation it stays paused in every later call until a call made in daytime (next sunset before next sunrise-plus-30-min) with state of charge of at least 5%; and it never pauses during daytime. A new pause happens at night exactly when the charge left after floating to sunrise would be below 2.5% of capacity.", "quantifier": "every sequence of calls made in time order with a non-zero battery capacity", "why_tests_cant": "latched behaviour over unbounded sequences of calls", "anchors": ["balloon_learning_environment/env/balloon/power_safety.py:PowerSafetyLayer.get_action"]}
{"id": "C06", "title": "Power layer clock always looks forward to the next sunrise and sunset", "statement": "The catch-up loops always terminate, and after each call the stored sunrise (with hysteresis) and sunset are the earliest instants not before the query time that differ from the originally computed ones by a whole number (>= 0) of days; with non-decreasing query times the result does not depend on which intermediate times were queried.", "quantifier": "every initial sunrise/sunset and every sequence of non-decreasing query times", "why_tests_cant": "termination and history independence of while loops over arbitrary gaps", "anchors": ["balloon_learning_environment/env/balloon/power_safety.py:PowerSafetyLayer.get_action"]}
{"id": "C07", "title": "Safety layers compose: the flown command", "statement": "In a balloon step the command acted on is UP if the altitude is below the floor or superpressure is critical; it is DOWN only if DOWN was requested and none of the enabled layers is paused; it is otherwise the request with DOWN weakened to STAY. When DOWN is requested, the balloon is reported as navigation-paused after the step exactly when the flown command is not DOWN.", "quantifier": "every balloon state, layer states, atmosphere and command, for an envelope rated for at least 450 Pa and a pressure the atmosphere covers; the report of a pause for a power layer that is enabled or not paused", "why_tests_cant": "combination of three stateful automata over continuous inputs", "anchors": ["balloon_learning_environment/env/balloon/balloon.py:Balloon.simulate_step", "balloon_learning_environment/env/balloon/balloon.py:BalloonState.navigation_is_paused"]}
{"id": "C08", "title": "The recorded last command is the requested one, not the flown one", "statement": "After a step, the state's last_command is the command passed by the caller even when a safety layer overrode it; this holds for every step including one that fails because the flight already ended.", "quantifier": "every state and command", "why_tests_cant": "interaction of override and failure paths", "anchors": ["balloon_learning_environment/env/balloon/balloon.py:Balloon.simulate_step"]}
{"id": "C09", "title": "Battery charge stays within [0, capacity]", "statement": "If the initial charge is within [0, capacity], then after any sequence of steps the battery charge is within [0, capacity] and the state of charge is in [0,1], whatever the sun, load, commands and strides were.", "quantifier": "every initial state, wind, atmosphere, sequence of commands and step lengths", "why_tests_cant": "invariant over unbounded trajectories with continuous inputs", "anchors": ["balloon_learning_environment/env/balloon/balloon.py:_simulate_step_internal", "balloon_learning_environment/env/balloon/balloon.py:BalloonState.battery_soc"]}
{"id": "C10", "title": "Ballonet air never negative and moves the commanded way", "statement": "mols_air is never negative after a step; a flown UP never increases it, a flown STAY leaves it unchanged, a flown DOWN never decreases it.", "quantifier": "every state with non-negative superpressure and positive temperature, every sub-step and trajectory", "why_tests_cant": "invariant over unbounded trajectories", "anchors": ["balloon_learning_environment/env/balloon/balloon.py:_simulate_step_internal", "balloon_learning_environment/env/balloon/acs.py:get_mass_flow"]}
{"id": "C11", "title": "Simulated clock accounting", "statement": "A step that ends with status OK advances date_time and time_elapsed by exactly the requested duration; a step that ends the flight advances both by the same positive whole number of strides not exceeding the duration. Over any trajectory date_time - time_elapsed is constant.", "quantifier": "every trajectory, duration and stride with the duration a multiple of the stride", "why_tests_cant": "loop with data-dependent early exit, arbitrary durations", "anchors": ["balloon_learning_environment/env/balloon/balloon.py:Balloon.simulate_step"]}
{"id": "C12", "title": "End-of-flight causes are classified exactly and with a fixed precedence", "statement": "(Rated maximum superpressure >= 0.) After a sub-step the status is OUT_OF_POWER iff the new battery charge is zero; otherwise BURST iff the new superpressure exceeds the envelope maximum; otherwise ZEROPRESSURE iff the new superpressure is <= 0; otherwise OK.", "quantifier": "every state that was OK and every input", "why_tests_cant": "boundary values of continuous quantities and simultaneous causes", "anchors": ["balloon_learning_environment/env/balloon/balloon.py:_simulate_step_internal"]}
{"id": "C13", "title": "A finished flight is frozen", "statement": "Once the status is not OK, every further step raises, and no position, pressure, energy, gas, time or safety-layer variable changes again, for any number of further attempts.", "quantifier": "every terminal state and every sequence of further commands", "why_tests_cant": "absorbing-state claim over unbounded attempts", "anchors": ["balloon_learning_environment/env/balloon/balloon.py:Balloon.simulate_step"]}
{"id": "C14", "title": "Envelope equations are solved exactly", "statement": "The returned (volume, superpressure) satisfy: if the gas at ambient pressure would fill no more than the base volume then superpressure is 0 and volume is that free volume; otherwise superpressure > 0, volume = base + slope*superpressure, and (ambient+superpressure)*volume = n R T. The solution with positive volume is unique.", "quantifier": "every positive gas amount, temperature, pressure, base volume and non-negative slope", "why_tests_cant": "algebraic identity over a continuum of inputs", "anchors": ["balloon_learning_environment/env/balloon/balloon.py:calculate_superpressure_and_volume"]}
{"id": "C15", "title": "Superpressure responds monotonically and continuously", "statement": "Adding gas or heat never lowers superpressure or volume, and superpressure/volume have no jump where the envelope becomes fully inflated.", "quantifier": "every pair of comparable inputs", "why_tests_cant": "relational property over a continuum", "anchors": ["balloon_learning_environment/env/balloon/balloon.py:calculate_superpressure_and_volume"]}
{"id": "C16", "title": "Balloon drifts exactly with the wind", "statement": "During one step the horizontal displacement equals the wind vector times the simulated time that elapsed, including when the flight ends part-way through.", "quantifier": "every state, wind, command, duration and stride", "why_tests_cant": "loop invariant with early exit", "anchors": ["balloon_learning_environment/env/balloon/balloon.py:_simulate_step_internal", "balloon_learning_environment/env/balloon/balloon.py:Balloon.simulate_step"]}
{"id": "C17", "title": "Buoyancy moves the balloon the right way", "statement": "If displaced air weighs at least as much as the flight system, a sub-step never increases pressure (never loses altitude); if it weighs less, pressure does not decrease.", "quantifier": "every state inside the modelled atmosphere", "why_tests_cant": "sign of a finite-difference derivative over a nonlinear atmosphere", "anchors": ["balloon_learning_environment/env/balloon/balloon.py:_simulate_step_internal", "balloon_learning_environment/env/balloon/standard_atmosphere.py:Atmosphere.at_pressure"]}
{"id": "C18", "title": "Step duration must be a whole number of strides", "statement": "simulate_step raises exactly when the flight already ended or the duration in whole seconds is not a multiple of the stride in whole seconds (stride >= 1 s); in that error case no physical variable changes.", "quantifier": "every duration and stride", "why_tests_cant": "error path for all integers, plus what has been mutated when it fires", "anchors": ["balloon_learning_environment/env/balloon/balloon.py:Balloon.simulate_step"]}
{"id": "C19", "title": "Reward always lies in the advertised range", "statement": "The reward is in [0,1] for every simulator state, for every dropoff in [0,1] and positive half-life; it is strictly positive for positive dropoff.", "quantifier": "every state and parameter choice", "why_tests_cant": "continuous state space with exponential", "anchors": ["balloon_learning_environment/env/balloon_env.py:perciatelli_reward_function", "balloon_learning_environment/env/balloon_env.py:BalloonEnv.reward_range"]}
{"id": "C20", "title": "Reward shape", "statement": "Without the power penalty the reward is exactly 1 at distance <= radius and dropoff*2^(-(d-r)/halflife) (up to the 1e-11 rounding of ln 2 in the exponent rate) beyond; it never increases with distance; the penalty applies only when the last command is DOWN and there is no excess energy (panels above the daytime load and battery above 99%), multiplies by a factor in [0.65, 0.95], and never increases with ACS power.", "quantifier": "every state and pair of distances", "why_tests_cant": "relational/continuous", "anchors": ["balloon_learning_environment/env/balloon_env.py:perciatelli_reward_function"]}
{"id": "C21", "title": "Episode ends exactly when the flight ended, with exactly one cause", "statement": "The terminal flag returned by step is true iff the status is not OK, and then exactly one of out_of_power / envelope_burst / zeropressure is set; when not terminal none is set.", "quantifier": "every reachable state", "why_tests_cant": "needs all states", "anchors": ["balloon_learning_environment/env/balloon_env.py:BalloonEnv.step", "balloon_learning_environment/env/balloon_env.py:BalloonEnv._get_info"]}
{"id": "C22", "title": "Only three actions are accepted and invalid actions change nothing", "statement": "step(a) raises ValueError for every integer a outside {0,1,2} and in that case simulator, renderer and iteration counter are unchanged; 0, 1, 2 mean DOWN, STAY, UP.", "quantifier": "every integer action and state", "why_tests_cant": "all integers", "anchors": ["balloon_learning_environment/env/balloon_env.py:BalloonEnv.step", "balloon_learning_environment/env/balloon/control.py:AltitudeControlCommand"]}
{"id": "C23", "title": "Seeded runs are reproducible and independent of what ran before", "statement": "After seeding, reset followed by any fixed sequence of actions yields the same observations, rewards and flags regardless of how the same environment object was used before; two resets without reseeding use different (split) keys.", "quantifier": "every seed, every prior usage history, every action sequence, every kind of wind field whose reset_forecast does not depend on its previous forecast (as in both fields of the repository)", "why_tests_cant": "quantifies over all prior histories of a mutable object", "anchors": ["balloon_learning_environment/env/balloon_env.py:BalloonEnv.reset", "balloon_learning_environment/env/balloon_arena.py:BalloonArena.reset"]}
{"id": "C24", "title": "A simulator state obtained for checkpointing can be restored later", "statement": "Saving get_simulator_state(), stepping the simulator, and passing the saved value back to set_simulator_state() returns the simulator to the saved balloon state.", "quantifier": "every state and every action sequence between save and restore", "why_tests_cant": "aliasing of a live mutable object across a history", "anchors": ["balloon_learning_environment/env/balloon_arena.py:BalloonArena.get_simulator_state", "balloon_learning_environment/env/balloon_arena.py:BalloonArena.set_simulator_state", "balloon_learning_environment/env/simulator_data.py:SimulatorState"]}
{"id": "C25", "title": "Observation vector is completely and exactly filled", "statement": "For every balloon pressure and every reachable range, building the wind column writes each of the 1083 wind entries exactly once, ends exactly at the end of the 1099-vector, and the internal index assertions never fail.", "quantifier": "every balloon pressure (also outside 5000-14000 Pa) and every reachable pressure range", "why_tests_cant": "index arithmetic for all levels and ranges", "anchors": ["balloon_learning_environment/env/features.py:PerciatelliFeatureConstructor._add_wind_features"]}
{"id": "C26", "title": "Wind column is centred on the balloon", "statement": "Entry 180 of the 361-entry relative column is the balloon's own pressure level; entry 180+k is the level k*50 Pa higher in pressure; every entry that falls outside the 181 absolute levels or outside the reachable range is (0,1,1) and every other entry carries that level's forecast features.", "quantifier": "every balloon level, every reachable range, every wind estimate", "why_tests_cant": "index arithmetic for all levels", "anchors": ["balloon_learning_environment/env/features.py:PerciatelliFeatureConstructor._add_wind_features"]}
{"id": "C27", "title": "Observations belong to the declared observation space", "statement": "Every produced observation lies within observation_space (component-wise), provided the battery invariant holds and wind uncertainties are at most 1.", "quantifier": "every balloon state and wind estimate", "why_tests_cant": "continuous state, boundary tolerances", "anchors": ["balloon_learning_environment/env/features.py:PerciatelliFeatureConstructor.observation_space", "balloon_learning_environment/env/features.py:PerciatelliFeatureConstructor._add_ambient_features"]}
{"id": "C28", "title": "Named features read back what was observed", "statement": "Parsing a produced observation with NamedPerciatelliFeatures gives back the balloon's pressure clamped to [5000,14000], the battery state of charge, the last command, the pressure ratio, and navigation_paused true iff navigation was paused (navigation_enabled true iff it was not).", "quantifier": "every balloon state", "why_tests_cant": "round-trip between two independently written encodings", "anchors": ["balloon_learning_environment/env/features.py:NamedPerciatelliFeatures", "balloon_learning_environment/env/features.py:PerciatelliFeatureConstructor._add_ambient_features"]}
{"id": "C29", "title": "Reachable levels are recognisable", "statement": "In a parsed observation level_is_valid(l) is true iff entry l corresponds to a pressure level inside the reachable range.", "quantifier": "every balloon state and wind estimate", "why_tests_cant": "depends on the sentinel never being produced by real data, for all data", "anchors": ["balloon_learning_environment/env/features.py:PerciatelliWindFeature.is_valid_wind", "balloon_learning_environment/env/features.py:NamedPerciatelliFeatures.level_is_valid"]}
{"id": "C30", "title": "Out-of-range wind levels are rejected", "statement": "NamedPerciatelliFeatures.wind_at raises ValueError for every level outside [0, num_pressure_levels).", "quantifier": "every integer level", "why_tests_cant": "all integers; the guard is a chained comparison", "anchors": ["balloon_learning_environment/env/features.py:NamedPerciatelliFeatures.wind_at"]}
{"id": "C31", "title": "Nearest pressure level is nearest", "statement": "The level chosen for a pressure is in 0..180 and no other level is closer to the clamped pressure (ties allowed); its distance is at most 25 Pa.", "quantifier": "every real pressure", "why_tests_cant": "continuous input with round-half-even", "anchors": ["balloon_learning_environment/env/features.py:PerciatelliFeatureConstructor._nearest_pressure_level"]}
{"id": "C32", "title": "Normalised solar-cycle time", "statement": "Given next sunrise and sunset within a day in the future, the solar cycle feature is in [0, pi] by day and in [pi, 2pi] by night, increases with time between events, and its range assertion never fails.", "quantifier": "every current time and pair of next sunrise/sunset", "why_tests_cant": "continuous times", "anchors": ["balloon_learning_environment/env/features.py:compute_sunrise_time"]}
{"id": "C33", "title": "Time reflection keeps forecasts defined and continuous", "statement": "For any horizon H > 0, forecast time t >= 0 is mapped into [0,H]; the mapping is the identity below H, 2H-periodic, and never separates two times further than they were apart (1-Lipschitz), so forecasts do not jump.", "quantifier": "every time and horizon", "why_tests_cant": "continuous input, all cycles", "anchors": ["balloon_learning_environment/env/grid_based_wind_field.py:GridBasedWindField._boomerang", "balloon_learning_environment/env/generative_wind_field.py:GenerativeWindField._boomerang"]}
{"id": "C34", "title": "Forecast queries never leave the grid", "statement": "For every x, y, pressure and every non-negative elapsed time the interpolation point handed to the interpolator lies inside the grid; so a forecast exists for every such query.", "quantifier": "every query", "why_tests_cant": "continuous inputs including far outside the box", "anchors": ["balloon_learning_environment/env/grid_based_wind_field.py:GridBasedWindField._prepare_get_forecast_inputs"]}
{"id": "C35", "title": "Forecast extends the field by its boundary values and stays within its extremes", "statement": "A forecast outside the modelled box equals the forecast at the nearest boundary point, equals the stored value at grid nodes, and each wind component lies between the minimum and maximum of the stored field.", "quantifier": "every field, query point", "why_tests_cant": "multilinear interpolation for all fields and points", "anchors": ["balloon_learning_environment/env/grid_based_wind_field.py:GridBasedWindField.get_forecast"]}
{"id": "C36", "title": "Column forecasts agree with single forecasts", "statement": "get_forecast_column(x, y, ps, t) has one entry per pressure, in order, and entry i equals get_forecast(x, y, ps[i], t); both raise if the field was never reset.", "quantifier": "every list of pressures and query", "why_tests_cant": "all lengths and both code paths", "anchors": ["balloon_learning_environment/env/grid_based_wind_field.py:GridBasedWindField.get_forecast_column", "balloon_learning_environment/env/wind_field.py:WindField.get_forecast_column"]}
{"id": "C37", "title": "Ground truth is forecast plus noise", "statement": "get_ground_truth equals the forecast plus the wind noise at the same point and time, componentwise, for any wind field and noise model.", "quantifier": "every wind field implementation and query", "why_tests_cant": "all implementations", "anchors": ["balloon_learning_environment/env/wind_field.py:WindField.get_ground_truth"]}
{"id": "C38", "title": "Wind estimator equals the forecast until something was observed, and reset forgets", "statement": "With no observations since reset, wind estimates equal the forecast with zero deviation; after any sequence of observe/reset calls the stored data are exactly the observations since the last reset, each being measured wind minus forecast at the same place and time.", "quantifier": "every sequence of observe/reset/query calls", "why_tests_cant": "unbounded call histories", "anchors": ["balloon_learning_environment/env/wind_gp.py:WindGP.observe", "balloon_learning_environment/env/wind_gp.py:WindGP.reset", "balloon_learning_environment/env/wind_gp.py:WindGP.query_batch"]}
{"id": "C39", "title": "Wind estimator uses exactly the recent observations", "statement": "For a batch of queries at one common time, the regression is fitted on exactly the observations less than 6 hours from that time; queries do not change stored observations. A query always succeeds.", "quantifier": "every history and query batch", "why_tests_cant": "unbounded histories, boundary of the window, empty window", "anchors": ["balloon_learning_environment/env/wind_gp.py:WindGP.query_batch"]}
{"id": "C40", "title": "Static wind field is total and direction depends only on pressure", "statement": "The simple static field returns one of four fixed winds for every query, determined by pressure thresholds only.", "quantifier": "every query", "why_tests_cant": "all reals", "anchors": ["balloon_learning_environment/env/wind_field.py:SimpleStaticWindField.get_forecast"]}
{"id": "C41", "title": "Power table lookup is total on its documented domain, bounded and monotone in charge", "statement": "For pressure ratio in [0.99,5] and every state of charge the lookup returns a table power (never fails to index); the result never decreases as charge increases; ratios outside the range raise.", "quantifier": "every ratio and charge", "why_tests_cant": "continuous inputs crossing table boundaries", "anchors": ["balloon_learning_environment/env/balloon/power_table.py:lookup"]}
{"id": "C42", "title": "Compressor power and efficiency stay physical", "statement": "For every pressure ratio the most efficient power is in [100,400] W and non-decreasing in the ratio, the fan efficiency is in [0,0.4], so the mass flow is never negative.", "quantifier": "every real pressure ratio and power", "why_tests_cant": "interpolation/extrapolation over a continuum", "anchors": ["balloon_learning_environment/env/balloon/acs.py:get_most_efficient_power", "balloon_learning_environment/env/balloon/acs.py:get_fan_efficiency", "balloon_learning_environment/env/balloon/acs.py:get_mass_flow"]}
{"id": "C43", "title": "Atmosphere: pressure and height are mutually inverse", "statement": "For every lapse-rate blend and every valid height, at_pressure(at_height(h).pressure) returns height h and the same temperature; and vice versa for every valid pressure.", "quantifier": "every blend parameter in [0,1), every height and pressure in range", "why_tests_cant": "piecewise transcendental functions over a continuum", "anchors": ["balloon_learning_environment/env/balloon/standard_atmosphere.py:Atmosphere.at_height", "balloon_learning_environment/env/balloon/standard_atmosphere.py:Atmosphere.at_pressure"]}
{"id": "C44", "title": "Atmosphere: higher means thinner and never singular", "statement": "Pressure strictly decreases with height, temperature is positive, density increases with pressure, at every height in range and every lapse-rate blend; layers join continuously.", "quantifier": "every blend parameter, every pair of heights", "why_tests_cant": "continuum, layer boundaries", "anchors": ["balloon_learning_environment/env/balloon/standard_atmosphere.py:Atmosphere.reset", "balloon_learning_environment/env/balloon/standard_atmosphere.py:Atmosphere.at_height"]}
{"id": "C45", "title": "Atmosphere rejects exactly the out-of-range queries", "statement": "at_height fails exactly outside [-610 m, 85 km); at_pressure fails exactly for pressures above the bottom pressure or at/below the top pressure.", "quantifier": "every query", "why_tests_cant": "boundary behaviour for all blends", "anchors": ["balloon_learning_environment/env/balloon/standard_atmosphere.py:Atmosphere.at_height", "balloon_learning_environment/env/balloon/standard_atmosphere.py:Atmosphere.at_pressure"]}
{"id": "C46", "title": "Flights start above the altitude floor", "statement": "The initial pressure sampled for a flight is at least 6500 Pa and corresponds to an altitude of at least 50,000 ft in the flight's own atmosphere; the sampling interval is non-empty for every atmosphere.", "quantifier": "every atmosphere blend and every random draw in [0,1)", "why_tests_cant": "all draws and atmospheres; needs transcendental bounds", "anchors": ["balloon_learning_environment/utils/sampling.py:sample_pressure", "balloon_learning_environment/env/balloon_arena.py:BalloonArena._initialize_balloon"]}
{"id": "C47", "title": "Threshold crossing is interpolated inside the bracket", "statement": "Given two points on either side of a threshold, the computed crossing lies between their abscissae and on the line through them; all other inputs raise ValueError.", "quantifier": "every pair of points and threshold", "why_tests_cant": "continuum plus error cases", "anchors": ["balloon_learning_environment/env/balloon/pressure_range_builder.py:_compute_x_crossing", "balloon_learning_environment/env/balloon/pressure_range_builder.py:_compute_safe_pressure"]}
{"id": "C48", "title": "Reachable pressure range is consistent", "statement": "When some searched level at or above the minimum reachable pressure is safe, the reported minimum reachable pressure is not above the reported maximum.", "quantifier": "every pressure/superpressure column", "why_tests_cant": "all columns, search in both directions", "anchors": ["balloon_learning_environment/env/balloon/pressure_range_builder.py:_search_for_safe_pressure", "balloon_learning_environment/env/balloon/pressure_range_builder.py:get_pressure_range"]}
{"id": "C49", "title": "Bracketed solar search terminates and stays in its window", "statement": "The midpoint search terminates for every window and tolerance, evaluates only instants inside the window, and returns the better of two adjacent grid instants; for an objective symmetric about its minimum and increasing away from it, it returns a global grid minimiser (convexity, the documented assumption, is not enough).", "quantifier": "every window length, tolerance and objective function", "why_tests_cant": "termination for all sizes and all objectives", "anchors": ["balloon_learning_environment/env/balloon/solar.py:_find_solar_elevation_binary_search"]}
{"id": "C50", "title": "Next sunrise and sunset are in the future", "statement": "The returned sunrise and sunset are not earlier than the query time and at most 24 hours after it, so that the observation builder's consistency assertions about them hold.", "quantifier": "every query time and ephemeris", "why_tests_cant": "all times and ephemerides", "anchors": ["balloon_learning_environment/env/balloon/solar.py:get_next_sunrise_sunset"]}
{"id": "C51", "title": "Solar attenuation and power are physical", "statement": "Solar power is never negative, is zero below the minimum elevation, the attenuation factor is in [0,1], and out-of-range elevations/pressures raise.", "quantifier": "every elevation and pressure", "why_tests_cant": "continuum with transcendental functions", "anchors": ["balloon_learning_environment/env/balloon/solar.py:solar_atmospheric_attenuation", "balloon_learning_environment/env/balloon/solar.py:solar_power", "balloon_learning_environment/env/balloon/solar.py:balloon_shadow"]}
{"id": "C52", "title": "Black-body conversions are inverse and absorptivity is bounded", "statement": "black_body_flux_to_temperature and black_body_temperature_to_flux are inverse on non-negative values; every total absorptivity returned is within [0,1]; every physical film (absorptivity and reflectivity non-negative with sum at most 1, reflectivity below 1) is accepted, and the result is the sum of the internal-reflection series.", "quantifier": "every temperature/flux", "why_tests_cant": "continuum", "anchors": ["balloon_learning_environment/env/balloon/thermal.py:black_body_flux_to_temperature", "balloon_learning_environment/env/balloon/thermal.py:total_absorptivity"]}
{"id": "C53", "title": "Offsets translate to the right place on the globe", "statement": "The computed coordinate is at the requested great-circle distance from the centre in the requested bearing; a zero offset returns the centre; the arcsine argument never leaves [-1,1].", "quantifier": "every centre coordinate off the poles (with longitude strictly between -180 and 180 degrees for the zero offset) and every offset up to half the circumference; the arcsine argument for every centre and offset", "why_tests_cant": "spherical trigonometry over a continuum", "anchors": ["balloon_learning_environment/utils/spherical_geometry.py:calculate_latlng_from_offset"]}
{"id": "C54", "title": "Unit conversions are consistent", "statement": "Converting a quantity to any unit and back returns the same quantity; velocity*time/time, power*time obey the expected scaling laws; comparisons agree with the underlying numbers.", "quantifier": "every quantity", "why_tests_cant": "algebraic laws over all reals", "anchors": ["balloon_learning_environment/utils/units.py:Distance", "balloon_learning_environment/utils/units.py:Velocity", "balloon_learning_environment/utils/units.py:Energy", "balloon_learning_environment/utils/units.py:Power"]}
{"id": "C55", "title": "Distance and velocity equality is an equivalence consistent with ordering", "statement": "Equality of distances is reflexive, symmetric and transitive, and no two equal distances compare as strictly less.", "quantifier": "every triple of distances", "why_tests_cant": "relational law over all reals", "anchors": ["balloon_learning_environment/utils/units.py:Distance.__eq__", "balloon_learning_environment/utils/units.py:Velocity.__eq__"]}
{"id": "C56", "title": "Rescaling and squashing are exact inverses with the documented ranges", "statement": "undo(rescale(x)) = x for every valid interval; saturation gives [0,1] and equals the extrapolated value inside; squash maps [0,inf) strictly increasingly into [0,1) and undo_squash inverts it; invalid intervals, constants or negative inputs raise.", "quantifier": "every real input and interval", "why_tests_cant": "continuum and error cases", "anchors": ["balloon_learning_environment/utils/transforms.py"]}
{"id": "C57", "title": "Undoing a squash rejects values outside [0,1)", "statement": "undo_squash_to_unit_interval raises ValueError for every x outside [0,1).", "quantifier": "every real x", "why_tests_cant": "guard must fire on an unbounded set", "anchors": ["balloon_learning_environment/utils/transforms.py:undo_squash_to_unit_interval"]}
{"id": "C58", "title": "Exploration schedule", "statement": "In an exploratory episode, the k-th step (k>=1) uses the exploratory agent iff k mod 120 >= 80 (i.e. 4 h of policy, 2 h of exploration, repeating, at 3-minute steps); in other episodes and in the first action it always returns the policy's action.", "quantifier": "every step index and every sequence of inputs", "why_tests_cant": "unbounded step index", "anchors": ["balloon_learning_environment/agents/marco_polo_exploration.py:MarcoPoloExploration"]}
{"id": "C59", "title": "Random-walk agent steers toward its target", "statement": "It returns UP only when the observed pressure is more than 100 Pa above target, DOWN only when more than 100 Pa below, else STAY, for every observation of the right length. Its targets are drawn afresh, between 65 and 114 hPa, at construction and at the beginning of every episode, every draw with a key not used before in the chain of splits of the seed.", "quantifier": "every observation, target, history and seed", "why_tests_cant": "continuum", "anchors": ["balloon_learning_environment/agents/random_walk_agent.py:RandomWalkAgent._select_action"]}
{"id": "C60", "title": "Random-walk increments scale with time since the last update", "statement": "The target-pressure increment at each step is the noise draw times 0.1666 Pa/s times the time since the target was last updated (3 minutes).", "quantifier": "every step index within an episode", "why_tests_cant": "unbounded step index; statistical tests at step 1 cannot see it", "anchors": ["balloon_learning_environment/agents/random_walk_agent.py:RandomWalkAgent.step"]}
{"id": "C61", "title": "StationSeeker never trips its own assertions and goes to a best level", "statement": "For every well-formed observation with at least one reachable level, every score is within [0, 1.06], a level is selected, it maximises the score among reachable levels (first such), and the action is UP/STAY/DOWN according to that level being above/at/below the balloon.", "quantifier": "every well-formed observation", "why_tests_cant": "continuum with exponentials over 361 levels", "anchors": ["balloon_learning_environment/agents/station_seeker_agent.py:StationSeekerAgent"]}
{"id": "C62", "title": "Evaluation results are complete and well-formed", "statement": "eval_agent returns one result per seed in order; each has 1 <= final_timestep <= max length, time_within_radius in [0,1], flight path length equal to final_timestep, cumulative reward equal to the sum of received rewards, cause flags equal to the final info, and final_timestep < max only if a terminal state was reached.", "quantifier": "every agent, environment, suite", "why_tests_cant": "all environments and agents", "anchors": ["balloon_learning_environment/eval/eval_lib.py:eval_agent"]}
{"id": "C63", "title": "Evaluation shards partition the suite", "statement": "For every number of shards, concatenating the shards 0..n-1 gives the suite's seeds exactly once in order; shard sizes differ by at most one.", "quantifier": "every seed list and shard count", "why_tests_cant": "all sizes; rounding of division", "anchors": ["balloon_learning_environment/eval/eval.py:main"]}
{"id": "C64", "title": "Combining shards reproduces the full evaluation", "statement": "Combining the shard files written for a name yields exactly the results in those shards, sorted by seed, and no results from other agents.", "quantifier": "every set of agent names and result files in the directory", "why_tests_cant": "depends on all possible names in the directory (glob patterns)", "anchors": ["balloon_learning_environment/eval/combine_eval_shards.py:main", "balloon_learning_environment/eval/eval.py:write_result"]}
{"id": "C65", "title": "Training runs every remaining iteration exactly once and checkpoints each", "statement": "Starting from any latest checkpoint k (or none), training runs iterations k+1..N-1 (0..N-1) once each in order, each with the configured number of episodes, and saves a checkpoint after each; restarting after a crash between iterations completes the remaining ones. An agent without checkpointing of its own reports -1, writes nothing, and always trains from iteration 0.", "quantifier": "every number of iterations, checkpoint number and crash point between iterations", "why_tests_cant": "all crash points", "anchors": ["balloon_learning_environment/train_lib.py:run_training_loop"]}
{"id": "C66", "title": "A crash while writing a checkpoint does not prevent resuming", "statement": "If the process dies while a checkpoint file is being written, the next run resumes from the previous complete checkpoint.", "quantifier": "every crash point", "why_tests_cant": "crash points inside a write", "anchors": ["balloon_learning_environment/agents/dopamine_utils.py:save_checkpoint", "balloon_learning_environment/agents/dopamine_utils.py:get_latest_checkpoint", "balloon_learning_environment/agents/dqn_agent.py:DQNAgent.reload_latest_checkpoint"]}
{"id": "C67", "title": "Checkpoint clean-up removes exactly the stale checkpoints", "statement": "Clean-up deletes exactly the checkpoint files whose iteration is older than current minus duration; the newest checkpoint and all other files survive; file naming round-trips the iteration number.", "quantifier": "every directory content and iteration number", "why_tests_cant": "all file names and all iteration numbers (also >= 100000)", "anchors": ["balloon_learning_environment/agents/dopamine_utils.py:clean_up_old_checkpoints", "balloon_learning_environment/agents/dopamine_utils.py:_is_checkpoint_name", "balloon_learning_environment/agents/dopamine_utils.py:_make_checkpoint_filename"]}
{"id": "C68", "title": "Latest checkpoint is the maximum", "statement": "get_latest_checkpoint returns the largest iteration among the checkpoint files present, or -1 if there is none.", "quantifier": "every directory content", "why_tests_cant": "all directory contents", "anchors": ["balloon_learning_environment/agents/dopamine_utils.py:get_latest_checkpoint"]}
{"id": "C69", "title": "Reported episode reward equals the sum of rewards received", "statement": "The episode reward reported by the console and tensorboard collectors for a training episode is the sum of the rewards returned by the environment in that episode; the reported episode length is the number of environment steps.", "quantifier": "every episode (any length, terminal or not)", "why_tests_cant": "all episodes; interaction of the loop and two collector callbacks", "anchors": ["balloon_learning_environment/train_lib.py:_run_one_episode", "balloon_learning_environment/metrics/console_collector.py:ConsoleCollector", "balloon_learning_environment/metrics/tensorboard_collector.py:TensorboardCollector"]}
{"id": "C70", "title": "Recorded transitions match the episode", "statement": "The pickled record of an episode contains exactly one entry per environment step, in order.", "quantifier": "every episode", "why_tests_cant": "all episodes", "anchors": ["balloon_learning_environment/metrics/pickle_collector.py:PickleCollector", "balloon_learning_environment/train_lib.py:_run_one_episode"]}
{"id": "C71", "title": "Action distribution is a probability distribution", "statement": "The reported action distribution has non-negative entries summing to 1 for every episode whose actions are valid; invalid actions raise.", "quantifier": "every episode", "why_tests_cant": "all episodes", "anchors": ["balloon_learning_environment/metrics/console_collector.py:ConsoleCollector.end_episode"]}
{"id": "C72", "title": "Every collector sees every event in order", "statement": "For any list of collectors, each one receives exactly the same sequence of begin/step/end events, in the order issued.", "quantifier": "every collector list and event sequence", "why_tests_cant": "all lists and sequences", "anchors": ["balloon_learning_environment/metrics/collector_dispatcher.py:CollectorDispatcher"]}
{"id": "C73", "title": "Generated wind fields are incompressible", "statement": "The decoder's (u,v) field has zero central-difference divergence at every interior node, and does not depend on the array wrap-around used for differencing.", "quantifier": "every network output (flow field)", "why_tests_cant": "all real-valued flow fields", "anchors": ["balloon_learning_environment/generative/vae.py:Decoder", "balloon_learning_environment/env/grid_based_wind_field.py:GridBasedWindField"]}
{"id": "C74", "title": "Evaluation wind fields are never used for training", "statement": "Training batches never contain any of the fields reserved for evaluation.", "quantifier": "every dataset size, evaluation batch size and random choice", "why_tests_cant": "all sizes including 0", "anchors": ["balloon_learning_environment/generative/dataset_wind_field_reservoir.py:DatasetWindFieldReservoir"]}
{"id": "C75", "title": "KL loss is non-negative and zero only at the prior", "statement": "The KL term is >= 0 for every mean/log-variance vector, and zero exactly when mean and log-variance are zero.", "quantifier": "every pair of vectors of equal length", "why_tests_cant": "continuum", "anchors": ["balloon_learning_environment/generative/learn_wind_field_generator.py:kl_divergence"]}
{"id": "C76", "title": "KL weight schedule is bounded and non-decreasing", "statement": "For positive start value and increment >= 1 the schedule never decreases with the epoch, never exceeds the maximum and is constant within each period.", "quantifier": "every epoch and parameters", "why_tests_cant": "all epochs", "anchors": ["balloon_learning_environment/generative/learn_wind_field_generator.py:step_schedule"]}
{"id": "C77", "title": "Model loading falls back and fails as documented", "statement": "Model weights are taken from the explicit path if given (ValueError if missing), else the package, else the source tree, and RuntimeError is raised if none has them — for both models.", "quantifier": "every availability combination of the three locations", "why_tests_cant": "all combinations of missing files and the exception types each layer raises", "anchors": ["balloon_learning_environment/models/models.py:load_offlineskies22", "balloon_learning_environment/models/models.py:load_perciatelli44"]}
{"id": "C78", "title": "Sampled episode parameters are within their documented ranges", "statement": "Sampled start time lies in the documented interval, latitude within +/-10 degrees and longitude within +/-175 degrees, distance within 200 km, upwelling infrared at least 225 W/m2 and below 315.", "quantifier": "every random draw", "why_tests_cant": "all draws", "anchors": ["balloon_learning_environment/utils/sampling.py", "balloon_learning_environment/env/balloon_arena.py:BalloonArena._initialize_balloon"]}
{"id": "C79", "title": "A freshly initialised balloon floats", "statement": "After cold start the ballonet air is chosen so that displaced air mass equals flight-system mass when that needs a non-negative amount of air; the balloon then has zero initial ascent rate at its base volume.", "quantifier": "every pressure/atmosphere", "why_tests_cant": "continuum", "anchors": ["balloon_learning_environment/env/balloon/stable_init.py:cold_start_to_stable_params"]}
{"id": "C80", "title": "No surprise exceptions inside the flight envelope", "statement": "A flying balloon with sound vehicle data can be stepped with any command, wind and whole number of whole-second strides without raising, as long as its pressure stays in [101, 101325] Pa and its gas temperature in [13, 8000] K.", "quantifier": "every atmosphere, state, command, wind, duration, sun with elevation in [-90,90]", "why_tests_cant": "asserts and domain errors sit in five modules and depend on continuous state", "anchors": ["balloon_learning_environment/env/balloon/balloon.py:Balloon.simulate_step", "balloon_learning_environment/env/balloon/thermal.py:d_balloon_temperature_dt", "balloon_learning_environment/env/balloon/standard_atmosphere.py:Atmosphere.at_pressure", "balloon_learning_environment/env/balloon/solar.py:solar_power"]}
{"id": "C81", "title": "Flying never changes the vehicle", "statement": "No sequence of steps changes the station location, envelope, mass, load, battery-capacity and lift-gas parameters, the infrared environment, or the maximum superpressure the safety layer was built with.", "quantifier": "every trajectory, failing steps included", "why_tests_cant": "frame property over unbounded histories", "anchors": ["balloon_learning_environment/env/balloon/balloon.py:Balloon.simulate_step"]}
{"id": "C82", "title": "Energy accounting", "statement": "In a sub-step the battery changes by (collected power - load) x time, clipped to [0, capacity]; the load is the day/night hotel load plus compressor power, which is 0 unless DOWN is flown and then between 100 and 400 W; at night nothing is collected, so through a night the charge never increases.", "quantifier": "every state, sun, command sequence", "why_tests_cant": "continuous inputs and unbounded sequences", "anchors": ["balloon_learning_environment/env/balloon/balloon.py:_simulate_step_internal"]}
{"id": "C83", "title": "Mixing up quantities is rejected", "statement": "Adding, subtracting or comparing two quantities of different kinds raises instead of returning a number or a truth value, and products of quantities exist only for velocity-time and power-time.", "quantifier": "every pair of quantities of different kinds and every operator", "why_tests_cant": "all operator/kind combinations with all values, including operator fallback", "anchors": ["balloon_learning_environment/utils/units.py:Energy.__ge__", "balloon_learning_environment/utils/units.py:Distance", "balloon_learning_environment/utils/units.py:Velocity", "balloon_learning_environment/utils/units.py:Power"]}
{"id": "C84", "title": "Steps to sunrise", "statement": "The number of steps to sunrise is 0 by day and otherwise the least number of strides from now that reaches the computed next sunrise, covering at most a day rounded up.", "quantifier": "every time, stride and ephemeris", "why_tests_cant": "all instants and strides", "anchors": ["balloon_learning_environment/env/balloon/solar.py:calculate_steps_to_sunrise"]}
{"id": "C85", "title": "Solar positions are physical", "statement": "For every date, instant and place the solar elevation is in [-90,90] degrees, azimuth in [0,360], inverse trigonometric functions are never applied outside their domain, and for every representable date the flux is within 4 percent of 1366 W/m2; hence the flight theorem holds with the real ephemeris.", "quantifier": "every date, instant, latitude and longitude", "why_tests_cant": "continuum of inputs through trigonometric and refraction formulas", "anchors": ["balloon_learning_environment/env/balloon/solar.py:solar_calculator", "balloon_learning_environment/env/balloon/solar.py:solar_atmospheric_attenuation"]}
{"id": "C86", "title": "The Julian day is the calendar day", "statement": "The Julian day number used by the ephemeris advances by exactly one for each civil day from 1 January of year 1.", "quantifier": "every civil date of the proleptic Gregorian calendar", "why_tests_cant": "leap-year rules over all centuries", "anchors": ["balloon_learning_environment/env/balloon/solar.py:solar_calculator"]}
{"id": "C87", "title": "Wind noise blending is calibrated", "statement": "After a reset, wind noise exists at every place and time; each component is the noise magnitude times a combination of five harmonics whose squared coefficients sum to 1 (so the variance of independent harmonics is preserved); if the underlying noise is in [-1,1] each component stays below 9 m/s; the state after a reset depends only on the key; before any reset a query raises ValueError.", "quantifier": "every key, earlier state, place, pressure, time and underlying noise function", "why_tests_cant": "normalisation identity over all harmonics, bound over all queries", "anchors": ["balloon_learning_environment/env/simplex_wind_noise.py:NoisyWindComponent.get_noise", "balloon_learning_environment/env/wind_field.py:SimplexWindNoise"]}
{"id": "C88", "title": "Wind uncertainty is normalised, total and monotone", "statement": "For every history of observations, the estimator's kernel matrix is positive definite so fitting never fails on a non-empty window, every returned deviation is in [0,1], extra observations never increase the uncertainty anywhere, and at an observed location it is below 0.4%. (Exact-arithmetic Gaussian process regression.)", "quantifier": "every list of observations and every query", "why_tests_cant": "positive definiteness of an infinite family of matrices", "anchors": ["balloon_learning_environment/env/wind_gp.py:WindGP.query_batch"]}
{"id": "C89", "title": "The MLP agent learns exactly the consecutive transitions", "statement": "In training mode every step makes exactly one update, from (previous observation, action returned for it, reward, observation, action returned now), with the parameters of the previous update, and every action is greedy for the parameters before its update. In evaluation mode parameters never change and every action is greedy. The reward given to end_episode is not used.", "quantifier": "every network, optimiser, episode length, observations and rewards", "why_tests_cant": "all episode lengths; off-by-one pairing of actions and rewards is invisible in returns", "anchors": ["balloon_learning_environment/agents/mlp_agent.py:MLPAgent"]}
{"id": "C90", "title": "The action stored for learning is the action flown", "statement": "Whatever the exploration wrapper does, the action the quantile agent stores with each reward is the one it returned to the environment before it; in evaluation mode the wrapper is not consulted.", "quantifier": "every exploration wrapper, Dopamine core, episode length, observations and rewards", "why_tests_cant": "all wrappers and all episodes", "anchors": ["balloon_learning_environment/agents/quantile_agent.py:QuantileAgent"]}
{"id": "C91", "title": "Sharded evaluation gives the results of the full evaluation", "statement": "For an agent that does not learn during evaluation, the result of a flight depends on its seed only: if evaluating a suite succeeds, evaluating its shards in separate processes (fresh environments and agent copies, any history) succeeds and the concatenated results equal those of the full evaluation.", "quantifier": "every suite, number of shards, environment history, frozen agent, wind field that forgets its forecast on reset", "why_tests_cant": "all suites and histories; hidden state carried between episodes", "anchors": ["balloon_learning_environment/eval/eval_lib.py:eval_agent", "balloon_learning_environment/eval/eval.py:main", "balloon_learning_environment/env/balloon_env.py:BalloonEnv.reset"]}
{"id": "C92", "title": "The iteration reported as restored is the one restored", "statement": "Whenever reload_latest_checkpoint reports an iteration k >= 0 the agent has been restored from the bundle of iteration k; when it reports -1 the agent is unchanged.", "quantifier": "every directory content and agent", "why_tests_cant": "all directory contents; a missing file is only logged", "anchors": ["balloon_learning_environment/agents/dopamine_utils.py:load_checkpoint", "balloon_learning_environment/agents/quantile_agent.py:QuantileAgent.reload_latest_checkpoint"]}
{"id": "C93", "title": "Training the wind generator runs the configured epochs and saves each", "statement": "train performs, in every epoch, exactly num_batches_per_epoch updates on batches of 64 training fields, none of which is an evaluation field, and saves a checkpoint after every epoch up to num_epochs.", "quantifier": "every dataset, optimiser, schedule, number of batches and epochs", "why_tests_cant": "needs hours of training on a dataset that is not distributed", "anchors": ["balloon_learning_environment/generative/learn_wind_field_generator.py:train"]}
{"id": "C94", "title": "The search for the initial gas temperature always succeeds and the balloon starts superpressured", "statement": "cold_start_to_stable_params never fails for a pressure between 100 Pa and sea level, any elevation, any flux up to 1500 W/m2 and upwelling infrared of 225-450 W/m2: every Newton iterate stays in the domain of the absorptivity formula and the loop ends. At the pressures and altitudes where episodes start, a stock balloon gets air in its ballonet, is neutrally buoyant at base volume and has positive superpressure.", "quantifier": "every sun position, atmosphere, pressure, upwelling flux and envelope", "why_tests_cant": "global behaviour of a Newton iteration on a transcendental equation over a continuum of parameters", "anchors": ["balloon_learning_environment/env/balloon/stable_init.py:cold_start_to_stable_params", "balloon_learning_environment/env/balloon/thermal.py:d_balloon_temperature_dt"]}
{"id": "C95", "title": "Every episode starts in a valid state", "statement": "For every seed, reset either installs a balloon that is flying, within 200 km of a tropical station, between 6,500 and 13,000 Pa and above 50,000 ft, with battery over 94%, superpressured, with no safety layer active, at a date in [2011-01-01, 2014-12-31) shared with the wind field; or it raises the assertion error of the sunrise search, which cannot happen on a day with an ordinary course of the sun. The first movement of every episode is a climb.", "quantifier": "every source of random numbers, arena history, wind field and sun", "why_tests_cant": "all seeds; the start state is the joint product of sampling, atmosphere, geometry, solar search and thermal solver", "anchors": ["balloon_learning_environment/env/balloon_arena.py:BalloonArena.reset", "balloon_learning_environment/env/balloon_arena.py:BalloonArena._initialize_balloon", "balloon_learning_environment/env/balloon/solar.py:get_next_sunrise_sunset"]}
{"id": "C96", "title": "What one environment step means", "statement": "A successful step(action) flies the requested command for exactly three minutes of simulated time (or, if the flight ends, for between 1 and 18 whole ten-second strides), displaced by exactly the true wind at the place, pressure and time the step began; the reward is that of the state after the step, the renderer is shown exactly that state, the wind estimator is told exactly one new measurement (truth minus forecast where the step ended), the observation is computed from the new state, one iteration is counted, and wind field, atmosphere, random state and every other balloon state are untouched.", "quantifier": "every environment object, action, wind field, renderer and reward function for which the step succeeds", "why_tests_cant": "relates the state before and after across arena, balloon, wind field, feature constructor and renderer for all of them", "anchors": ["balloon_learning_environment/env/balloon_env.py:BalloonEnv.step", "balloon_learning_environment/env/balloon_arena.py:BalloonArena.step"]}
{"id": "C97", "title": "Whole-episode invariants", "statement": "Whatever list of actions is sent (invalid ones, failing ones and ones after the end included), the same balloon stays in play, wind field, atmosphere and other states are unchanged, the clock advances by whole ten-second strides and at most three minutes per action and stays consistent with the date, the vehicle is unchanged, charge stays within the battery, the ballonet non-negative, and a finished flight does not move. n successful non-terminal steps last exactly 3n minutes. After a reset this holds with the documented initial values.", "quantifier": "every environment, every action sequence of every length", "why_tests_cant": "unbounded sequences of heterogeneous outcomes", "anchors": ["balloon_learning_environment/env/balloon_env.py:BalloonEnv.step", "balloon_learning_environment/env/balloon_env.py:BalloonEnv.reset"]}
{"id": "C98", "title": "Return and time within radius bound each other", "statement": "For evaluations with the Perciatelli reward whose radius is the environment's, every reported cumulative reward is in [0, final_timestep], positive if the drop-off is, at least 0.65 times the number of steps within the radius and at most that number plus drop-off times the number of steps outside.", "quantifier": "every agent, suite, wind field and evaluation", "why_tests_cant": "relation between two independently accumulated metrics over all flights", "anchors": ["balloon_learning_environment/eval/eval_lib.py:eval_agent", "balloon_learning_environment/env/balloon_env.py:perciatelli_reward_function"]}
{"id": "C99", "title": "The configured station-keeping radius is the one rewarded", "statement": "BalloonEnv(station_keeping_radius_km=r) rewards staying within r: a position counts as within the radius for the metrics exactly if its reward is above the drop-off.", "quantifier": "every radius and balloon state", "why_tests_cant": "requires comparing two code paths for every radius", "anchors": ["balloon_learning_environment/env/balloon_env.py:BalloonEnv.__init__", "balloon_learning_environment/env/balloon_env.py:perciatelli_reward_function", "balloon_learning_environment/eval/eval_lib.py:eval_agent"]}
{"id": "C100", "title": "The reachable pressure range always exists for the stock balloon", "statement": "For the stock balloon, get_pressure_range never raises: for every atmosphere, time, place, sun (the code's own ephemeris included) and upwelling flux the simulator can draw, the upper end of the range is the pressure at the 50,000 ft floor and the lower end lies between max(1,000 Pa, the minimum float pressure) and that floor.", "quantifier": "every atmosphere, sun position and flux, upwelling infrared flux and balloon state with the stock vehicle", "why_tests_cant": "needs quantitative convergence of the Newton solver for the floating temperature over a continuum of atmospheres, fluxes and pressures", "anchors": ["balloon_learning_environment/env/balloon/pressure_range_builder.py:get_pressure_range", "balloon_learning_environment/env/balloon/pressure_range_builder.py:_search_for_safe_pressure", "balloon_learning_environment/env/balloon/stable_init.py:calculate_stable_params_for_pressure"]}
{"id": "C101", "title": "The code's own ephemeris never breaks the sunrise search", "statement": "With the solar position formulas of the package and the Gregorian calendar, at every instant from 1970 to 2096 and every place within 50 degrees of the equator: the searches for the next noon, midnight, sunrise and sunset succeed, sunrise and sunset lie in the coming 24 hours and are never exactly 24 hours apart, so the sunrise feature is always a number in [0, 2 pi] (no assertion error, no division by zero), the step count to sunrise is between 0 and 480, and a reset of the arena always installs a valid balloon whatever the random draws (the observation taken afterwards is a separate matter).", "quantifier": "every instant from 1970 to 2096, every place within 50 degrees of the equator, every random key", "why_tests_cant": "the instants and places form a continuum; whether the halving search hits its window's end depends on every one of them", "anchors": ["balloon_learning_environment/env/balloon/solar.py:get_next_sunrise_sunset", "balloon_learning_environment/env/balloon/solar.py:_find_solar_elevation_binary_search", "balloon_learning_environment/env/balloon/solar.py:solar_calculator", "balloon_learning_environment/env/features.py:compute_sunrise_time", "balloon_learning_environment/env/balloon_arena.py:BalloonArena.reset"]}
{"id": "C102", "title": "An environment can always be built, reset and flown inside the simulator's envelope", "statement": "With the code's ephemeris, regressor and reward and a wind field whose forecasts answer after a reset (the static field and every grid-based field do), constructing the environment never raises and reset never raises, whatever the seed, clock, random draws and previous history; both leave a flying balloon inside the envelope and return an observation inside the observation space. After that a step with action 0, 1 or 2 raises only if the flight has already been reported as over, or the balloon left the envelope: pressure 101 to 101325 Pa, gas temperature 13 to 8000 K, latitude within 50 degrees, date from 1970 to 2096, superpressure at most four times the ambient pressure.", "quantifier": "every seed, key, random draw, wind field history, atmosphere, sequence of actions and number of steps", "why_tests_cant": "the claim chains a dozen subsystems over arbitrary histories; a test flies a few seeds and never meets the failing branch", "anchors": ["balloon_learning_environment/env/balloon_env.py:BalloonEnv.__init__", "balloon_learning_environment/env/balloon_env.py:BalloonEnv.reset", "balloon_learning_environment/env/balloon_env.py:BalloonEnv.step", "balloon_learning_environment/env/balloon_arena.py:BalloonArena.reset", "balloon_learning_environment/env/balloon_arena.py:BalloonArena.step", "balloon_learning_environment/env/features.py:PerciatelliFeatureConstructor.get_features"]}
{"id": "C103", "title": "No episode starts near bursting or zero pressure", "statement": "Every episode starts with a superpressure of at least 250 Pa and less than 2,130 Pa (250 Pa below the burst limit), i.e. in the band the envelope safety layer calls nominal, so in the first step that layer leaves every command alone. More generally the stock balloon floats inside that band at every pressure between the 50,000 ft floor and 6,500 Pa, at any time, place and upwelling flux the environment can draw.", "quantifier": "every random key, atmosphere, time, place, start pressure and upwelling flux", "why_tests_cant": "a quantitative bound on the outcome of a Newton iteration over a five-dimensional continuum; a test samples a few seeds", "anchors": ["balloon_learning_environment/env/balloon/stable_init.py:calculate_stable_params_for_pressure", "balloon_learning_environment/env/balloon/stable_init.py:cold_start_to_stable_params", "balloon_learning_environment/env/balloon_arena.py:BalloonArena.reset", "balloon_learning_environment/env/balloon/envelope_safety.py:EnvelopeSafetyLayer.get_action", "balloon_learning_environment/utils/sampling.py:sample_pressure"]}
{"id": "C104", "title": "The Acme evaluation score is the share of the episode limit spent within the radius", "statement": "In an environment made by acme_utils.create_env for evaluation with a step limit of L > 0, the rewards of an episode of at most L steps sum to the number of steps that ended within the station-keeping radius divided by L: a number in [0, 1] that is 1 exactly if all L steps were flown within the radius and 0 exactly if none was. It equals the suite metric time_within_radius scaled by (steps flown)/L, so it never exceeds it. Training environments keep the environment's reward.", "quantifier": "every step limit, episode length and sequence of positions", "why_tests_cant": "a sum over arbitrary flights, compared with another accumulator in a different module", "anchors": ["balloon_learning_environment/acme_utils.py:create_env", "balloon_learning_environment/eval/eval_lib.py:eval_agent", "balloon_learning_environment/env/balloon_env.py:BalloonEnv._get_info"]}
{"id": "C105", "title": "Acme exploration hands over for the last 40 of every 120 steps", "statement": "In an exploratory episode the actor made by acme_utils.marco_polo_actor flies the learner's policy for the first four hours of every six (actions 1 to 80 of every 120) and the exploratory random walk for the remaining two, in other episodes the policy throughout; the learner is always told the action that was flown, and actors made without an adder (evaluation) are not wrapped at all.", "quantifier": "every policy, exploratory agent, draw, number of episodes and steps", "why_tests_cant": "which of two stateful actors flies is decided by counters over unbounded histories; tests use stubs for both", "anchors": ["balloon_learning_environment/acme_utils.py:marco_polo_actor", "balloon_learning_environment/acme_utils.py:CombinedActor", "balloon_learning_environment/agents/marco_polo_exploration.py:MarcoPoloExploration"]}
{"id": "C106", "title": "Taking air aboard brings the balloon down", "statement": "Pumping air into a taut envelope strictly lowers the net lift, by at most the weight of that air, unless the gas is so much warmer than its surroundings that the added stretch outweighs it; in a slack envelope the change is exactly the weight of the air times (gas temperature / ambient temperature - 1). Consequently, from any physical state and whatever the commands in the second sub-step, two sub-steps after a lower first command (DOWN below STAY below UP) the balloon is not higher than after a higher one, and it is strictly lower if the commands differ and there was air to vent.", "quantifier": "every physical balloon state, pair of commands, sun, wind and stride", "why_tests_cant": "the order must hold for a continuum of states through the square root in the ascent rate and the quadratic envelope solution", "anchors": ["balloon_learning_environment/env/balloon/balloon.py:_simulate_step_internal", "balloon_learning_environment/env/balloon/balloon.py:Balloon.calculate_superpressure_and_volume", "balloon_learning_environment/env/balloon/acs.py:get_mass_flow"]}
{"id": "C107", "title": "The MLP agent learns by SARSA and moves its estimates towards their targets", "statement": "In training mode each step of MLPAgent performs a SARSA update of the previous transition: the weights of the action taken, and only those, move so that its estimated value gets closer to reward + gamma * (value of the next action); the next action is the greedy one before the update.", "quantifier": "every network parameter vector, observation, reward and action", "why_tests_cant": "a statement about gradients and their effect for a continuum of parameters and observations; tests only check that something changes", "anchors": ["balloon_learning_environment/agents/mlp_agent.py:train", "balloon_learning_environment/agents/mlp_agent.py:MLPAgent.step", "balloon_learning_environment/agents/networks.py:MLPNetwork", "balloon_learning_environment/agents/configs/mlp.gin"]}
{"id": "C108", "title": "The target network is a recent snapshot of the online network", "statement": "However DQNAgent and QuantileAgent are trained, the target parameters are either the initial ones or exactly the online parameters as they were right after the last training step that was a multiple of target_update_period with more than min_replay_history items in the buffer; once the buffer has been that full for a whole period they are less than target_update_period steps old. The optimiser is run exactly at the multiples of update_period with enough items; the step counter counts every step; training never fails, except that a zero period raises ZeroDivisionError at the first step after the buffer filled.", "quantifier": "every learner, configuration with non-zero periods, buffer history and number of steps", "why_tests_cant": "an invariant over unbounded training histories with two interacting periods", "anchors": ["balloon_learning_environment/agents/dqn_agent.py:DQNAgent._train_step", "balloon_learning_environment/agents/quantile_agent.py:QuantileAgent._train_step"]}
{"id": "C109", "title": "Prioritised replay never starves a transition and reports a sound loss", "statement": "The priority QuantileAgent stores for a transition is at least 1e-5 and strictly increasing in its loss; the loss it reports under prioritised replay weights each loss by a factor in (0, 1] that is 1 for the least likely transition of the batch and smaller for likelier ones, so it is at most the plain mean and zero only if all losses are.", "quantifier": "every batch of sampling probabilities and non-negative losses", "why_tests_cant": "inequalities over arbitrary batches of reals", "anchors": ["balloon_learning_environment/agents/quantile_agent.py:QuantileAgent._train_step"]}
{"id": "C110", "title": "is_station_keeping_winds tells whether the column allows station keeping", "statement": "For every column of winds is_station_keeping_winds answers yes or no, and yes exactly if the levels can be flown in shares of time that cancel the drift; equivalently, if for every direction some level does not blow against it. Hence the answer is independent of wind strength and adding levels never turns yes into no.", "quantifier": "every column of wind vectors", "why_tests_cant": "membership of the origin in a convex hull, characterised by a separating direction over a continuum", "anchors": ["balloon_learning_environment/utils/wind.py:is_station_keeping_winds"]}
{"id": "C111", "title": "Wind speeds bound the mean wind", "statement": "wind_field_speeds gives the length of each wind vector; the mean speed is zero exactly for a calm field, never above the top speed and never below the speed of the mean wind.", "quantifier": "every non-empty field", "why_tests_cant": "triangle inequality over arbitrary fields", "anchors": ["balloon_learning_environment/utils/wind.py:wind_field_speeds", "balloon_learning_environment/utils/wind.py:mean_speed_in_wind_field"]}
{"id": "C112", "title": "Evaluation suites are fixed, nested or disjoint, and immune to their users", "statement": "get_eval_suite gives each of the eleven available names its own seeds (0..n-1 for the range suites, the recorded seeds for the strata, their concatenation for all_strata) with 960 steps, and raises ValueError for any other name, whatever was looked up before and however the seed lists received were modified in place. The range suites are prefixes of one another; the five strata have 2,000 seeds each and no seed occurs twice in all_strata.", "quantifier": "every name and every sequence of lookups and in-place modifications of the lists received", "why_tests_cant": "aliasing through module-level lists over unbounded client programs; tests look at the sizes of freshly imported suites", "anchors": ["balloon_learning_environment/eval/suites.py:get_eval_suite", "balloon_learning_environment/eval/suites.py:available_suites", "balloon_learning_environment/eval/strata_seeds.py:STRATA_SEEDS"]}
{"id": "C113", "title": "The lift gas temperature stays within physical limits", "statement": "Convection carries heat from the warmer to the colder side; a warmer gas warms more slowly, and more sunlight or ground infrared warms it faster. Flown from gas between 160 K and 300 K by any calls, commands, winds and durations with strides of at most ten seconds, the stock balloon keeps its gas between 160 K and 300 K and sees ambient temperatures between 169 K and 300 K; hot gas cools and cold gas warms in every sub-step. After every environment reset and any actions this holds too, so a step raises only for a bad action, a finished flight, or a latitude, date or pressure outside the corridor: never because of the gas temperature.", "quantifier": "every sun of at most 1,500 W/m2, atmosphere, wind, command sequence, duration and seed", "why_tests_cant": "an invariant of an explicit Euler integration of a stiff-looking heat equation over unbounded flights; tests check single derivative values", "anchors": ["balloon_learning_environment/env/balloon/thermal.py:d_balloon_temperature_dt", "balloon_learning_environment/env/balloon/thermal.py:convective_heat_air_factor", "balloon_learning_environment/env/balloon/balloon.py:_simulate_step_internal", "balloon_learning_environment/env/balloon/balloon.py:Balloon.simulate_step", "balloon_learning_environment/env/balloon_env.py:BalloonEnv.step"]}
{"id": "C114", "title": "The rendered picture shows the flight since the last reset", "statement": "Whatever the matplotlib renderer of an environment was shown before, after a reset and any actions that do not raise it holds exactly one point for the start and one per step since, in order: position and altitude in km, charge in per cent, date. Its three curves never get out of step, whatever is shown, and a step that raises leaves them unchanged. Rendering is read-only, answers exactly in the declared modes, hands out a picture exactly in mode rgb_array, and raises ValueError in other modes or before anything was shown. Every reset with the code's own sampling yields a picture of exactly one point.", "quantifier": "every environment, renderer history, seed, action sequence and mode; the picture of a flight as long as the balloon's pressure is within the atmosphere's table", "why_tests_cant": "an invariant over unbounded interaction of environment and renderer; tests only check that methods are called", "anchors": ["balloon_learning_environment/env/rendering/matplotlib_renderer.py:MatplotlibRenderer.step", "balloon_learning_environment/env/rendering/matplotlib_renderer.py:MatplotlibRenderer.reset", "balloon_learning_environment/env/rendering/matplotlib_renderer.py:MatplotlibRenderer.render", "balloon_learning_environment/env/balloon_env.py:BalloonEnv.render", "balloon_learning_environment/env/balloon_env.py:BalloonEnv.step", "balloon_learning_environment/env/balloon_env.py:BalloonEnv.reset"]}
{"id": "C115", "title": "Integers decided through floating point come out right", "statement": "Where the code decides an integer through floating-point arithmetic, rounding never changes it: int(a / b) of integers with |a| + b up to 2^52 is the truncated quotient in every rounding mode, so shard bounds are exact, durations and instants of up to 142 years are cut to whole seconds exactly (a simulate_step call does exactly what the exact model says), and the step counts of the solar search and of the time to sunrise are exact; the Julian day number with every operation rounded equals the exact one for every date datetime can represent. Without a bound on the size the claim is false.", "quantifier": "every rounding mode, suite, shard, duration, instant and date in the stated ranges", "why_tests_cant": "a statement about all double-precision roundings; tests try a handful of values in one mode", "anchors": ["balloon_learning_environment/eval/eval.py:main", "balloon_learning_environment/env/balloon/balloon.py:Balloon.simulate_step", "balloon_learning_environment/env/balloon/solar.py:solar_calculator", "balloon_learning_environment/env/balloon/solar.py:calculate_steps_to_sunrise", "balloon_learning_environment/utils/sampling.py:sample_time"]}
{"id": "C116", "title": "Running the evaluation command, whole or in shards, yields the results its flags ask for, or nothing", "statement": "eval.py succeeds exactly when the agent, wind field, renderer and suite have known names, the gin files, environment, agent and (if directory and number are given) checkpoint can be loaded, and the evaluation of that agent in that environment on its shard of the suite succeeds; then it writes exactly one file, the one its flags name, with one result per seed in order. If anything raises, no file changes. Running all shards of an evaluation of a frozen agent on separate machines in any order and combining them gives the results of the unsharded evaluation, sorted by seed. A shard index that is too large is not noticed and yields an empty result file.", "quantifier": "for all machines (results of gin, constructors, checkpoints), flags, contents of the output directory, numbers of shards, orders of the shards and frozen agents", "why_tests_cant": "The command is only smoke-tested with one set of flags; that every failing set of flags leaves the outputs alone, and that sharding and combining is transparent for every agent, suite and number of shards, quantifies over runs on many machines", "anchors": ["balloon_learning_environment/eval/eval.py:main", "balloon_learning_environment/utils/run_helpers.py:bind_gin_variables", "balloon_learning_environment/agents/agent_registry.py:agent_constructor"]}
{"id": "C117", "title": "Results and runs of different agents, checkpoints and shards are kept apart", "statement": "Evaluations that differ in agent, checkpoint or shard write different files, a result file named after a checkpoint contains results of that checkpoint, and training runs that differ in agent or run number use different directories.", "quantifier": "for all flags without name override, all registered agents, all checkpoint, shard and run numbers", "why_tests_cant": "Collisions need particular combinations of flags in two different invocations", "anchors": ["balloon_learning_environment/eval/eval.py:write_result", "balloon_learning_environment/train.py:main"]}
{"id": "C118", "title": "Declared ranges survive floating-point rounding", "statement": "Computed in floating point, in every rounding mode, with any mathematical library that respects the obvious ranges: rewards lie in [0, 1], are exactly 1 inside the radius unless the power penalty applies, at least 0.5 there in any case and at most the drop-off outside (0.4375 for the default), and do not grow with the distance if exp is increasing; the battery stays between empty and full, its state of charge in [0, 1]; the ballonet never holds a negative amount; the pressure ratio is at least 1; all sixteen ambient features and every bearing and magnitude feature lie in the declared observation box also after storage in single precision. Only strictness is lost: a squashed value can be exactly 1.", "quantifier": "every rounding mode, math library in range, reward parameters, balloon state, sun, power table and wind", "why_tests_cant": "a statement about all roundings of all inputs; unit tests compare a few values with a tolerance, which hides an excess of one unit in the last place", "anchors": ["balloon_learning_environment/env/balloon_env.py:perciatelli_reward_function", "balloon_learning_environment/env/features.py:PerciatelliFeatureConstructor._add_ambient_features", "balloon_learning_environment/env/features.py:PerciatelliFeatureConstructor.observation_space", "balloon_learning_environment/utils/transforms.py:squash_to_unit_interval", "balloon_learning_environment/utils/transforms.py:linear_rescale_with_saturation", "balloon_learning_environment/env/balloon/balloon.py:BalloonState.pressure_ratio"]}
{"id": "C119", "title": "The value networks compute what their parameter dictionary says, also with the pre-trained weights", "statement": "For any sizes and parameters, MLPNetwork and the quantiles of QuantileNetwork are the outputs of the feed-forward network with the given kernels and biases: rectified hidden layers, an unrestricted last one. The value of an action is the mean of its own quantiles: it lies between them, a constant added to the last biases of one action moves exactly its value, and observations that excite no unit of the first layer cannot be told apart. Loading the pre-trained weights gives exactly the sixteen arrays stored under their names, in order, whatever else is in the graph, or a KeyError; an agent starting from them computes the network with those eight layers.", "quantifier": "all sizes, numbers of layers, actions and atoms, parameters, observations and graphs", "why_tests_cant": "tests check output shapes only; equality of functions for all parameters and observations cannot be sampled", "anchors": ["balloon_learning_environment/agents/networks.py:MLPNetwork", "balloon_learning_environment/agents/networks.py:QuantileNetwork", "balloon_learning_environment/agents/quantile_agent.py:QuantileAgent.load_perciatelli_weights"]}
{"id": "C120", "title": "Benchmark agents that only act: choices are valid, and Perciatelli44 has no memory", "statement": "Perciatelli44 can be built for three actions and 1,099 features only; each action is the first of maximal value, independent of rewards, mode and past, so its evaluation can be sharded freely. RandomAgent only takes existing actions, but its choices come from the process-wide generator: they are independent of the past only if the generator always repeats the same draw.", "quantifier": "all value functions, generators, suites, shards and environments", "why_tests_cant": "independence of the past quantifies over all histories and divisions into processes", "anchors": ["balloon_learning_environment/agents/perciatelli44.py:Perciatelli44", "balloon_learning_environment/agents/agent.py:RandomAgent"]}
{"id": "C121", "title": "Result files hold the results, and combining them as files is combining the results", "statement": "An evaluation result and its flight path are determined by the JSON object written for them, under the documented names and in the documented units (kilometres, seconds). Combining parsed shard files never fails on result files and yields exactly the file of the combined results, for every directory; if a matching file contains an entry without seed the tool stops before writing anything.", "quantifier": "all results, flight paths, directories, model names and flags", "why_tests_cant": "injectivity and the commutation of two programs quantify over all results and directories", "anchors": ["balloon_learning_environment/eval/eval_lib.py:EvalResultEncoder", "balloon_learning_environment/eval/combine_eval_shards.py:main"]}
{"id": "C122", "title": "The autoencoder trains and samples the same distribution", "statement": "The encoder sees every wind through an odd, strictly increasing map into (-1,1), so its outputs are bounded whatever the winds. If the variates drawn are independent standard normal, the latents are independent normal with the encoder's means and variances, and the divergence term of the loss is exactly their relative entropy to the distribution from which fields are generated. The loss has one minimum in the learnt scale, the root of the summed squared error. Evaluating never fails, keeps the order of the fields, reports nonnegative losses, and a speed differential that is the difference of the reported speeds and is bounded by the error per grid point.", "quantifier": "all parameters, fields, keys, seeds and log-variances", "why_tests_cant": "identities between probability distributions and bounds over all winds and parameters", "anchors": ["balloon_learning_environment/generative/vae.py:WindFieldVAE", "balloon_learning_environment/generative/learn_wind_field_generator.py:evaluation"]}
{"id": "C123", "title": "A wind field autoencoder reconstructs fields of the shape it is configured for", "statement": "Calling WindFieldVAE with a given field_shape returns an array of that shape; all sizes derived from a field shape are consistent.", "quantifier": "all configurations, parameters, inputs", "why_tests_cant": "quantifies over all field shapes", "anchors": ["balloon_learning_environment/generative/vae.py:WindFieldVAE.setup", "balloon_learning_environment/generative/vae.py:FieldShape"]}
{"id": "C124", "title": "Acme's DQN explores as asked, evaluates greedily, and is configured as documented", "statement": "The exploration probabilities sum to one, give every action at least its share of epsilon, actions that are not best exactly that, and the best at least 1 - epsilon; the evaluation policy answers with an action of maximal value whatever epsilon and key. create_dqn fixes ten fields of the configuration whatever is passed (one gradient step per four transitions, a target renewed every 100), passes every other one on, and refuses parameters that name no field. The adaptive learning rate never increases and ends at 4e-7 after 156250 steps.", "quantifier": "all parameters, observations, keys, epsilons, values and configurations", "why_tests_cant": "probabilities, and quantification over all networks and configurations", "anchors": ["balloon_learning_environment/acme_utils.py:create_dqn"]}
{"id": "C125", "title": "Acme evaluation: greedy, from the requested checkpoint, and independent of how the suite is sharded", "statement": "AcmeEvalAgent takes actions of maximal value under its parameters, refuses training mode, and loads exactly the requested checkpoint or stays as it was. The results of the shards of a suite are those of the unsharded evaluation.", "quantifier": "all parameters, checkpoints, generators, suites, shards and environments", "why_tests_cant": "quantifies over all histories and divisions into processes", "anchors": ["balloon_learning_environment/agents/acme_eval_agent.py:AcmeEvalAgent"]}
{"id": "C126", "title": "Resuming a training run keeps its records", "statement": "A training command that resumes at episode E leaves everything its collectors recorded about earlier episodes as it was - console log, pickles, curves - also if it raises, adds a record for each further episode, and gives the points it adds positions after the earlier ones; repeating a completed command changes nothing.", "quantifier": "for all machines, flags, records, checkpoints, environments, agents and outcomes", "why_tests_cant": "All histories of sessions, including those that raise in the middle; tests run one session on an empty directory", "anchors": ["balloon_learning_environment/train.py:main", "balloon_learning_environment/train_lib.py:run_training_loop", "balloon_learning_environment/metrics/console_collector.py:ConsoleCollector.pre_training", "balloon_learning_environment/metrics/tensorboard_collector.py:TensorboardCollector.pre_training"]}
{"id": "C127", "title": "The training command does what its flags say", "statement": "train.py trains the agent named, configured by the gin file and bindings given or else by its own, in the environment and wind field named, with the collectors named; a name that is not known raises and changes nothing on disk; runs that differ in agent or run number do not change each other's files.", "quantifier": "for all machines (results of gin, registry, constructors), flags and contents of the base directory", "why_tests_cant": "All combinations of flags and all machines; interference needs two invocations", "anchors": ["balloon_learning_environment/train.py:main", "balloon_learning_environment/train_lib.py:get_collector_data", "balloon_learning_environment/utils/run_helpers.py:bind_gin_variables"]}
{"id": "C128", "title": "The recurrent network computes on stored sequences what it computed when acting", "statement": "R2D2Network.unroll over a sequence of batches gives the values and final state of calling the network step by step; the sequences of a batch do not influence each other; a sequence can be cut anywhere (burn-in) without changing values; the mean of the action values is the state value and the preferred action that of largest advantage; hidden units stay within (-1, 1) and cells grow by at most 1 per step; the torso accepts one observation or a batch with the same result for each, and raises ValueError otherwise; rewards and valid actions are embedded injectively.", "quantifier": "for all parameters, batch sizes, sequence lengths, observations, actions, rewards and initial states", "why_tests_cant": "All parameters and all lengths; a test compares one sequence with one set of random parameters", "anchors": ["balloon_learning_environment/acme_utils.py:R2D2Network", "balloon_learning_environment/acme_utils.py:BLETorso"]}
{"id": "C129", "title": "What measurements do to the estimated wind", "statement": "The wind estimate does not depend on the order of the observations; corrections are linear in the measured errors and the uncertainty does not depend on them; one measurement moves the estimate towards itself by 1296/1301 of the error times exp(-distance) and never beyond; with n observations no deviation is below 0.05/(12.96 n + 0.05), which is attained when all were made at the place asked about; far from all observations the estimate returns to the forecast and the uncertainty to 1, exponentially.", "quantifier": "all lists of observations, places, errors and queries", "why_tests_cant": "bounds on inverses of an infinite family of matrices and a supremum over all layouts of the observations", "anchors": ["balloon_learning_environment/env/wind_gp.py:WindGP.query_batch", "balloon_learning_environment/env/wind_gp.py:WindGP.__init__"]}
{"id": "C130", "title": "The power layer's overnight reserve", "statement": "If it is night on the power layer's clock and the battery covers the night-time hotel load until half an hour after sunrise with a positive margin to which one call's worth of full compressor power can be added without exceeding 2.5% of capacity, then whatever is commanded and whatever the wind and sun do, the balloon does not run out of power before that instant and still holds the margin; with the default vehicle and three-minute steps a margin of 50 Wh is enough. Conversely, if the battery does not cover the hotel load and it stays dark, the balloon is not flying at that instant, layer or no layer.", "quantifier": "every state at night, ephemeris, wind, sequence of commands and whole-second strides", "why_tests_cant": "an unbounded sequence of calls in which the layer decides once per call and the battery drains per sub-step", "anchors": ["balloon_learning_environment/env/balloon/power_safety.py:PowerSafetyLayer.get_action", "balloon_learning_environment/env/balloon/balloon.py:Balloon.simulate_step", "balloon_learning_environment/env/balloon/balloon.py:_simulate_step_internal"]}
{"id": "C131", "title": "By day power is no worry", "statement": "With the sun above the horizon and the balloon at no more than 14000 Pa the panels deliver at least 200 W; so by day the default vehicle gains charge at 79.6 W or more until the battery is full, and does not run out of power, whatever is commanded, as power_safety.py assumes when it lets every command through until night falls.", "quantifier": "every elevation from 0 to 90 degrees, pressure up to 14000 Pa, state, command, wind and stride", "why_tests_cant": "a bound over a continuum of elevations and pressures through exponentials and trigonometric functions", "anchors": ["balloon_learning_environment/env/balloon/solar.py:solar_power", "balloon_learning_environment/env/balloon/power_safety.py:PowerSafetyLayer.get_action", "balloon_learning_environment/env/balloon/balloon.py:_simulate_step_internal"]}
{"id": "C132", "title": "The sunrise and sunset that are found", "statement": "With the real ephemeris the sunrise returned by get_next_sunrise_sunset is where the sun, rising, crosses MIN_SOLAR_EL_DEG (within the three-minute search step), and the sunset where it crosses it sinking", "quantifier": "every place within 15 degrees of the equator and every instant from 1970 to 2096", "why_tests_cant": "a continuum of places and instants; the search halves a bracket by comparing its ends, which is right only if the objective is symmetric", "anchors": ["balloon_learning_environment/env/balloon/solar.py:get_next_sunrise_sunset", "balloon_learning_environment/env/balloon/solar.py:_find_solar_elevation_binary_search", "balloon_learning_environment/env/balloon/solar.py:get_next_solar_midnight"]}
{"id": "C133", "title": "Day and night by the power layer's clock", "statement": "Whenever the power safety layer takes it to be day - so that it lifts a pause and lets every command through at five percent charge - the sun at the balloon is above MIN_SOLAR_EL_DEG, and whenever it takes it to be night the sun is low; its sunrise and sunset are searched once, when it is made, and afterwards only moved on by whole days", "quantifier": "every place within 15 degrees of the equator, every instant from 1970 to 2096, every sequence of calls of the layer, every path of the balloon", "why_tests_cant": "a continuum of places, instants and paths; a test flies one balloon near its start and cannot see how far the clock may be off", "anchors": ["balloon_learning_environment/env/balloon/power_safety.py:PowerSafetyLayer.__init__", "balloon_learning_environment/env/balloon/power_safety.py:PowerSafetyLayer.get_action", "balloon_learning_environment/env/balloon/solar.py:get_next_sunrise_sunset"]}
{"id": "C134", "title": "Telling morning from afternoon", "statement": "With the real ephemeris is_solar_afternoon is true exactly between solar noon and the following midnight, so get_next_solar_noon and get_next_solar_midnight return the noon and the midnight that come next (within five minutes)", "quantifier": "every place within 15 degrees of the equator and every instant from 1970 to 2096", "why_tests_cant": "a continuum of places and instants; the test compares two elevations a second apart, whose order depends on a refraction formula with jumps", "anchors": ["balloon_learning_environment/env/balloon/solar.py:is_solar_afternoon", "balloon_learning_environment/env/balloon/solar.py:get_next_solar_noon", "balloon_learning_environment/env/balloon/solar.py:get_next_solar_midnight"]}
{"id": "C135", "title": "An episode never leaves the simulator's atmosphere and never crashes for it", "statement": "After a reset with any seed, whatever actions follow and whatever the wind does, the balloon stays between 22 and 365 hPa and between 4.3 and 34 km, also in the sub-step that ends the flight; so a step with a valid action on a flight that is not over raises only when the balloon is more than 4,400 km from its station or 14.3 million steps have passed", "quantifier": "every seed, every state of the environment before the reset, every sequence of actions of any length, every well-formed wind field, every blend of the atmosphere", "why_tests_cant": "the pressures that can be reached depend on the whole history of pumping, venting, heating and moving; a test flies some episodes and sees that they end without an exception", "anchors": ["balloon_learning_environment/env/balloon/balloon.py:Balloon.simulate_step", "balloon_learning_environment/env/balloon/balloon.py:_simulate_step_internal", "balloon_learning_environment/env/balloon_env.py:BalloonEnv.step", "balloon_learning_environment/env/balloon_env.py:BalloonEnv.reset", "balloon_learning_environment/env/balloon/altitude_safety.py:AltitudeSafetyLayer.get_action", "balloon_learning_environment/env/balloon/standard_atmosphere.py:Atmosphere.at_pressure"]}
{"id": "C136", "title": "How far the wind carries a balloon, and two-day flights that never raise", "statement": "If no wind of the weather is faster than B, then after a reset with any seed and any n actions the balloon is at most 200 km plus B times the elapsed time from its station, and the elapsed time is at most three minutes per action; so as long as 180 B (n + 1) is at most 4,200 km, every step with action 0, 1 or 2 of a flight that is not over returns. The static wind field keeps to 21.1 m/s, and a sampled field with grid components up to V to 1.42 (V + 9) m/s, so the 960 steps of an evaluation episode never raise on the static field", "quantifier": "every seed, every state of the environment before the reset, every sequence of actions, every wind field with a speed limit and every episode length within the distance budget", "why_tests_cant": "whether some step of some episode raises depends on all draws, winds and actions; a test flies a few", "anchors": ["balloon_learning_environment/env/balloon_env.py:BalloonEnv.step", "balloon_learning_environment/env/balloon_env.py:BalloonEnv.reset", "balloon_learning_environment/env/balloon_arena.py:BalloonArena.step", "balloon_learning_environment/env/balloon/balloon.py:_simulate_step_internal", "balloon_learning_environment/env/wind_field.py:SimpleStaticWindField.get_forecast", "balloon_learning_environment/env/grid_based_wind_field.py:GridBasedWindField.get_forecast"]}
{"id": "C137", "title": "StationSeeker always has somewhere to go", "statement": "In every episode, whatever the seed and the actions, StationSeeker answers every observation returned by reset and step with a valid action: none of its assertions can fire, because for the stock balloon every pressure between 7,950 and 11,400 Pa is reported as reachable in every atmosphere, at every time and place and for every upwelling flux the simulator draws", "quantifier": "every seed, state of the environment before the reset, sequence of actions, well-formed wind field, atmosphere, sun position and flux", "why_tests_cant": "the assertion that a best level was found depends on the reachable range, a root of equilibrium equations over a continuum of atmospheres and fluxes", "anchors": ["balloon_learning_environment/agents/station_seeker_agent.py:StationSeekerAgent.find_best_pressure_level", "balloon_learning_environment/agents/station_seeker_agent.py:StationSeekerAgent.pick_action", "balloon_learning_environment/env/balloon/pressure_range_builder.py:get_pressure_range", "balloon_learning_environment/env/features.py:PerciatelliFeatureConstructor.get_features"]}
{"id": "C138", "title": "Evaluating an agent never raises", "statement": "eval_agent returns one result per seed of the suite, in order, and never raises, for every agent that answers the observations of a flight with 0, 1 or 2 (StationSeeker, the random walk, and the network agents in evaluation mode with three outputs do), every suite, seed list, initial state of environment and agent, rendering period other than 0, whenever 180 times the speed limit of the weather times the episode length is at most 4,200 km; in particular for the 960-step suites on the static wind field", "quantifier": "every agent, suite of any length, environment state, random draws and wind field with a speed limit", "why_tests_cant": "the loop runs thousands of simulated steps whose success depends on every draw and action; a test evaluates stub environments or a few seeds", "anchors": ["balloon_learning_environment/eval/eval_lib.py:eval_agent", "balloon_learning_environment/env/balloon_env.py:BalloonEnv.step", "balloon_learning_environment/env/balloon_env.py:BalloonEnv.reset", "balloon_learning_environment/agents/station_seeker_agent.py:StationSeekerAgent.step", "balloon_learning_environment/agents/random_walk_agent.py:RandomWalkAgent.step", "balloon_learning_environment/agents/mlp_agent.py:MLPAgent.step"]}
{"id": "C139", "title": "Training an agent never raises", "statement": "run_training_loop and train.py's main finish without an exception, however many iterations and episodes are asked for, for every agent that answers the observations of a flight with 0, 1 or 2 (StationSeeker, the random walk, the learning network agents with three outputs, also with Marco Polo exploration), with the console, pickle and tensorboard collectors as the command constructs them (no frequency 0), a checkpoint directory whose latest checkpoint is complete, a rendering period other than 0, whenever 180 times the speed limit of the weather times the episode length is at most 4,200 km", "quantifier": "every agent, number of iterations and episodes, episode length, environment state, random draws, wind field with a speed limit, collectors and checkpoint directory", "why_tests_cant": "a training run takes days and touches every draw, action and file; a test runs a few steps of it", "anchors": ["balloon_learning_environment/train_lib.py:run_training_loop", "balloon_learning_environment/train_lib.py:_run_one_episode", "balloon_learning_environment/train.py:main", "balloon_learning_environment/metrics/collector_dispatcher.py:CollectorDispatcher.step", "balloon_learning_environment/metrics/console_collector.py:ConsoleCollector.step", "balloon_learning_environment/agents/marco_polo_exploration.py:MarcoPoloExploration.step", "balloon_learning_environment/agents/dopamine_utils.py:save_checkpoint"]}
{"id": "C140", "title": "Episodes are independent samples, and evaluation averages converge", "statement": "If every key of jax.random carries its own independent bits, then: the quantities drawn when an episode starts (atmosphere, date, distance, direction, latitude, longitude, pressure, infrared, forecast, the noise of each harmonic) are independent of each other and determine the episode; the rejection loop for the infrared ends with probability one; the episodes started by successive resets of a seeded environment, as first observation and response to every sequence of actions, are independent and identically distributed whatever the user did in between; the results eval_agent reports for different seeds are independent and identically distributed; and for a frozen agent the average return and the average time within the radius over the first n seeds converge with probability one to the expected values, without further assumptions on the static wind field", "quantifier": "every distribution of the bits and every way of computing draws from them, every agent, every sequence of different seeds, every use of the environment between resets", "why_tests_cant": "statements about probability distributions and limits over infinitely many seeds; a reused key, as in the two draws of a harmonic, shows in no single run", "anchors": ["balloon_learning_environment/env/balloon_arena.py:BalloonArena.reset", "balloon_learning_environment/env/balloon_arena.py:BalloonArena._initialize_balloon", "balloon_learning_environment/env/balloon_env.py:BalloonEnv.reset", "balloon_learning_environment/env/wind_field.py:WindField.reset", "balloon_learning_environment/env/simplex_wind_noise.py:NoisyWindHarmonic.reset", "balloon_learning_environment/utils/sampling.py:sample_upwelling_infrared", "balloon_learning_environment/eval/eval_lib.py:eval_agent"]}
{"id": "C141", "title": "Near its station a balloon that does not pump never runs out of power", "statement": "Reset with any seed, in any weather, then any actions for up to 81 years: as long as the balloon is within 350 km of its station after every step, the battery never holds less than 250 Wh less 20 Wh for every descent (action 0) that was commanded, at any altitude and in any season; so with at most twelve descents it never ends a flight for lack of power. In particular the panels recover every day what the night takes, and neither the other commands nor the safety layers switch the compressor on", "quantifier": "every seed and random draws, every wind field, every sequence of up to 14.3 million actions that keeps the balloon within 350 km, every date and station the simulator can start with", "why_tests_cant": "a statement about every day of decades in every season at every pressure; a test flies a few hours or days at a few places", "anchors": ["balloon_learning_environment/env/balloon/balloon.py:_simulate_step_internal", "balloon_learning_environment/env/balloon/solar.py:solar_power", "balloon_learning_environment/env/balloon/solar.py:solar_calculator", "balloon_learning_environment/env/balloon/solar.py:solar_atmospheric_attenuation", "balloon_learning_environment/env/balloon/solar.py:balloon_shadow", "balloon_learning_environment/env/balloon/power_safety.py:PowerSafetyLayer.get_action", "balloon_learning_environment/utils/spherical_geometry.py:calculate_latlng_from_offset"]}
{"id": "C142", "title": "A power pause ends in the morning", "statement": "Reset with any seed, in any weather, fly any actions within 350 km of the station: 48 minutes after it became day on the power safety layer's clock (or at any later time before the layer's sunset), with the sun within 4 h 50 min of noon at the station all the while, navigation is not paused - whatever was commanded, however empty the battery was, at any altitude and in any season. While the layer pauses it keeps the compressor off, so that the panels charge the twentieth of the battery at which it resumes", "quantifier": "every seed and random draws, every wind field, every sequence of up to 14.3 million actions that keeps the balloon within 350 km, every date and station the simulator can start with", "why_tests_cant": "liveness through a feedback loop between layer, compressor, panels and battery; a test exercises the layer with hand-picked charges and times, never together with the charging", "anchors": ["balloon_learning_environment/env/balloon/power_safety.py:PowerSafetyLayer.get_action", "balloon_learning_environment/env/balloon/power_safety.py:PowerSafetyLayer.get_paused_action", "balloon_learning_environment/env/balloon/balloon.py:_simulate_step_internal", "balloon_learning_environment/env/balloon/solar.py:solar_power", "balloon_learning_environment/env/balloon/solar.py:solar_calculator"]}
{"id": "C143", "title": "The environment is registered once, under its plain name", "statement": "However often, in whatever order and inside whatever gym namespaces the package is imported and its plugin entry point loaded, and whatever other packages register in between: from the first time on the id BalloonLearningEnvironment-v0 leads to BalloonEnv, without a warning about overriding, and the entries of other packages and the namespace in force are left as they would be without the package", "quantifier": "every sequence of calls of register_env and of registrations by other packages, in every namespace, for gym with and without namespaces", "why_tests_cant": "depends on the order of imports and on the gym version in the user's process; a test process has imported the package once, in one order", "anchors": ["balloon_learning_environment/env/gym.py:register_env", "balloon_learning_environment/__init__.py:register_env", "setup.py:entry_points"]}
{"id": "C144", "title": "The compressor cannot run all night", "statement": "docs/about.rst: balloons are constrained at night, they cannot constantly use the altitude control system without running out of power. In the dark every three-minute descent flown costs between 5 and 20 Wh on top of the hotel load, whatever the altitude. With a reserve of R Wh (battery minus hotel load until half an hour after the power layer's sunrise) at most (R - 2.5% of capacity)/5 Wh + 1 descents are flown before then, and the layer refuses none of the first (R - 2.5%)/20 Wh. So from a full battery, in ten hours of darkness of an eleven-hour night, at most 193 of the 200 steps are descents", "quantifier": "every vehicle state, charge, altitude, sequence of commands, wind and number of steps; the sun is the code's ephemeris in the last part", "why_tests_cant": "a night is hundreds of steps of any commands from any state; tests fly a few steps and look at one battery value", "anchors": ["balloon_learning_environment/env/balloon/power_safety.py:PowerSafetyLayer.get_action", "balloon_learning_environment/env/balloon/balloon.py:_simulate_step_internal", "docs/about.rst:Stratospheric Balloons"]}
{"id": "C145", "title": "The Acme script trains and evaluates episode by episode", "statement": "With a positive episode length L the script trains and evaluates by turns, num_episodes times each: every episode is one reset and one to L steps, each flying the action the actor selected for the latest observation; it ends at the first step that ends the flight or after L, never before and never later; the agent is told discount 0 only where the flight is over, not where the time is up; every episode, step and return is counted and logged. Evaluation leaves the training environment, the agent and its counts as they would be without it, its scores are the fraction of L steps within the radius, and the distributed program's limit of num_episodes * L training steps allows at least num_episodes episodes. No exception is raised as long as the actors select 0, 1 or 2", "quantifier": "every pair of actors and environments, episode length, number of episodes, seed and weather", "why_tests_cant": "a training run is hundreds of thousands of steps of a learning agent; the repository has no test of the script", "anchors": ["balloon_learning_environment/train_acme_qrdqn.py:main", "balloon_learning_environment/distributed_train_acme_qrdqn.py:get_program", "balloon_learning_environment/acme_utils.py:create_env"]}
{"id": "C146", "title": "The documented failure modes are the ones that end a flight", "statement": "docs/about.rst: a balloon can have a critical failure by running out of power, flying too low, or having a superpressure that is too high or too low. After any step the flight is over exactly if one of these is the case", "quantifier": "every vehicle state, wind, atmosphere, command and duration", "why_tests_cant": "a claim about what does not end a flight: no number of flights that end shows it", "anchors": ["balloon_learning_environment/env/balloon/balloon.py:_simulate_step_internal", "balloon_learning_environment/env/balloon/balloon.py:BalloonStatus", "balloon_learning_environment/env/balloon/altitude_safety.py:AltitudeSafetyLayer.get_action", "docs/about.rst:Failure Modes"]}
{"id": "C147", "title": "What is evaluated is what was trained", "statement": "For every learning agent and every iteration k of a completed training, running eval.py with the training's checkpoint directory and checkpoint_idx k gives the results of the agent as it was at the end of iteration k (the agent that training for k+1 iterations ends with)", "quantifier": "every agent, configuration, environment, suite, shard, number of iterations, episodes, checkpoint duration and directory of earlier checkpoints", "why_tests_cant": "relates two commands run days apart through the files the first leaves; the failing cases raise nothing and write a well-formed result file under the right name", "anchors": ["balloon_learning_environment/agents/agent.py:Agent.load_checkpoint", "balloon_learning_environment/agents/dopamine_utils.py:load_checkpoint", "balloon_learning_environment/agents/dopamine_utils.py:clean_up_old_checkpoints", "balloon_learning_environment/agents/mlp_agent.py:MLPAgent", "balloon_learning_environment/eval/eval.py:main", "balloon_learning_environment/train_lib.py:run_training_loop"]}
{"id": "C148", "title": "The sun's position depends on the instant, not on the time zone it is expressed in", "statement": "units.datetime accepts exactly valid dates and times and makes aware UTC times unless a zone is given; timestamps and datetimes convert to and fro without loss; and solar_calculator, which rejects naive times, computes for an aware time the position at the Julian time of the instant, whatever the zone of the datetime", "quantifier": "every date and time of day, every fixed time zone, every timestamp, every place; the ephemeris between February 1901 and February 2100, after the epoch", "why_tests_cant": "the tests call the ephemeris with UTC times only, for which all is well; with another zone the code takes the time of day from the instant and the date from the zone, and the result is plausible", "anchors": ["balloon_learning_environment/utils/units.py:datetime", "balloon_learning_environment/utils/units.py:datetime_from_timestamp", "balloon_learning_environment/env/balloon/solar.py:solar_calculator"]}
{"id": "C149", "title": "Agents learn only from what happened", "statement": "Every sample DQNAgent and QuantileAgent can draw from their memory at any time during a training run is a true n-step transition of a single training flight: the observation, the action flown on it, the discounted rewards of the next n steps (fewer if one of them ends the flight) and the observation after them, although a flight cut off by the limit on its length adds one extra entry, with the last observation and an action that is not flown. The MLP agent makes one update per step of a flight, except that the step that ends a flight is never learned from. Evaluating an agent changes nothing of what it has learned.", "quantifier": "every environment, network, optimiser, exploration wrapper, choice of samples, horizon, discount, number and length of flights; every evaluation, also one that raises", "why_tests_cant": "a mixed-up transition at the border of two flights is one in a thousand and leaves learning curves plausible; tests check that something is stored", "anchors": ["balloon_learning_environment/agents/dqn_agent.py:DQNAgent", "balloon_learning_environment/agents/quantile_agent.py:QuantileAgent", "balloon_learning_environment/agents/mlp_agent.py:MLPAgent.step", "balloon_learning_environment/train_lib.py:_run_one_episode", "balloon_learning_environment/eval/eval_lib.py:eval_agent"]}
{"id": "C150", "title": "The reported time within the radius is the share of flight time spent there, up to the steps that cross the boundary", "statement": "docs/about.rst: TWR50 is the proportion of time that a balloon remains within 50 km; each episode lasts two days. The evaluation looks at the balloon at the ends of the steps only. For every result of an evaluation, with N steps: each step was flown straight at constant speed for three minutes, the last one possibly for less (at least ten seconds) if it ended the flight. The seconds that the balloon was within the radius, counting every instant, are at least 180 (N twr - entered) - 170 and at most 180 (N twr + brushed), where entered counts the steps begun outside and ended within and brushed the steps that end outside but are partly within. If no failure flag is set, the flight lasts 180 seconds per step of the suite (two days for 960), and the proportion of time within the radius is between twr - entered/N and twr + brushed/N. The number of a flight that ended early is a share of the steps flown: of the time allotted by the suite the balloon was within the radius for at most N/max_episode_length, which is less than 1, also if 1 is reported.", "quantifier": "All agents, suites, periods of rendering, environment configurations and environments with a non-negative radius, all evaluations that end without an exception, all their results", "why_tests_cant": "The claim concerns every instant between the moments that the evaluation looks at, so it is about sets of real numbers and their measure, for flights of any length under any agent and wind.", "anchors": ["balloon_learning_environment/eval/eval_lib.py:eval_agent", "balloon_learning_environment/eval/eval_lib.py:_balloon_is_within_radius", "balloon_learning_environment/env/balloon/balloon.py:Balloon.simulate_step", "balloon_learning_environment/env/balloon_env.py:BalloonEnv.step", "docs/about.rst:TWR50"]}
{"id": "C151", "title": "The seed of a training run determines it", "statement": "The Acme training script has a flag --seed ('Random seed.'). Two runs of the script with the same --seed and the same other flags are the same run: the same episodes are flown, the same returns are logged and the same agent is learned. (More precisely: an environment built with a given seed answers every sequence of resets and steps in the same way whenever it is built.)", "quantifier": "all environments, seeds, clock readings, sequences of resets and steps, agents, numbers and lengths of episodes", "why_tests_cant": "two runs of a test with an injected clock or in the same process show nothing about the clock readings that decide the weather, and a run takes days; the claim compares all pairs of runs", "anchors": ["balloon_learning_environment/train_acme_qrdqn.py:main", "balloon_learning_environment/acme_utils.py:create_env", "balloon_learning_environment/env/balloon_env.py:BalloonEnv.__init__", "balloon_learning_environment/distributed_train_acme_qrdqn.py:get_program"]}
{"id": "C152", "title": "Looking at a flight and rating it does not change it", "statement": "The reward function, the renderer, the rendering period, the wind estimator of the observations and the station-keeping radius are ways to look at a flight. Two environments that differ only in these, reset with one seed and used in the same way, fly the same flight: the same balloon states, winds and atmosphere, the same ends and the same information. Consequently scores obtained with different reward functions or renderers are comparable: an agent that does not look at the rewards (all shipped agents when evaluated) gets the same evaluation results but for the cumulative reward, and with the same reward function every agent gets identical results however it is rendered.", "quantifier": "all seeds, random numbers, wind fields, reward functions, renderers, rendering periods, wind estimators, radii, earlier uses, sequences of steps and resets, agents and suites", "why_tests_cant": "a test compares two settings on a few steps; the claim is about the absence of any influence, for all settings and for the whole course of an episode and of an evaluation", "anchors": ["balloon_learning_environment/env/balloon_env.py:BalloonEnv.step", "balloon_learning_environment/env/balloon_env.py:BalloonEnv.reset", "balloon_learning_environment/env/balloon_arena.py:BalloonArena.step", "balloon_learning_environment/eval/eval_lib.py:eval_agent"]}
{"id": "C153", "title": "The true winds show only where the balloon has been", "statement": "Forecasts are given, the true winds have to be discovered by flying. Nothing that an environment answers (observations, rewards, ends) and nothing that an agent does depends on the true winds anywhere but where the balloon was at the ends of its steps: with other gusts that agree there the flight, all observations and the result of the evaluation are exactly the same. In particular no gust that blows later than the present step shows in anything observed so far.", "quantifier": "all configurations, noise functions, uses of an environment (steps and resets in any order), agents, lengths of flights and seeds", "why_tests_cant": "the claim compares a run with all runs in worlds that differ somewhere off its path; a test can only vary a few of them and cannot see a leak that it did not think of", "anchors": ["balloon_learning_environment/env/balloon_arena.py:BalloonArena.step", "balloon_learning_environment/env/balloon_arena.py:BalloonArena.reset", "balloon_learning_environment/env/balloon_arena.py:BalloonArena._get_wind_ground_truth_at_balloon", "balloon_learning_environment/env/balloon_env.py:BalloonEnv.step", "balloon_learning_environment/env/wind_field.py:WindField.get_ground_truth", "balloon_learning_environment/eval/eval_lib.py:eval_agent"]}
{"id": "C154", "title": "The direction in which the station lies shows only in the heading", "statement": "Observations describe winds relative to the station. Turn or mirror a whole episode about the station (forecasts, places, measured winds), the balloon being over the same place on earth: the observation is the same in all of its 1099 entries except the sine and cosine of the heading, which are turned likewise (unless the balloon is exactly at the station), and it exists in one case if and only if it exists in the other. Hence StationSeeker does the same in both.", "quantifier": "all rotations and reflections, forecasts, air densities, histories of observations of any length, positions of the sun and regressor versions", "why_tests_cant": "the claim compares an episode with infinitely many turned ones and goes through a Gaussian process on the whole history; a test can turn a few episodes by a few angles and would have to accept differences of rounding that may hide a wrong axis", "anchors": ["balloon_learning_environment/env/features.py:PerciatelliFeatureConstructor._add_wind_features", "balloon_learning_environment/env/features.py:PerciatelliFeatureConstructor._add_ambient_features", "balloon_learning_environment/env/wind_gp.py:WindGP.observe", "balloon_learning_environment/env/wind_gp.py:WindGP.query_batch", "balloon_learning_environment/agents/station_seeker_agent.py:StationSeekerAgent.pick_action", "balloon_learning_environment/env/balloon/pressure_range_builder.py:get_pressure_range"]}
{"id": "C155", "title": "Observations hide the inside of the balloon and the distant past", "statement": "An agent sees the balloon only through the documented features. Of the present state an observation depends on nothing but position, place on earth, date, elapsed time, pressure, non-negative superpressure, charge and capacity, last command, whether navigation is paused, day load, the vehicle's constants and the heat from below: temperatures, ballonet air, volume, compressor, charging, status and the state of the individual safety layers do not show. Of the past it depends on nothing but the winds measured, where and when, and of those only on the last six hours.", "quantifier": "all forecasts, regressors, suns, air densities, histories of any length and pairs of states", "why_tests_cant": "the claim is about pairs of whole histories and every hidden quantity at once; tests construct single states and would have to vary every hidden field to find one that leaks", "anchors": ["balloon_learning_environment/env/features.py:PerciatelliFeatureConstructor.observe", "balloon_learning_environment/env/features.py:PerciatelliFeatureConstructor.get_features", "balloon_learning_environment/env/features.py:PerciatelliFeatureConstructor._add_ambient_features", "balloon_learning_environment/env/features.py:PerciatelliFeatureConstructor._add_wind_features", "balloon_learning_environment/env/wind_gp.py:WindGP.query_batch", "balloon_learning_environment/env/balloon/pressure_range_builder.py:get_pressure_range"]}
{"id": "C156", "title": "The wind moves a balloon and does nothing else to it", "statement": "Winds and places influence height, temperatures, gas, power, safety layers and status of a balloon only through how the sun is seen: under a sun that is seen alike from everywhere, two balloons that are alike except for where they (and their stations) are, sent through the same commands in different winds, stay alike except for where they are, and a step succeeds for both or fails for both. If positions and winds of one are those of the other turned or mirrored about the station, so are the positions at all times, and the rewards are equal.", "quantifier": "all suns of that kind, airs, states, winds, sequences of simulate_step calls of any length with any durations and strides, rotations, reflections and reward parameters", "why_tests_cant": "the claim relates pairs of whole flights in arbitrary different winds; tests look at one flight and at a few numbers of it", "anchors": ["balloon_learning_environment/env/balloon/balloon.py:Balloon.simulate_step", "balloon_learning_environment/env/balloon/balloon.py:_simulate_step_internal", "balloon_learning_environment/env/balloon_env.py:perciatelli_reward_function"]}
{"id": "C157", "title": "More charge at the start never shortens a flight", "statement": "Of two balloons that are alike except that the second starts with more charge (and whatever its power safety layer remembers), sent through the same steps, the second flies for as long as the first does: while the first flies, the second is in the same place at the same height with the same temperatures and gas, has at least as much charge, and its lead in charge is never larger than at the start. This holds for all sequences of steps that do not ask to descend, and for all sequences whatever if the power safety layer is off; a balloon with more charge may be allowed descents that the layer refuses to the other.", "quantifier": "all suns, airs, states with a battery, power layers, sequences of simulate_step calls of any length with any winds, durations and strides", "why_tests_cant": "the claim compares two whole flights from states that differ by an arbitrary amount of charge, for flights of any length; a test compares the charge after a few steps of one flight with a number", "anchors": ["balloon_learning_environment/env/balloon/balloon.py:Balloon.simulate_step", "balloon_learning_environment/env/balloon/balloon.py:Balloon._simulate_step_internal", "balloon_learning_environment/env/balloon/power_safety.py:PowerSafetyLayer.get_action"]}
{"id": "C158", "title": "Cutting a step in two changes only when commands are decided", "statement": "The length of a step matters only for when commands are decided and safety layers consulted, not for the physics: a step of n strides followed by one of m strides in the same wind leads to the same balloon as one step of n + m strides, with the same outcome, whenever the safety layers let the same command be flown in all of them; the two differ at most in what the safety layers remember and in the command last requested. If the flight ends or an error is raised within the first n strides, every longer step ends in exactly the same way.", "quantifier": "all suns, airs, winds, states, requested commands, strides of whole seconds, and numbers n and m of strides", "why_tests_cant": "the numbers of strides and the states are unbounded, and the claim is an equality of whole simulator states; a test fixes one step length", "anchors": ["balloon_learning_environment/env/balloon/balloon.py:Balloon.simulate_step", "balloon_learning_environment/env/balloon/balloon.py:Balloon._simulate_step_internal"]}
{"id": "C159", "title": "The simulator has no calendar but the sun", "statement": "Date and time of day act on a flight only through the sun: if a flight is put off by any time (the clock of its power safety layer with it) and the sun goes through the same motions that much later, it is the same flight put off by that time, with equal outcomes of all calls and equal rewards, and where the elapsed time is counted from does not matter. The search for sunrise and sunset then succeeds or fails alike and finds them that much later, so that a power safety layer set up at that time is the postponed one, and the steps to sunrise and the time within the solar cycle that agents observe are equal. The observations agents are given along the two flights are equal, whatever winds are measured and forecast, as long as the elapsed time is counted from the same point.", "quantifier": "all suns, airs, states, sequences of simulate_step calls, delays positive or negative to the microsecond, elevations, latitudes and search steps", "why_tests_cant": "the delays are arbitrary and the claim relates two whole flights; a test that runs on two dates compares different suns", "anchors": ["balloon_learning_environment/env/balloon/balloon.py:Balloon.simulate_step", "balloon_learning_environment/env/balloon/power_safety.py:PowerSafetyLayer.get_action", "balloon_learning_environment/env/balloon/solar.py:get_next_sunrise_sunset", "balloon_learning_environment/env/balloon/solar.py:calculate_steps_to_sunrise", "balloon_learning_environment/env/features.py:compute_sunrise_time"]}
{"id": "C160", "title": "The wind estimator prefers no place, height or time", "statement": "What the estimator makes of measurements depends on where and when they were made only relative to where and when is asked: if a series of measurements is made elsewhere, at another pressure or at another time, all displaced by the same amounts, and the forecasts are displaced likewise, then the answer (estimates and uncertainties, or the error) for the displaced column is the answer for the original column. Under a forecast that is the same everywhere and always, displacements change nothing at all.", "quantifier": "all series of measurements of any length (those that raise included), displacements in x, y, pressure and time (to the microsecond), forecasts, columns and both forms of the regressor's output", "why_tests_cant": "the displacements, the number of measurements and the matrices inverted are unbounded; a test compares a few numbers", "anchors": ["balloon_learning_environment/env/wind_gp.py:WindGP.observe", "balloon_learning_environment/env/wind_gp.py:WindGP.query_batch", "balloon_learning_environment/env/wind_gp.py:WindGP.query"]}
{"id": "C161", "title": "More generous reward parameters never lower a reward", "statement": "Enlarging the station-keeping radius, raising the reward just outside it (up to 1) or lengthening its half-life, alone or together, never lowers the reward of any state, also where the state comes to lie inside the enlarged radius and whatever power is penalised; whether a reward is computed or an error is raised does not depend on the parameters; hence the sum of the rewards along any flight is not lowered either.", "quantifier": "all states, suns, pairs of parameters with drop-offs between 0 and 1 and positive half-lives, and flights of any length", "why_tests_cant": "the parameters are real numbers configured by users and the claim compares two settings on all states; tests use the default setting at a few distances", "anchors": ["balloon_learning_environment/env/balloon_env.py:perciatelli_reward_function"]}
{"id": "C162", "title": "Forecasts follow the wind field they are made from", "statement": "What is done linearly to all winds of a stored field, or of two fields added up (scaling, turning, mirroring, averaging), with any constant wind added, is done to its forecasts, and a query fails on the new field exactly if it failed on the old. A forecast depends only on the winds at the grid nodes next to the point asked for (after clipping and time reflection): nodes beyond a nearer one have no influence. East and west, north and south and the two horizontal axes are treated alike: mirroring the field at the station's meridian, parallel or diagonal gives the forecast at the mirrored place. So a field mirrored or turned by a quarter, places and winds alike, is a mirrored or turned forecast, in which agents observe a difference only in the heading.", "quantifier": "all proper field shapes (any shape for linearity), fields, linear maps, constant winds, positions inside or outside the field, pressures and times", "why_tests_cant": "the claims relate forecasts of different fields at all real points; tests compare a handful of points of one field", "anchors": ["balloon_learning_environment/env/grid_based_wind_field.py:GridBasedWindField.get_forecast", "balloon_learning_environment/env/grid_based_wind_field.py:GridBasedWindField._prepare_get_forecast_inputs", "balloon_learning_environment/env/generative_wind_field.py:GenerativeWindField.get_forecast", "balloon_learning_environment/generative/vae.py:FieldShape.latlng_grid_points"]}
{"id": "C163", "title": "The evaluation summary accounts for every flight", "statement": "The row that the summary notebook shows for an evaluation accounts for every flight of the suite: flights that ended by out of power, zero pressure or burst are counted under exactly that cause, all others were flown to the suite's full length and are the ones called finished; the means shown are the means over all and over the finished flights (the latter missing exactly if no flight finished), and the shares of time within the radius lie between 0 and 1. The row does not depend on the order of the results nor on flight paths, so the row of combined shards is that of the whole evaluation, and pooling results adds counts and weights means by flights. The table has exactly one row per label (file name without its last extension), made from the file uploaded last under it, and is not made if that file has no results.", "quantifier": "all agents, non-empty suites, environments, result lists, shardings, flight path settings and sequences of uploaded files", "why_tests_cant": "the suites, agents and result lists are arbitrary and the notebook has no tests", "anchors": ["balloon_learning_environment/colab/summarize_eval.ipynb:Print Aggregate results", "balloon_learning_environment/eval/eval_lib.py:EvaluationResult", "balloon_learning_environment/eval/combine_eval_shards.py:main"]}
{"id": "C164", "title": "The flight path notebook compares agents on the same episode", "statement": "The notebook that shows flight paths flies all agents on the same episode, whatever happened to their environments before: it is the second episode of the seed, not the first one that an evaluation flies. What it keeps of a flight are the state after the first step and after every frame_skip-th step from then on, as they were (km, km, km, percent), until the flight ends or the number of steps is reached. The times of the first agent serve for all agents: entries of the same number were taken at the same time, except that the last entry of a flight that ended may be less than three minutes early. The charge curves can be drawn in all frames exactly if all flights have as many entries as there are times, which holds unless a flight ended early; flights of agents that answer with valid actions never raise in weather of limited speed.", "quantifier": "all seeds, environments in any state, agents, numbers of steps, frame skips and weather", "why_tests_cant": "agents, environments' pasts and weather are arbitrary and the notebook has no tests", "anchors": ["balloon_learning_environment/colab/BLE_view_flight_paths.ipynb:Run simulation", "balloon_learning_environment/env/balloon_env.py:BalloonEnv.reset", "balloon_learning_environment/env/balloon_env.py:BalloonEnv.step"]}
{"id": "C165", "title": "The wind field animation shows every wind where and when it blows", "statement": "The notebook that animates a wind field can run for ever without raising; every frame shows all winds of one time slice of the current field, one slice later or earlier than the frame before; every field is shown at all hours, and a new one is sampled after every 16 frames. Every arrow shows the wind that the simulator would forecast at the place, pressure and hour where it is drawn.", "quantifier": "all samplers, keys, clocks, numbers of frames, fields and arrows", "why_tests_cant": "the fields are sampled by a learned model and a picture has no tests", "anchors": ["balloon_learning_environment/colab/BLE_Generative_Wind_Field.ipynb:Generate animation object", "balloon_learning_environment/env/grid_based_wind_field.py:GridBasedWindField.get_forecast", "balloon_learning_environment/generative/vae.py:FieldShape.latlng_grid_points"]}
