# Formal model of the Balloon Learning Environment

Source: `/repo` (google/balloon-learning-environment, pinned commit), read as text only.
`BLE/` below abbreviates `balloon_learning_environment/`.

## 1. Layout

* `lean/Verif/Model/*.lean` — the model, one file per group of source files. Every definition cites
  the file and lines it models, and says so when it simplifies.
* `lean/Verif/Spec/*.lean` — small specifications written without looking at the model's helpers
  (history predicates, "most recent reading outside a band", permutation/sortedness, equations).
* `lean/Verif/Lemmas/*.lean` — helper lemmas.
* `lean/Verif/Props/*.lean` — the property theorems `Cnn_*` and, beside each, an `example` that meets
  its hypotheses on a non-trivial case.
* `MANIFEST.json` — property → theorem names; `seeded/LOG.jsonl` — mutation log.

## 2. Modelling decisions and trusted base

1. **Trusted**: Lean 4.33.0's kernel and the standard axioms `propext`, `Classical.choice`,
   `Quot.sound` (the last two come in through Mathlib's reals). No axioms of our own, no `sorry`,
   `native_decide`, `bv_decide`. `Verif/Audit.lean` prints the axioms of the property theorems.
2. **Faithfulness of the reading**: the tie between model and Python is the citation on each
   definition; the code is not run.
3. **Numbers**: Python/NumPy floats are modelled as real numbers (`ℝ`), or as `ℚ`/`ℤ` where the
   function is purely rational and the model is meant to be executable. Rounding, overflow, NaN and
   float32 narrowing are outside the model. `np.clip`, `min`, `max`, `abs`, comparison and
   arithmetic are exact. The exception is `Model/Float.lean`, where the places that turn a float into
   an integer are modelled with rounding and shown to agree with the exact model (C115).
4. **Time**: `datetime`/`timedelta` are `ℤ` microseconds (which is how CPython stores them), so all
   clock arithmetic is exact.
5. **Exceptions** are values (`Except Err α`), raised by exactly the guards the code has. `assert`
   is modelled as raising (`python -O` is out of scope).
6. **Mutable objects**: a method becomes `State → … → State × result`. Where an exception leaves the
   object half-updated the model returns the mutated state together with the error.
7. **External code is a parameter**, universally quantified in the theorems, with its assumed
   contract as explicit hypotheses: `jax.random` (split/uniform/normal/beta/choice; draws are in
   `[0,1)`), OpenSimplex noise, the wind VAE network and the other networks and optimisers (arbitrary
   functions), Dopamine's agent base classes, `datetime`'s calendar, Python's `int(str)`.
   External code that is modelled *by its documented definition*: `scipy.interpolate.interpn /
   interp1d / interp2d` (piecewise multilinear), `jax.image.resize(method='linear')`, scikit-learn's
   Gaussian process regressor (Rasmussen & Williams, Algorithm 2.1, exact arithmetic), `np.roll`,
   NumPy indexing, `pathlib`'s `stem`/`suffix`, `glob`, `s2sphere.LatLng.normalized`, the `transitions`
   state machine, TensorFlow file loading (present/absent and the exception raised).
8. **File systems** are finite maps from names to contents; a crash while writing leaves an opened,
   incomplete file. Directory listings come in any order.
9. **Object identity** matters for saving and restoring simulator states, so arena and environment are
   modelled over a heap of balloon states, wind fields and atmospheres (`Model/Env.lean`). Elsewhere
   objects are values.
10. **Observations** are modelled as an array of zeros plus the log of element writes, so that "each
    entry is written exactly once" can be stated (`Model/Features.lean`).
11. **Not modelled**: Dopamine's learning algorithms (DQN, quantile regression, replay), initial network weights,
    rendering output, command-line parsing, gin binding, the Acme library itself (its
    adders and learners; what the package adds to it is in `Model/Acme.lean`, and the wrappers and the loop that the script uses
    are in `Model/AcmeTrain.lean` after their documentation), distribution quality of random
    numbers, performance, threads.

### Model files

| File in `lean/Verif/Model` | Source |
|---|---|
| `Basic` | `utils/constants.py`, `env/balloon/control.py`, `_clip` |
| `Safety` | `env/balloon/{envelope,altitude,power}_safety.py` |
| `Atmosphere` | `env/balloon/standard_atmosphere.py` |
| `Sampling` | `utils/sampling.py` |
| `Acs` | `env/balloon/acs.py`, `power_table.py` |
| `Geometry`, `Units` | `utils/spherical_geometry.py`, `units.py`, `transforms.py` |
| `Thermal` | `env/balloon/thermal.py`, attenuation and power of `solar.py` |
| `Solar` | rest of `env/balloon/solar.py`, `features.compute_sunrise_time` |
| `Balloon`, `StableInit` | `env/balloon/balloon.py`, `stable_init.py` |
| `Wind`, `WindGP` | `env/wind_field.py`, `grid_based_wind_field.py`, `generative_wind_field.py`, `simplex_wind_noise.py`, `wind_gp.py` |
| `PressureRange`, `Features` | `env/balloon/pressure_range_builder.py`, `env/features.py` |
| `Reward`, `Env` | `env/balloon_env.py`, `balloon_arena.py`, `simulator_data.py` |
| `Agents` | `agents/{agent,random_walk_agent,station_seeker_agent,mlp_agent,quantile_agent,exploration,marco_polo_exploration}.py` |
| `Eval` | `eval/{eval_lib,suites,eval,combine_eval_shards}.py` |
| `Train`, `Checkpoint` | `train_lib.py`, `metrics/*.py`, `agents/dopamine_utils.py`, checkpointing of `dqn_agent.py`, `quantile_agent.py` |
| `Generative` | `generative/{vae,dataset_wind_field_reservoir,learn_wind_field_generator}.py`, `models/models.py` |
| `Acme` | `acme_utils.py` (reward of the evaluation environment, `CombinedActor`, `marco_polo_actor`) |
| `Networks` | `agents/networks.py`, `train` and optimiser of `agents/mlp_agent.py`, `configs/mlp.gin` |
| `Dopamine` | `_train_step` of `agents/dqn_agent.py` and `agents/quantile_agent.py` |
| `WindColumn` | `utils/wind.py` |
| `StrataSeeds` | `eval/strata_seeds.py` (all 10,000 seeds) |
| `Suites` | `eval/suites.py` |
| `Rendering` | `env/rendering/matplotlib_renderer.py`; pixels and the tensorboard writer are not modelled |
| `Float` | `eval/eval.py:125-128`, `balloon.py:263-328`, `solar.py:67-75, 321, 509-512`, `sampling.py:80-82`, with rounding |
| `Commands` | `eval/eval.py:34-132`, `utils/run_helpers.py:30-106`, `agents/agent_registry.py:39-75`, `train.py:94`; gin, constructors and checkpoint loading as parameters, command-line parsing and failures of the file system not modelled |
| `FloatRange` | `utils/transforms.py:45-85`, `env/balloon_env.py:43-102`, `env/features.py:382-455, 499-532`, `env/balloon/balloon.py:222-251, 513-537` with rounding; `math`/NumPy functions as parameters |
| `Perciatelli` | `agents/quantile_agent.py:203-254`, `agents/perciatelli44.py:49-79`, `agents/agent.py:149-162`; TensorFlow's graph and session as parameters, shape checks of flax as in `networks.py:88-92` |
| `Json` | `eval/eval_lib.py:33-55`, `eval/combine_eval_shards.py:42-59` on JSON values; that `json.load` reads what `json.dump` wrote is assumed |
| `Vae` | `generative/vae.py:40-224` (sizes, encoder, decoder network, `WindFieldVAE`), `learn_wind_field_generator.py:96-135, 153-200`; the variates of `jax.random.normal` are a parameter, in C122 distributed as documented |
| `AcmePolicy` | `acme_utils.py:217-277` (`create_dqn`), `agents/acme_eval_agent.py`; rlax's `epsilon_greedy` by its documented probabilities, the sampler and key splitting are parameters, checkpoints are a list of numbered parameters |
| `TrainCommand` | `train.py`, `train_lib.py:27-37`, constructors of the collectors and what they leave on disk; command line, gin, gym's registry, constructors of environment and agent and the agents' checkpointing are parameters; a `SummaryWriter` is taken to add to what is in its directory |
| `R2D2` | `acme_utils.py:100-157`; Haiku's `Linear`, `LSTM`, `BatchApply`, `static_unroll` and Acme's `OAREmbedding`, `DuellingMLP` after their documentation; parameters arbitrary |
| `Gym` | `env/gym.py:20-40`, `__init__.py:21`, `setup.py:87-91`; gym's registry (a dictionary of ids, the namespace in force, a warning for an id registered twice) after its documentation |
| `AcmeTrain` | `train_acme_qrdqn.py:37-81`, `acme_utils.py:59-75` with the readings of the clock, `distributed_train_acme_qrdqn.py:108`; Acme's `GymWrapper`, `StepLimitWrapper`, `EnvironmentLoop` and counters after their documentation. Not modelled: conversion to single precision, the learner (inside the agent's state), the distributed program apart from its step limit |
| `Summary` | `colab/summarize_eval.ipynb:68-107`; parsed files as lists of results, pandas' `mean`, `sum` and `loc` after their documentation; HTML not modelled |
| `FlightView` | `colab/BLE_view_flight_paths.ipynb:112-151, 275-277`; environments through their own methods (no `gym` wrappers), `plot` only through its check of lengths; other drawing and `end_episode` not modelled |
| `WindAnim` | `colab/BLE_Generative_Wind_Field.ipynb:92-94, 107-115, 121-153`; sampler and clock are parameters, `np.meshgrid` after its documentation; camera and drawing not modelled |
| `DateTime` | `units.py:320-373`, `solar.py:60-79`; the standard library's `datetime` after its documentation (its day count `_ymd2ord` is modelled, its inverse is a parameter); zones are fixed offsets |
| `Replay` | `dqn_agent.py:66-110`, `quantile_agent.py:91-169`; Dopamine's `JaxDQNAgent` and its replay buffer after their documentation, for a stack of one observation; network, optimiser, choice of indices and random numbers are parameters; the memory is the list of all additions |

## 3. Property by property

"Proof" is the plan; the status is in `MANIFEST.json`.

| Id | What is modelled | Proof |
|----|------------------|-------|
| C01 | envelope automaton (`envelope_safety.py`) as state + `getAction` | case split on the reading; for every state, hence for every history |
| C02 | same | invariant relating the state to the history ("most recent reading outside the band"), induction over the history |
| C03 | altitude automaton | same |
| C04 | `PowerSafetyLayer.get_action` with ℤ-microsecond clock | unfolding, all branches |
| C05 | same | one-step theorem + induction over call sequences |
| C06 | the two `while` loops as well-founded recursion | closed form: least `base + k·day ≥ now`; induction over monotone call sequences |
| C07 | the safety chain in `simulate_step` | composition of C01–C05 |
| C08 | `simulate_step` incl. failing paths | unfolding |
| C09 | `_simulate_step_internal`, the sub-step loop, trajectories | clip lemma, loop induction, induction over command lists |
| C10 | same + ACS tables | sign analysis, induction |
| C11 | same, clock components | loop induction |
| C12 | status assignment | exhaustive case split |
| C13 | `simulate_step` on a non-OK status | induction over attempts |
| C14 | `calculate_superpressure_and_volume` | quadratic formula over ℝ, uniqueness by monotonicity |
| C15 | same | monotonicity of the root |
| C16 | loop, position components | loop induction |
| C17 | vertical motion + concrete atmosphere | antitonicity of height in pressure (C44) |
| C18 | error branches of `simulate_step` | unfolding |
| C19, C20 | `perciatelli_reward_function` | exp monotone, clip |
| C21 | `BalloonEnv.step`, `_get_info` | case split on the status |
| C22 | action conversion in `step` | integer case split |
| C23 | `BalloonEnv` seed/reset/step over an abstract deterministic simulator and key splitting | equality of traces by induction on actions, for any prior history |
| C24 | heap model: `get_simulator_state` returns references into the live arena | the property is false: a witness trace (negation), plus the part that does hold |
| C25, C26 | `_add_wind_features` as a writer over an array with a running index | index invariant, closed form of every entry |
| C27 | ambient + wind features against `observation_space` | range lemmas; partial if a tolerance escapes the box |
| C28 | `NamedPerciatelliFeatures` on produced vectors | round trip; navigation labels examined |
| C29 | `is_valid_wind` on produced entries | sentinel analysis |
| C30 | `wind_at` guard | negation if the guard never fires |
| C31 | `_nearest_pressure_level` with round-half-even | rounding lemma |
| C32 | `compute_sunrise_time` | arithmetic |
| C33 | `_boomerang` on ℝ | floor lemmas |
| C34 | `_prepare_get_forecast_inputs` | clamp lemmas; negative times examined |
| C35 | clamp + multilinear interpolation | convex combination, induction over axes |
| C36 | both `get_forecast_column` paths | list map |
| C37 | `get_ground_truth` for an arbitrary field/noise | unfolding against componentwise spec |
| C38, C39 | `WindGP` state machine over an abstract regressor | induction over call histories |
| C40 | `SimpleStaticWindField` | case split |
| C41 | `power_table.lookup` incl. `bisect` | table analysis lifted to all reals |
| C42 | `acs.py` interpolation tables | piecewise bounds |
| C43–C45 | `standard_atmosphere.py` for every blend `alpha` | real powers/exp/log, layer induction |
| C46 | `sample_pressure` | needs a numeric bound on the pressure at 50,000 ft |
| C47 | `_compute_x_crossing`, `_compute_safe_pressure` | field arithmetic |
| C48 | `_search_for_safe_pressure`, `get_pressure_range` over an abstract superpressure function | list induction; counterexample when the condition fails |
| C49 | `_find_solar_elevation_binary_search` over an abstract objective | well-founded recursion, bracket invariant |
| C50 | `get_next_sunrise_sunset` over an abstract ephemeris | bracket bounds from C49 |
| C51 | attenuation, shadow, `solar_power` | exp bounds, cosine signs |
| C52 | `thermal.py` helpers | rpow lemmas |
| C53 | `calculate_latlng_from_offset` | spherical law of cosines |
| C54, C55 | `units.py` | field arithmetic; tolerance equality examined |
| C56, C57 | `transforms.py` | field arithmetic; guard examined |
| C58 | `marco_polo_exploration.py` | closed form by induction on steps |
| C59, C60 | `random_walk_agent.py` | case split; induction on steps (C60: examined, code never resets the timer) |
| C61 | `station_seeker_agent.py` | bounds on exp/weights; fold invariant for argmax |
| C62 | `eval_lib.eval_agent` over abstract agent/environment | loop invariant |
| C63 | sharding slices in `eval.main` | list take/drop algebra |
| C64 | `write_result` names, `combine_eval_shards` glob + sort | permutation + sortedness; name collision examined |
| C65 | `run_training_loop` with crash/restart | induction over runs |
| C66 | checkpoint files with torn writes | examined: reload catches only `ValueError` |
| C67, C68 | `dopamine_utils.py` over a set of file names | string/number lemmas |
| C69–C71 | `_run_one_episode` + collectors | induction over the episode; double counting examined |
| C72 | `CollectorDispatcher` | list induction |
| C73 | `vae.Decoder` differencing over an arbitrary flow field | ring identity at every interior node; axis convention examined |
| C74 | `DatasetWindFieldReservoir` | index ranges; size 0 examined |
| C75 | `kl_divergence` | `exp x ≥ 1 + x` summed |
| C76 | `step_schedule` | monotone powers |
| C77 | `models.py` loaders with exception kinds | case analysis over availability |
| C78 | `sampling.py`, `_initialize_balloon` | interval arithmetic on draws; distance and direction as drawn (`C78_distance`) |
| C79 | `stable_init.py` | field arithmetic |
| C80 | whole flight step | every guard discharged from explicit envelope bounds |
| C81, C82 | `_simulate_step_internal` | loop induction, field by field |
| C83 | operator dispatch of `units.py` | exhaustive case split on operand kinds |
| C84 | `calculate_steps_to_sunrise` | ceiling lemmas over C50 |
| C85, C86 | the NOAA ephemeris in `solar.py` | range lemmas of the inverse functions; floor arithmetic over ℚ |
| C87 | `simplex_wind_noise.py` | loop invariant, Cauchy–Schwarz |
| C88 | Gaussian process of `wind_gp.py` | positive definiteness of the Matérn-1/2 kernel, Schur complements |
| C89, C90 | `mlp_agent.py`, `quantile_agent.py` | induction over episodes |
| C91 | `eval.py` sharding over `eval_agent` | flights depend on the seed only (C23) |
| C92 | `reload_latest_checkpoint` | string/number lemmas |
| C93 | `learn_wind_field_generator.train` | induction over batches; refutation of the rest |
| C94 | `stable_init.py`, `thermal.py`, `standard_atmosphere.py` | secant/convexity bracket for the Newton iteration |
| C95 | `balloon_arena.reset` with everything it calls | composition of C46, C50, C78, C79, C94; bracketing search descends |
| C96 | `balloon_env.step`, `balloon_arena.step`, `features.observe` | composition of C11, C16, C21, C22 with the heap model |
| C97 | any sequence of `balloon_env.step` calls, `reset` | induction over the actions; C09, C10, C11, C13, C81, C95 |
| C98 | `eval_lib.eval_agent` with `perciatelli_reward_function` | C19, C20, C62; induction over the flight |
| C99 | `BalloonEnv.__init__`, the reward function, the metric | direct |
| C100 | `get_pressure_range` with the stock vehicle (1804 m³, 6830 mol, 68.5 + 92.5 kg, 2380 Pa) over the whole thermal and atmosphere model | quantitative convergence of the Newton iteration (`Lemmas/Newton2`–`Newton5`): the floor is a safe level; then C48 |
| C101 | `get_next_sunrise_sunset`, `compute_sunrise_time`, `calculate_steps_to_sunrise`, `BalloonArena.reset` with the real `solar_calculator` (calendar: Gregorian, 1970–2096; latitude up to 50°) | Lipschitz bounds of every orbital term (`Lemmas/Sun1`), hour angle and elevation rates (`Sun2`–`Sun5`), chain property of the halving search (`Sun6`), phase argument (`Sun7`), the same up to 50° with a finer distance term (`Sun8`); then C95 |
| C102 | `BalloonEnv.__init__`/`reset`/`step`, `BalloonArena.reset`/`step` with the real `solar_calculator`, the Gaussian-process regressor and the default reward | composition of C19, C25, C27, C36, C37, C39, C41, C80, C87, C95, C100, C101; superpressure bound at the start from the envelope equations; induction over actions |
| C103 | `stable_init.py`, `BalloonArena.reset`, `EnvelopeSafetyLayer.get_action` (stock vehicle, upwelling flux 225–315 W/m², the real sun) | quantitative convergence of the Newton iteration (`Lemmas/Newton2`–`Newton5`) in five pressure bands; C14, C95, C100 |
| C104 | the reward of `acme_utils.create_env`, against `eval_lib.eval_agent` | induction over the flight; the accumulator of C62 |
| C105 | `CombinedActor`, `marco_polo_actor` around `MarcoPoloExploration` | invariant over offered observations; refuted for the 80th action |
| C106 | `acs.py`, `_simulate_step_internal`, `calculate_superpressure_and_volume` | monotonicity of the envelope solution in the amount of air; buoyancy order through the signed square root |
| C107 | `networks.MLPNetwork`, `mlp_agent.train` (loss, its gradient, SGD), `MLPAgent.step`, `mlp.gin` | Mathlib's gradient; the one-layer network is linear in its weights; every observation has squared length at least 360 (C26); refuted twice |
| C108 | `_train_step` of `dqn_agent.py`, `quantile_agent.py` over an arbitrary `train` | induction over training steps; the last step due for a copy |
| C109 | the prioritised branch of `QuantileAgent._train_step` | monotonicity of the square root; the maximum of a batch is attained |
| C110 | `is_station_keeping_winds` over SciPy's documented behaviour | convex hulls; Hahn–Banach separation; refuted for collinear columns |
| C111 | `wind_field_speeds`, `mean_speed_in_wind_field` | triangle inequality, induction |
| C112 | `eval/suites.py` on an explicit heap of lists; the data of `eval/strata_seeds.py` in full | invariant over client traces; the data facts (sorted, disjoint) by kernel computation |
| C113 | `thermal.py` (`convective_heat_air_factor`, `d_balloon_temperature_dt`), `Balloon.simulate_step`, `BalloonEnv.reset`/`step` (stock vehicle) | the derivative is κ(ambient − gas) + K(absorbed − radiated) with explicit bounds on κ, K and the absorbed power (`Lemmas/Heat`); the Euler step then preserves [160, 300] K; induction over sub-steps, calls and actions; C51, C95, C100, C102, C103 |
| C114 | `matplotlib_renderer.py` (`reset`, `step`, `render`; the figure as what is drawn on it), `BalloonEnv.reset`/`step`/`render` | induction over actions on the lists of the renderer; C45, C96, C102 |
| C115 | the integer-valued floating-point computations of `eval.py`, `balloon.py`, `sampling.py` and `solar.py`, each operation followed by an arbitrary rounding to 53 bits | a power of two between b and 2b gives a float between a/b and the next integer; monotonicity of rounding |
| C116 | `eval.py:main` with the registry, `run_helpers` and the suites, for any machine (gin, constructors, checkpoints as parameters) | inversion of the command; C91 for each shard, C63 to put them together, uniqueness of the sorted permutation |
| C117 | the result file names of `eval.py`, the run directories of `train.py` | the last underscore splits off the number; no registered name ends in one |
| C118 | reward, ambient and wind features, battery, with every operation rounded (any order-preserving rounding to 53 bits, any library in range, no limits on the exponent) | monotonicity of rounding and exactness at 0, 1 and the given floats; the uncertainty feature is left out: its assertion tolerates 1.00001 |
| C119 | `networks.py`, `load_perciatelli_weights`, for any graph | induction over the layers, from the input upwards against the model's recursion from the output; the sixteen names pass the filters by evaluation |
| C120 | `Perciatelli44` with the session's values as a parameter, `RandomAgent` with the global generator as a parameter | first maximum; C91 for sharding |
| C121 | `EvalResultEncoder` and `combine_eval_shards.py` on parsed JSON values | injectivity field by field; sorting commutes with encoding |
| C122 | `vae.py` encoder, reparameterisation, forward pass; loss and `evaluation` of `learn_wind_field_generator.py` | Mathlib's normal distributions and `klDiv`; density of the product measure; Cauchy–Schwarz |
| C123 | sizes of `FieldShape`, `WindFieldVAE.setup` | computation; refuted for shapes other than the default |
| C124 | `create_dqn`: policies and configuration | sums over the maximal actions; a law for the sampler; look-up in the assigned fields |
| C125 | `acme_eval_agent.py` | C124; C91 for sharding; refuted in case of ties |
| C126 | `train.py`, collectors over several sessions | invariants of the collectors through the whole training loop, also when it raises; refuted for the console log and the fine-grained curve |
| C127 | `train.py` | as C116; C117 for directories; refuted for unknown collectors and the image |
| C128 | `R2D2Network`, `BLETorso` | induction over the sequence; merging and splitting of leading dimensions; bounds of sigmoid and tanh |
| C129 | Gaussian process of `wind_gp.py` | variational form of the posterior variance, the kernel matrix bounded by `n·3.6²` and the inverse by `1/0.05`, Cauchy–Schwarz, reindexing of matrices |
| C130 | `simulate_step` with the power layer | the reserve at sunrise is a function that a sub-step without DOWN cannot lower; DOWN is only flown with 2.5 % of it left; darkness is asked for only where the wind can have carried the balloon, and holds there by the real ephemeris (`C130_real_dark`) |
| C131 | `solar_power`, the loads of a sub-step, the power layer by day | monotone attenuation evaluated at 0° and 10°; cosine bounds; refuted with the compressor running |
| C132 | the sunrise search run on the code's own ephemeris, within 15° of the equator | the halving search as a relation (ties either way, so that sunset is sunrise read backwards), bounds on the hour angle per step, on the refraction and on the sine of the elevation; refuted at one place and date by evaluating the ephemeris there |
| C133 | the layer's clock after any calls, against the code's own ephemeris at the balloon's place | earliest repetition of sunrise and sunset, `cos` between a morning and an evening phase, drift of the sun per day and per degree of displacement; refuted 30° west of the start |
| C134 | `is_solar_afternoon`, next noon and midnight on the code's own ephemeris | the halving search ends within 0.0214 rad of the culmination; refuted with a latitude from the intermediate value theorem where the sun stands at exactly 85° |
| C135 | whole episodes of `BalloonEnv` (stock vehicle, real ephemeris, Gaussian-process forecast; decoder of the wind field arbitrary) | pressure changes at most g/(R·169 K) per metre in logarithm; terminal velocity bounds for the taut envelope; the envelope equations of the previous sub-step bound the gas from the pressure and the pressure from the gas; DOWN is flown only above the altitude floor, so the ballonet cannot fill without bound |
| C136 | whole episodes of `BalloonEnv` as in C135, `WindField.get_ground_truth`, `SimpleStaticWindField`, `GridBasedWindField` | triangle inequality per step (C16 drift), clock of C97, envelope of C135; speed limits from C35, C37, C40, C87 |
| C137 | `StationSeekerAgent`, `get_pressure_range` and the feature constructor in whole episodes of `BalloonEnv` | the twelfth searched level is safe (C103) and above the smallest float pressure, so C48 puts it in the range; C61 for the agent, C96 for what it is shown |
| C138 | `eval_agent` on `BalloonEnv` with `StationSeekerAgent`, `RandomWalkAgent`, `MLPAgent`, `QuantileAgent` (evaluation mode) | invariant of the arena along the loop (C135, C136), induction over steps and seeds |
| C139 | `run_training_loop`, `train.main` on `BalloonEnv` with the three collectors, Marco Polo exploration and Dopamine checkpoints | invariants of arena, agent, collectors and directory along the nested loops; induction over steps, episodes, iterations |
| C140 | `BalloonArena.reset`, `BalloonEnv.reset`, `eval_agent` over ideal random numbers: a key is a seed and a path of splits, every key has its own bits, the bits are independent and identically distributed, every draw is a function of the bits of its key (different seeds give different keys). Real `jax.random` is a deterministic hash; this is its usual idealisation | dependence of reset, flight and episode on the draws only; disjoint sets of keys, product measures, strong law of large numbers |
| C141 | whole episodes of `BalloonEnv` as in C135, `solar_power`, `solar_calculator` (the code's own ephemeris), `calculate_latlng_from_offset` | panel power at 365 hPa, the deepest an episode gets (C135), bounded by elevation; moving d metres changes the sine of the elevation by at most d in Earth radii (Cauchy–Schwarz on unit vectors); hour-angle bounds of day and noon; a piecewise linear reserve that every ten-second sub-step preserves; convexity for the positions inside a step |
| C142 | whole episodes of `BalloonEnv` as in C141, `PowerSafetyLayer.get_action` | by day the layer's decision leaves DOWN only to an unpaused layer; every ten seconds of high sun without the compressor charge 0.596 Wh (bounds of C141); 45 minutes give a twentieth of the battery, the next decision lifts the pause, and by day none begins |
| C143 | `register_env`, its calls at import and as a plugin entry point; gym's registry as a dictionary with namespaces | induction on the events: a call is the identity or adds the one plain entry |
| C144 | `simulate_step` with the power layer at night, any number of successful calls of `d` strides of 10 s | a descent is a call after which the compressor draws power; induction on the calls with the reserve (battery less hotel load until the layer's sunrise) going down by 100–400 W per descent and by nothing else in the dark; the layer's threshold of 2.5 % turns this into counts |
| C145 | `train_acme_qrdqn.py` `main`, `create_env` with its wrappers, `max_num_actor_steps` of the distributed program | invariant of the environment loop (what was flown, what the actor was told, the wrappers' counters) by induction on the steps, then on the rounds; no exception by the reachability results of C138, since another reward changes nothing but the reward |
| C146 | `simulate_step`, `BalloonStatus`; `docs/about.rst` | from C12; refuted for low flight by a stock balloon at 200 hPa |
| C147 | `run_training_loop`, `dopamine_utils`, `load_checkpoint` of all agents, `eval.py` | induction over iterations for what is left in the directory; evaluation of agents that act alike gives equal results |
| C148 | `units.datetime`, `datetime_from_timestamp`, guards and date of `solar_calculator` | the standard library's day count is the inverse of the counting calendar of C86, by induction over days; then the Julian day of C86; monotonicity of the flux in the Julian time for the counterexample |
| C149 | `_run_one_episode`, `run_training_loop`, `eval_agent` with `DQNAgent`, `QuantileAgent`, `MLPAgent`; Dopamine's memory | induction over steps, flights and iterations for the memory; the extra entry of a flight that was cut off ends its episode without being terminal, so no sample reaches across it (and its observation is the next observation of the last sample); invariant over evaluation. Note the extra entry: `train_lib.py:70` asks the agent for an action after the last step, so its reward is stored twice |
| C150 | `eval_agent`, `_balloon_is_within_radius`, `BalloonEnv.step`, `simulate_step` | the time within the radius is the Lebesgue measure of the instants on the straight legs between the observed states (`C150_leg`: a shortened call stays on the line); convexity of the disc for legs with both ends within, induction over the legs for the sums, C62 and C96 for the flights; witnessed by the evaluation of C138. The position between two sub-steps is taken to be linear, as the code moves the balloon by wind times elapsed time |
| C151 | `train_acme_qrdqn.py` `main`, `create_env`, `BalloonEnv.__init__` | a bisimulation (contents of the arenas and random states alike) carried through the wrappers, the environment loop and the rounds; the refutation in a world whose only random number is the seed, by the distance at the start (C78) and the reach of the wind (C136) in both directions |
| C152 | `BalloonEnv.step`, `reset`, `BalloonArena.step`, `eval_agent`, all agents | two environments over different renderers and rewards, related by the contents of balloon, winds and atmosphere (and, for the evaluation, by the observations so far); no step or reset leaves the relation, also when one of them raises; induction over the evaluation with a relation between the agents' states |
| C153 | `BalloonArena.step`, `reset`, `_get_wind_ground_truth_at_balloon`, `BalloonEnv.step`, `reset`, `eval_agent` | the run in a world with another noise function is equal to the given run as long as the two functions agree where the balloon is; induction over the use and over the flight loop, the position after `n` steps being that of the flight limited to `n` steps; for the future by the clock (C97) and the weather of an episode (C102) |
| C154 | `PerciatelliFeatureConstructor.observe`, `get_features`, `WindGP.observe`, `query_batch`, `StationSeekerAgent.pick_action` | distances, hence the kernel, are kept by orthogonal maps of the plane; the posterior mean is linear in the errors; angles to the station and magnitudes are kept; turning back is the transposed map; StationSeeker reads only the wind column and the distance |
| C155 | `PerciatelliFeatureConstructor.observe`, `get_features`, `WindGP.observe`, `query_batch` | every function of the balloon's state called while building the vector is rewritten to the fields it reads; the stored data are the contributions of the observations (C38), of which the query keeps those less than six hours away (C39) |
| C156 | `Balloon.simulate_step`, `_simulate_step_internal`, `perciatelli_reward_function` | a sub-step of the balloon put elsewhere is the sub-step put elsewhere (by unfolding); induction over sub-steps and calls, counting the sub-steps flown; the reward reads the distance (kept by turns, C154) |
| C157 | `Balloon.simulate_step`, `_simulate_step_internal`, `PowerSafetyLayer.get_action` | `Props/Charged.lean`: a sub-step of a balloon with another charge, power layer and status is the sub-step of the first with these three recomputed (`substep_recharged`); clipping is monotone and does not widen gaps (`clip_gap`); the power layer passes on every command but a descent (from C04); induction over sub-steps and calls; `C157_descents`: two demonstration balloons on either side of the overnight reserve |
| C158 | `Balloon.simulate_step`, `_simulate_step_internal` | `Props/Cutting.lean`: a sub-step neither reads nor writes the safety layers and the last command (`substep_relayered`); the loop over n + m sub-steps is the loop over n followed by the loop over m unless it stopped (`substepLoop_plus`); a step of n strides runs the loop n times (`simulateStep_strides`) |
| C159 | `Balloon.simulate_step`, `_simulate_step_internal`, `PowerSafetyLayer.get_action`, `perciatelli_reward_function`, `get_next_sunrise_sunset`, `calculate_steps_to_sunrise`, `compute_sunrise_time` | `Props/Calendar.lean`: the catching up of the layer's clock commutes with shifts (`catchUp_postponed`); so do sub-step, safety chain and step; the search depends on instants only through the elevation and differences (`findSolar_postponed`); the observation reads the date only through the sun (`features_postponed`) |
| C160 | `WindGP.observe`, `query`, `query_batch` | `Props/Elsewhere.lean`: the kernel depends on differences of locations (`shift_matern`), hence so do Gram matrix, means and variances (`shift_posterior`, with `inv_matern` of C154); the horizon is a difference of times (`shift_recent`); induction over the measurements |
| C161 | `perciatelli_reward_function` | `Props/Generous.lean`: monotonicity of the shape of the reward in radius, drop and half-life (`shape_generous`), by cases on the two radii; the multiplier for power is positive; induction over the flight |
| C162 | `GridBasedWindField.get_forecast`, `_prepare_get_forecast_inputs`, `GenerativeWindField.get_forecast`, `FieldShape.latlng_grid_points` | `Props/Superposed.lean`: interpolation along one axis is affine in the node values with weights summing to one (`interp1_lin`), uses two neighbouring nodes (`locate_nextTo`), agrees on both cells at a common node (`interp1_cell`), and interpolations along different axes commute (`interp1_swap`) |
| C163 | `colab/summarize_eval.ipynb` (upload and table cells), with `eval_lib.eval_agent` and `combine_eval_shards.main` | `Props/Summary.lean`: the three filters keep the flights without a cause (`finishedRuns_eq`), causes are exclusive by C62, means of permuted lists agree (`seriesMean_perm`), the dictionary holds the last upload of every stem (`dataframes_mem`) |
| C164 | `colab/BLE_view_flight_paths.ipynb` (simulation loop and lengths of the charge curves), with `BalloonEnv.seed/reset/step` | `Props/FlightView.lean`: seeded resets are twins (`envReset_twin`, C151) and twin environments give the same loop (`viewLoop_alike`); the loop yields a `Spec.Flight` whose every n-th state is shown (`viewLoop_spec`, `everyNth_get`); times by C96 along the flight (`flight_clock`); completion as for C138 (`viewLoop_flies`) |
| C165 | `colab/BLE_Generative_Wind_Field.ipynb` (`frame`), with `GridBasedWindField.get_forecast` | `Props/WindAnim.lean`: closed form of the globals after n frames (`windAnim_state`), by induction; arrows are grid points of the field, whose forecasts are known by C35 |

## 4. Disagreements between code and property

Where a property is false of the code, the part that holds is proved under a name ending in `_partial`, and the
failure is itself a theorem (an exhibited execution). The exact scope is in the notes of `MANIFEST.json`.

| Id | What the code does | Theorem |
|----|--------------------|---------|
| C11 | with fractional-second strides a step lasts longer than requested | `C11_fractional_stride_overruns` |
| C24 | `get_simulator_state` returns live references; restoring after steps is a no-op | `C24_restore_is_noop`, `C24_not_restored`, `C24_weather_overwritten` |
| C28 | `navigation_is_paused` / `navigation_is_enabled` read each other's entry | `C28_navigation_swapped` |
| C30 | the guard `0 > level >= n` is never true | `C30_never_value_error`, `C30_negative_wraps` |
| C39 | if all observations are older than 6 h a query raises `ValueError` | `C39_stale_fails` |
| C49 | a convex objective is not enough for the search to find the minimum | `C49_convexity_not_enough` |
| C53 | at the poles the bearing is ignored | `C53_pole_bearing_ignored` |
| C55 | tolerance equality is not transitive and overlaps `<` | `C55_not_transitive` |
| C57 | the guard `0 > x >= 1` is never true | `C57_not_rejected` |
| C60 | the random walk never resets its timer, so increments grow over an episode | `C60_not_since_last_update` |
| C64 | `random_*.json` also matches `random_walk_*.json` | `C64_swallows` |
| C66 | a torn checkpoint file prevents every later resume | `C66_torn` |
| C67 | six-digit iterations are never cleaned; stray names raise; negative durations delete the newest | `C67_six_digits`, `C67_stray`, `C67_negative_duration` |
| C68 | one unparsable name hides all checkpoints | `C68_hidden` |
| C69 | the last reward of an episode is counted twice | `C69_double_count` |
| C70 | one record more than steps | `C70_extra` |
| C71 | the pending action is counted without a check, negative ones wrap around | `C71_negative_pending` |
| C73 | the decoder's first axis is y, the simulator's is x: the flown field is not incompressible | `C73_diverges_as_flown` |
| C74 | evaluation batch size 0 reserves the whole dataset, and trains on it | `C74_size_zero` |
| C77 | a missing Perciatelli44 surfaces as TensorFlow's error | `C77_wrong_error` |
| C83 | `Energy.__ge__` returns a (truthy) exception object | `C83_energy_ge` |
| C86 | the Julian day is one too large from March to the next January after most century years | `C86_skips_a_day` |
| C92 | a file without leading zeros is reported as restored but not loaded | `C92_not_loaded` |
| C93 | undefined names end every training run of the generator in its first epoch | `C93_never_saves` |
| C99 | the radius given to the environment is used for the metric only, the reward keeps 50 km | `C99_radius_ignored` |
| C105 | `CombinedActor` also consults the exploration for the first observation, so the first policy phase has 79 actions | `C105_first_phase_short` |
| C107 | the loss is differentiated through the target, so the next action's weights move too; with the stock rates an update across a change of action overshoots | `C107_not_sarsa`, `C107_overshoots` |
| C110 | winds that all lie on one line raise `QhullError` | `C110_collinear_raises` |
| C117 | shard i without checkpoint and checkpoint i unsharded write the same result file | `C117_shard_or_checkpoint` |
| C117 | `--checkpoint_idx` without `--checkpoint_dir` loads nothing, yet names the result file | `C117_checkpoint_not_loaded` |
| C123 | `WindFieldVAE(field_shape=…)` ignores the shape: its decoder is built with the default | `C123_ignored` |
| C125 | with several best actions the Acme evaluation agent draws among them from a generator that is never reset, so shards and the unsharded run differ | `C125_ties` |
| C126 | a resumed or repeated training command erases the console log; the fine-grained tensorboard curve restarts at position 0 | `C126_console_lost`, `C126_rerun`, `C126_fine_restarts` |
| C127 | unknown names in `--collectors` are ignored silently; all runs under a base directory write the same `balloon_path.png` | `C127_unknown_collectors`, `C127_image_shared` |
| C131 | `power_safety.py:100-104` "we don't need to worry about power until night falls": pumping at a pressure ratio of 1.25 draws 520 W, the panels give at most 474 W with the sun above 80°, and the unpaused layer passes DOWN at any charge | `C131_noon_drains`, `C131_runs_out_at_noon` |
| C132 | `solar.py:354-370` halves the bracket midnight..noon by comparing the distance from −4.242° at its two ends, which presumes symmetry; at 14.5° N on 3 March 2000 it discards the half with the crossing and the sunrise found is more than four minutes late | `C132_late` |
| C133 | `power_safety.py:33-50` computes sunrise and sunset once and `:83-86` only adds whole days; 30° further west the layer takes it to be day with the sun 12° below the horizon | `C133_drift` |
| C134 | `solar.py:239-255` compares elevations one second apart and `:143-155` lets the refraction drop to zero at 85°; the second in which the rising sun passes 85° is called afternoon and `get_next_solar_noon` looks 12–24 hours ahead | `C134_morning_called_afternoon` |
| C146 | `docs/about.rst` lists flying too low as a critical failure; there is no such status, a balloon below the altitude layer's floor flies on | `C146_low_is_no_failure` |
| C147 | `eval.py --checkpoint_idx k` evaluates an untrained agent, without an error, if checkpoint k has been cleaned up or the agent is `mlp`, which cannot be saved | `C147_cleaned_up`, `C147_mlp_untrained`, `C147_mlp_refuted` |
| C148 | the ephemeris takes the date from the datetime's zone and the time of day from the instant: off by a day where these differ; `units.datetime(…, tzinfo=None)` is naive although documented as UTC | `C148_wrong_day`, `C148_flux_differs`, `C148_none_is_naive` |
| C151 | `--seed` of the Acme scripts does not reach the environments, which seed themselves from the clock | `C151_not_from_seed` |
| C165 | the animated arrows are drawn with the horizontal axes exchanged and within 150 instead of 500 km | `C165_misplaced` |

Observations made while modelling that no property above is about:

* C01's claim is unconditional, but for envelopes rated below 450 Pa the two critical zones meet or overlap.
* A stride below one second raises `ZeroDivisionError`; a negative duration runs no sub-step and succeeds.
* `Balloon.simulate_step` records the requested command before checking that the flight is still going on.
* After the cold start the balloon is neutral at its *base* volume; being superpressured it has a slightly larger
  volume and starts to climb.
* `total_absorptivity` accepts absorptivities above 1 (e.g. 1.5) as long as the series stays in [0,1].
* The deviation tolerance 1.00001 in `_add_wind_features` is never needed in exact arithmetic (C88).
* `compute_sunrise_time` divides by zero if sunrise and sunset are exactly a day apart (C101: with the real
  ephemeris near the equator this never happens).
* The importance weights of prioritised replay enter the reported loss only, not the gradient (`train` runs before).
* Negative elapsed times are not clipped before interpolation, so forecasts for them raise (C34 is about t >= 0).
* `latlng.is_valid` is referenced without being called, so the guard in `solar_calculator` never fires.
* `NoisyWindHarmonic.reset` draws the seed and the offsets from the same key.
* `station_keeping_radius` given to the environment is not passed to the reward function.
* The largest StationSeeker score is 1.06 only in exact arithmetic, and the assertion has no tolerance.
* The MLP agent never uses the last reward of an episode.
* A failed `reset` leaves a mixture of the old and the new episode in the arena.
* The console log is truncated on resume, and the tensorboard step counter restarts at 0.
* `max_episode_length` below 0 is reported as the episode length.
* `num_epochs` counts from 1, so one epoch less than configured would be run.

## 5. How to read the mutation log

`seeded/LOG.jsonl` has 946 lines: 894 wrong programs after which the build failed and 52 after which it did not. Of the
latter 43 led to a new or stronger theorem; the notes of the other 9 say why nothing was changed. The log shows less than
these numbers suggest:

* A failing build means that a *proof* no longer goes through. It does not show that the statement is false of the wrong program.
* Most runs were stopped at the first file that failed. `theorems_failed` then lists what failed up to there, not everything that fails.
* For 516 of the 894 lines a property theorem (`Cnn_*`) is among those listed. For 371 only helper lemmas are. The property
  theorems resting on these lemmas were not checked one by one, so for these lines it is not established that the property itself
  excludes the wrong program.
* For 7 lines only an `example` is listed. After five of them (`g148_default_naive`, `rd9`, `zrw1`-`zrw3`) a theorem was added and the
  same edit tried again (`…_again`); the other two (`zfr8`, `zfr13`) were left as they are.
* Edits that did not type-check were discarded and are not in the log.
