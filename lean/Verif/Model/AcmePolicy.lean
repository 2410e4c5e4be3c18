import Verif.Model.Networks
import Verif.Model.Acme
import Verif.Model.Perciatelli

/-!
# Acme's DQN on the balloon environment

`BLE/acme_utils.py:217-277` (`create_dqn`), `BLE/agents/acme_eval_agent.py`.

Acme and rlax are not part of the repository. Of rlax, `epsilon_greedy(ε)` is modelled by the probabilities it documents and a
sampler; of Acme, the actor's parameters, generator and epsilon, and checkpoints by number.
-/

namespace BLE

/-! ## Policies -/

open Classical in
/-- rlax: the probabilities of `epsilon_greedy(ε)`: ties of the maximum share `1 - ε`, and `ε` is spread evenly (external).
(`acme_utils.py:261, 271`) -/
noncomputable def epsilonGreedy {n : ℕ} (ε : ℝ) (q : Fin n → ℝ) (a : Fin n) : ℝ :=
  (1 - ε) * (if ∀ j, q j ≤ q a then (1 : ℝ) / (Finset.univ.filter fun b : Fin n => ∀ j, q j ≤ q b).card else 0) + ε * (1 / n)

/-- `jax.vmap(f)`: on every row. (`acme_utils.py:93-96`) -/
def vmap {α β : Type} (f : α → β) (rows : List α) : List β := rows.map f

/-- `jnp.squeeze(x, axis=0)`: only an axis of length one can be removed. (`acme_utils.py:260, 270`) -/
def squeeze0 {α : Type} : List α → Except Err α
  | [x] => .ok x
  | _ => .error .value

/-- The parameters of the network built by `make_networks`. (`acme_utils.py:242-250`) -/
abbrev AcmeParams : Type := MlpIx 1099 600 (hiddenLayers 8) (3 * 51) → ℝ

/-- `acme_utils.py:78-97, 243-245` — `q_values` of the network, on a batch of observations. -/
noncomputable def acmeValues (p : AcmeParams) (batch : List (List ℝ)) : List (Fin 3 → ℝ) :=
  vmap (quantileValues 1099 600 8 3 51 p) batch

/-- `acme_utils.py:255-263` — `behavior_policy`; `sample` draws from given probabilities. -/
noncomputable def behaviorPolicy {K : Type} (sample : K → (Fin 3 → ℝ) → Fin 3) (p : AcmeParams) (key : K) (obs : List ℝ) (ε : ℝ) :
    Except Err (Fin 3) :=
  match squeeze0 (acmeValues p [obs]) with
  | .error e => .error e
  | .ok q => .ok (sample key (epsilonGreedy ε q))

/-- `acme_utils.py:265-273` — `eval_policy`. -/
noncomputable def evalPolicy {K : Type} (sample : K → (Fin 3 → ℝ) → Fin 3) (p : AcmeParams) (key : K) (obs : List ℝ) (_ε : ℝ) :
    Except Err (Fin 3) :=
  match squeeze0 (acmeValues p [obs]) with
  | .error e => .error e
  | .ok q => .ok (sample key (epsilonGreedy 0 q))

/-! ## Configuration -/

/-- The values of `params` and of the configuration's fields: numbers, truth values, schedules. (`acme_utils.py:217-240`) -/
inductive Setting where
  | num (x : ℝ)
  | flag (b : Bool)
  | schedule (f : ℕ → ℝ)

/-- `d.pop(key, False)`: the value and what remains. (`acme_utils.py:220, 223`) -/
noncomputable def popFlag (d : List (String × Setting)) (key : String) : Bool × List (String × Setting) :=
  (match d.lookup key with
    | some (.flag b) => b
    | some (.num x) => @decide (x ≠ 0) (Classical.propDecidable _)
    | some (.schedule _) => true
    | none => false,
   d.filter fun e => e.1 ≠ key)

/-- `optax.linear_schedule` (external). (`acme_utils.py:236-238`) -/
noncomputable def linearSchedule (init final : ℝ) (steps : ℕ) (count : ℕ) : ℝ :=
  (init - final) * (1 - (min count steps : ℕ) / (steps : ℝ)) + final

/-- What `create_dqn` sets, in order. (`acme_utils.py:226-240`) -/
noncomputable def dqnSettings (adaptive : Bool) : List (String × Setting) :=
  let updatePeriod : ℕ := 4
  let targetUpdatePeriod : ℕ := 100
  let batchSize : ℕ := 32
  [("discount", .num 0.993), ("n_step", .num 5), ("min_replay_size", .num 500),
   ("target_update_period", .num (targetUpdatePeriod / updatePeriod : ℕ)), ("adam_eps", .num 0.00002),
   ("max_replay_size", .num 2000000), ("batch_size", .num batchSize), ("samples_per_insert", .num (batchSize / updatePeriod)),
   ("prefetch_size", .num 0),
   ("learning_rate", if adaptive then .schedule (linearSchedule 2e-6 4e-7 (5000000 / batchSize)) else .num 2e-6)]

/-- Attribute assignments, one after the other. (`acme_utils.py:226-240`) -/
def assign (c : String → Option Setting) : List (String × Setting) → String → Option Setting
  | [] => c
  | e :: l => assign (fun f => if f = e.1 then some e.2 else c f) l

/-- `acme_utils.py:217-240` — the configuration and whether to explore; `defaults` are the fields of `DQNConfig` with their
default values; a parameter that is no field raises `TypeError`. -/
noncomputable def createDqn (defaults : String → Option Setting) (params : List (String × Setting)) :
    Except Err ((String → Option Setting) × Bool) :=
  let m := popFlag params "marco_polo_exploration"
  let a := popFlag m.2 "adaptive_learning_rate"
  if ∃ e ∈ a.2, defaults e.1 = none then .error .type
  else
    let given := fun f => (a.2.lookup f).or (defaults f)
    .ok (assign given (dqnSettings a.1), m.1)

/-! ## The evaluation agent -/

/-- The actor: parameters read from the learner, and the actor state. (`acme_eval_agent.py:33-36, 103-114`) -/
structure AcmeEval (K : Type) where
  params : AcmeParams
  rng : K
  epsilon : ℝ

/-- Acme's actor: one key is split off for every action (external). (`acme_eval_agent.py:117-121`) -/
noncomputable def AcmeEval.select {K : Type} (split : K → K × K) (sample : K → (Fin 3 → ℝ) → Fin 3) (s : AcmeEval K)
    (obs : List ℝ) : AcmeEval K × Except Err ℤ :=
  ({ s with rng := (split s.rng).1 },
   match evalPolicy sample s.params (split s.rng).2 obs s.epsilon with
   | .error e => .error e
   | .ok a => .ok (a : ℕ))

/-- `acme_eval_agent.py:60-129` — `AcmeEvalAgent`, in the mode it supports. -/
noncomputable def acmeEvalAgent {K : Type} (split : K → K × K) (sample : K → (Fin 3 → ℝ) → Fin 3) : Agent (AcmeEval K) where
  beginEpisode s obs := s.select split sample obs
  step s _ obs := s.select split sample obs
  endEpisode s _ _ := s

/-- `acme_eval_agent.py:126-129` — `set_mode`; `true` is training. -/
def AcmeEval.setMode {K : Type} (s : AcmeEval K) (train : Bool) : AcmeEval K × Except Err Unit :=
  (s, if train then .error .value else .ok ())

/-- `acme_eval_agent.py:63-114` — the constructor: a learner with initial parameters `init`, key `PRNGKey(0)`. -/
def acmeEvalNew {K : Type} (key0 : K) (init : AcmeParams) : AcmeEval K := { params := init, rng := key0, epsilon := 0 }

/-- The learner checkpoints in a directory, by number. (`acme_eval_agent.py:141-149`) -/
abbrev AcmeCheckpoints : Type := List (ℕ × AcmeParams)

/-- `acme_eval_agent.py:131-156` — `load_checkpoint`. Without any checkpoint `latest_checkpoint` is `None` and `osp.dirname`
raises `TypeError`; restoring a missing one raises TensorFlow's `NotFoundError`. Making the checkpointer restores nothing
(`acme_eval_agent.py:43-53`). -/
def AcmeEval.load {K : Type} (key0 : K) (dir : AcmeCheckpoints) (s : AcmeEval K) (iteration : ℕ) : AcmeEval K × Except Err Unit :=
  if dir = [] then (s, .error .type)
  else
    match dir.lookup iteration with
    | none => (s, .error .tfNotFound)
    | some p => ({ params := p, rng := key0, epsilon := 0 }, .ok ())

end BLE
