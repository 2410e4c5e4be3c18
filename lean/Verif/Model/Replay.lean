import Mathlib.Algebra.BigOperators.Group.Finset.Basic
import Mathlib.Algebra.BigOperators.Fin
import Verif.Model.Agents
import Verif.Model.Dopamine

/-!
# The Dopamine agents

`BLE/agents/dqn_agent.py:66-110`, `BLE/agents/quantile_agent.py:91-169`, with Dopamine's `JaxDQNAgent` (`begin_episode`, `step`,
`end_episode`, `_store_transition`) and its replay buffer (`add`, `is_valid_transition`, `sample_transition_batch`) after their
documentation, for a stack of one observation as configured (`dqn_agent.py:62`, `quantile_agent.py:78`). Network, optimiser, choice of
indices and random numbers are parameters.

Simplified: the memory is the list of all additions, entries are numbered in order of addition; the circular storage holds the last
`capacity` of them. Priorities are left to the choice of indices.
-/

namespace BLE

/-- What is added to the memory for a step. (`dqn_agent.py:69-70, 102-103`) -/
structure Stored where
  obs : List ℝ
  action : ℤ
  reward : ℝ
  terminal : Bool
  episodeEnd : Bool
  deriving Inhabited

/-- An element of a batch: `state`, `action`, `reward`, `next_state`, `terminal`. (`dqn_agent.py:76-88`) -/
structure NStep where
  obs : List ℝ
  action : ℤ
  reward : ℝ
  nextObs : List ℝ
  terminal : Bool

/-- The number of steps from entry `e 0` on that are summed up, at most `n`: up to the first terminal one.
(`dqn_agent.py:76`; Dopamine's `sample_transition_batch`) -/
def trajectoryLength (e : ℕ → Stored) : ℕ → ℕ
  | 0 => 0
  | n + 1 => if (e 0).terminal then 1 else trajectoryLength (fun j => e (j + 1)) n + 1

/-- The sample at entry `i` with horizon `n`. (`dqn_agent.py:76`; Dopamine's `sample_transition_batch`) -/
noncomputable def nStepSample (γ : ℝ) (n : ℕ) (memory : List Stored) (i : ℕ) : NStep :=
  let e := fun j => memory.getD (i + j) default
  let m := trajectoryLength e n
  { obs := (e 0).obs, action := (e 0).action, reward := ∑ j ∈ Finset.range m, γ ^ j * (e j).reward, nextObs := (e m).obs
    terminal := (List.range n).any fun j => (e j).terminal }

/-- The entries that may be sampled: still stored, with the whole horizon behind them, and without an end of an episode in it that is not
terminal. (`dqn_agent.py:76`; Dopamine's `is_valid_transition`) -/
def validIndex (capacity n : ℕ) (memory : List Stored) (i : ℕ) : Prop :=
  memory.length ≤ i + capacity ∧ i + n < memory.length ∧
    ∀ j < n, (memory.getD (i + j) default).episodeEnd = true → (memory.getD (i + j) default).terminal = true

/-- The fixed parts of a Dopamine agent: configuration, discount and horizon (`dqn.gin:11-15`), the optimiser step, the choice of indices
and the action selection with its random numbers. (`dqn_agent.py:50-64`, `quantile_agent.py:70-81`) `indices` is also applied when the
code does not sample; being given the memory and the number of steps, it may then leave the random state alone. -/
structure DopaNet (K P O : Type) where
  cfg : TrainCfg
  γ : ℝ
  horizon : ℕ
  learn : P → P → O → List NStep → P × O
  indices : List Stored → ℤ → K → List ℕ × K
  act : P → ℤ → Bool → K → List ℝ → ℤ × K

/-- The attributes of `JaxDQNAgent`, without `action`. (`dqn_agent.py:50-64`) -/
structure Dopa (K P O : Type) where
  learner : Learner P O
  memory : List Stored
  obs : List ℝ
  eval : Bool
  rng : K

variable {K P O X : Type}

/-- `dqn_agent.py:72-100`, `quantile_agent.py:120-159` — `_train_step` with its batch. -/
noncomputable def Dopa.trainStep (N : DopaNet K P O) (d : Dopa K P O) : Dopa K P O × Except Err Unit :=
  let b := N.indices d.memory d.learner.trainingSteps d.rng
  match d.learner.trainStep N.cfg N.learn d.memory.length (b.1.map (nStepSample N.γ N.horizon d.memory)) with
  | .error e => (d, .error e)
  | .ok l => ({ d with learner := l, rng := b.2 }, .ok ())

/-- Select an action for the observation. (`dqn_agent.py:66-70`; Dopamine's `select_action`) -/
def Dopa.select (N : DopaNet K P O) (d : Dopa K P O) : Dopa K P O × Except Err ℤ :=
  let q := N.act d.learner.online d.learner.trainingSteps d.eval d.rng d.obs
  ({ d with rng := q.2 }, .ok q.1)

/-- `dqn_agent.py:66-67`, `quantile_agent.py:99-100` — `JaxDQNAgent.begin_episode`. -/
noncomputable def Dopa.begin (N : DopaNet K P O) (d : Dopa K P O) (obs : List ℝ) : Dopa K P O × Except Err ℤ :=
  let d1 := { d with obs := obs }
  if d.eval then d1.select N
  else
    let t := d1.trainStep N
    match t.2 with
    | .error e => (t.1, .error e)
    | .ok () => t.1.select N

/-- `dqn_agent.py:69-70`, `quantile_agent.py:111-112` — `JaxDQNAgent.step`, with the attribute `action`. -/
noncomputable def Dopa.step (N : DopaNet K P O) (d : Dopa K P O) (action : ℤ) (reward : ℝ) (obs : List ℝ) : Dopa K P O × Except Err ℤ :=
  let d1 := { d with obs := obs }
  if d.eval then d1.select N
  else
    let t := Dopa.trainStep N { d1 with memory := d.memory ++ [⟨d.obs, action, reward, false, false⟩] }
    match t.2 with
    | .error e => (t.1, .error e)
    | .ok () => t.1.select N

/-- `dqn_agent.py:102-103`, `quantile_agent.py:161-162` — `JaxDQNAgent.end_episode`. -/
def Dopa.finish (d : Dopa K P O) (action : ℤ) (reward : ℝ) (terminal : Bool) : Dopa K P O :=
  if d.eval then d else { d with memory := d.memory ++ [⟨d.obs, action, reward, terminal, true⟩] }

/-- `quantile_agent.py:91-169` — `QuantileAgent` on Dopamine's base class, with which it shares the attribute `eval_mode`. `DQNAgent`
(`dqn_agent.py:66-110`) is the same without a wrapper: `noExploration`. -/
noncomputable def dopamineAgent (N : DopaNet K P O) (E : Explorer X) : Agent (Quantile (Dopa K P O) X) :=
  { quantileAgent (Dopa.begin N) (Dopa.step N) Dopa.finish E with
    setMode := fun s train => { s with eval := !train, core := { s.core with eval := !train } } }

end BLE
