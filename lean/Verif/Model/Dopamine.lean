import Mathlib.Data.Real.Sqrt
import Verif.Model.Basic

/-!
# Training steps of the Dopamine agents

`balloon_learning_environment/agents/dqn_agent.py:72-100`, `agents/quantile_agent.py:120-159`.

Dopamine's `train` (one optimiser step on a batch), its replay buffer and `_sample_from_replay_buffer` are parameters:
`learn` maps online parameters, target parameters, optimiser state and the sampled batch to the new optimiser state,
online parameters and the losses. Simplified: the summary writer is left out except for the value it is given.
-/

namespace BLE

/-- The periods set in `dqn.gin`, `quantile.gin`. (`dqn.gin:13-15`) -/
structure TrainCfg where
  minReplayHistory : ℤ
  updatePeriod : ℤ
  targetUpdatePeriod : ℤ

/-- `dqn.gin`, `quantile.gin`: 500, 4, 100. (`dqn.gin:13-15`, `quantile.gin:21-23`) -/
def TrainCfg.stock : TrainCfg := ⟨500, 4, 100⟩

/-- Attributes of the agent read or written by `_train_step`. (`quantile_agent.py:120-159`) -/
structure Learner (P O : Type) where
  online : P
  target : P
  opt : O
  trainingSteps : ℤ

/-- Python's `%`, with `ZeroDivisionError`. (`quantile_agent.py:123, 156`) -/
def pyMod (a b : ℤ) : Except Err ℤ := if b = 0 then .error .zeroDivision else .ok (a.fmod b)

/-- `dqn_agent.py:72-100` (and `quantile_agent.py:120-159`, up to the names of the losses) — `_train_step`.
`addCount` is `self._replay.add_count`, `batch` what the replay buffer yields if asked. -/
def Learner.trainStep {P O B : Type} (c : TrainCfg) (learn : P → P → O → B → P × O) (s : Learner P O) (addCount : ℤ)
    (batch : B) : Except Err (Learner P O) := do
  let s ← if addCount > c.minReplayHistory then do
      let m ← pyMod s.trainingSteps c.updatePeriod
      let s1 := if m = 0 then
          let q := learn s.online s.target s.opt batch
          { s with online := q.1, opt := q.2 }
        else s
      let m ← pyMod s1.trainingSteps c.targetUpdatePeriod
      pure (if m = 0 then { s1 with target := s1.online } else s1)
    else pure s
  pure { s with trainingSteps := s.trainingSteps + 1 }

/-- Any number of training steps. (`quantile_agent.py:120-159`) -/
def Learner.trainSteps {P O B : Type} (c : TrainCfg) (learn : P → P → O → B → P × O) :
    Learner P O → List (ℤ × B) → Except Err (Learner P O)
  | s, [] => .ok s
  | s, x :: xs => do
    let s ← s.trainStep c learn x.1 x.2
    Learner.trainSteps c learn s xs

/-- `quantile_agent.py:144-145` — the priority stored for a transition with the given loss. -/
noncomputable def newPriority (loss : ℝ) : ℝ := Real.sqrt (loss + 1e-10)

/-- `quantile_agent.py:141-142` — `loss_weights` before normalisation. -/
noncomputable def rawWeight (prob : ℝ) : ℝ := 1 / Real.sqrt (prob + 1e-10)

/-- `quantile_agent.py:141-146` — `loss_weights * loss` for a non-empty batch of (sampling probability, loss). -/
noncomputable def weightedLosses (x : ℝ × ℝ) (xs : List (ℝ × ℝ)) : List ℝ :=
  let top := (xs.map fun y => rawWeight y.1).foldl max (rawWeight x.1)
  (x :: xs).map fun y => rawWeight y.1 / top * y.2

/-- `quantile_agent.py:147` — `jnp.mean`. -/
noncomputable def meanOf (xs : List ℝ) : ℝ := xs.sum / xs.length

end BLE
