import Verif.Model.Acme

/-!
# Training with Acme

`BLE/train_acme_qrdqn.py:37-81`, `BLE/distributed_train_acme_qrdqn.py:79-115` and the wrappers of
`BLE/acme_utils.py:59-75`. Acme's wrappers, environment loop and counters are not part of the repository; they are modelled
here by what they are documented to do, because the scripts consist of little else. The conversion to single precision
(`acme_utils.py:72`) is not modelled (floats are reals).
-/

namespace BLE

variable {V S T : Type}

/-- `acme_utils.py:69-71` — an environment in `GymWrapper` and `StepLimitWrapper`: the gym wrapper's `_reset_next_step` and the
step limit's `_elapsed_steps` (−1 when the limit has ended the episode). -/
structure Wrapped (V : Type) where
  env : V
  resetNext : Bool
  elapsed : ℤ

/-- `reset` through both wrappers: `dm_env.restart`. (`acme_utils.py:69-71`) -/
def Wrapped.reset (G : GymEnv V) (w : Wrapped V) : Wrapped V × Except Err TimeStep :=
  let r := G.reset w.env
  ({ env := r.1, resetNext := false, elapsed := 0 }, r.2.map fun obs => ⟨obs, 0, false, none⟩)

/-- `GymWrapper.step`: after the end of an episode it resets; otherwise a terminal step becomes `dm_env.termination`
(discount 0) and any other `dm_env.transition` (discount 1). `BalloonEnv` reports no `TimeLimit.truncated`.
(`acme_utils.py:69`) -/
def Wrapped.gymStep (G : GymEnv V) (a : ℤ) (w : Wrapped V) : Wrapped V × Except Err TimeStep :=
  if w.resetNext then
    let r := G.reset w.env
    ({ w with env := r.1, resetNext := false }, r.2.map fun obs => ⟨obs, 0, false, none⟩)
  else
    let r := G.step a w.env
    match r.2 with
    | .error e => ({ w with env := r.1 }, .error e)
    | .ok out => ({ w with env := r.1, resetNext := out.terminal },
        .ok ⟨out.obs, out.reward, out.terminal, some (if out.terminal then 0 else 1)⟩)

/-- `StepLimitWrapper.step` with `step_limit = limit`: the step that reaches the limit becomes the last one, as a truncation
(the discount stays). (`acme_utils.py:70-71`) -/
def Wrapped.step (G : GymEnv V) (limit : ℤ) (a : ℤ) (w : Wrapped V) : Wrapped V × Except Err TimeStep :=
  if w.elapsed = -1 then w.reset G
  else
    let r := w.gymStep G a
    match r.2 with
    | .error e => (r.1, .error e)
    | .ok t =>
      let w' := { r.1 with elapsed := r.1.elapsed + 1 }
      if 0 < limit ∧ limit ≤ w'.elapsed ∧ t.last = false then ({ w' with elapsed := -1 }, .ok { t with last := true })
      else (w', .ok t)

/-- A `counting.Counter`: episodes and steps. (`train_acme_qrdqn.py:48, 69-78`) -/
structure AcmeCount where
  episodes : ℕ
  steps : ℕ

/-- `acme.EnvironmentLoop`: an environment, an actor's state, the counts, and the returns that were logged.
(`train_acme_qrdqn.py:69-78`) -/
structure AcmeLoop (V S : Type) where
  env : Wrapped V
  actor : S
  count : AcmeCount
  returns : List ℝ

/-- The inner loop of `EnvironmentLoop.run_episode` while the latest time step is `t`; `none` when `fuel` is used up and the
episode still goes on. Result: the steps made and their rewards' sum. (`train_acme_qrdqn.py:79-81`) -/
def acmeSteps (G : GymEnv V) (limit : ℤ) (A : Actor S) :
    ℕ → Wrapped V → S → TimeStep → ℕ → ℝ → Option (Wrapped V × S × Except Err (ℕ × ℝ))
  | fuel, w, s, t, n, ret =>
    if t.last then some (w, s, .ok (n, ret))
    else match fuel with
      | 0 => none
      | fuel + 1 =>
        let q := A.select s t.obs
        match q.2 with
        | .error e => some (w, q.1, .error e)
        | .ok a =>
          let r := w.step G limit a
          match r.2 with
          | .error e => some (r.1, q.1, .error e)
          | .ok t' => acmeSteps G limit A fuel r.1 (A.update (A.observe q.1 a t')) t' (n + 1) (ret + t'.reward)

/-- `EnvironmentLoop.run(1)`: one episode, then the counter and the logger. (`train_acme_qrdqn.py:79-81`) -/
def AcmeLoop.runOne (G : GymEnv V) (limit : ℤ) (A : Actor S) (fuel : ℕ) (l : AcmeLoop V S) :
    Option (AcmeLoop V S × Except Err Unit) :=
  let r := l.env.reset G
  match r.2 with
  | .error e => some ({ l with env := r.1 }, .error e)
  | .ok t =>
    let o := A.observeFirst l.actor t
    match o.2 with
    | .error e => some ({ l with env := r.1, actor := o.1 }, .error e)
    | .ok () =>
      match acmeSteps G limit A fuel r.1 o.1 t 0 0 with
      | none => none
      | some (w, s, .error e) => some ({ l with env := w, actor := s }, .error e)
      | some (w, s, .ok (n, ret)) =>
        some ({ env := w, actor := s, count := ⟨l.count.episodes + 1, l.count.steps + n⟩, returns := l.returns ++ [ret] }, .ok ())

/-- `train_acme_qrdqn.py:79-81` — the script's loop: an episode of training, an episode of evaluation, and so on. `Gt` and `Ge` are
the two environments of lines 40-41; the evaluation actor `E` reads the learner's variables (`variable_source=agent`, line 64), so
it is given the training agent's state, which it does not change. -/
def acmeTraining (Gt Ge : GymEnv V) (limit : ℤ) (A : Actor S) (E : S → Actor T) (fuel : ℕ) :
    ℕ → AcmeLoop V S → AcmeLoop V T → Option (AcmeLoop V S × AcmeLoop V T × Except Err Unit)
  | 0, l, m => some (l, m, .ok ())
  | n + 1, l, m =>
    match l.runOne Gt limit A fuel with
    | none => none
    | some (l1, .error e) => some (l1, m, .error e)
    | some (l1, .ok ()) =>
      match m.runOne Ge limit (E l1.actor) fuel with
      | none => none
      | some (m1, .error e) => some (l1, m1, .error e)
      | some (m1, .ok ()) => acmeTraining Gt Ge limit A E fuel n l1 m1

variable {K W Rd : Type}

/-- `acme_utils.py:59-75` — `create_env`: the environment as Acme's loop sees it, and the wrapped object. No seed is passed to
`BalloonEnv`; `k` are the successive readings of the clock, two for each environment built (in evaluation a first one is built for
its radius only, lines 62-68). `w` and `dead` are the initial contents of the wind field and of unused heap cells. -/
noncomputable def createEnv (c : EnvCfg K W Rd) (w : WindField W) (dead : BState) (isEval : Bool) (maxLen : ℤ) (k : ℕ → ℤ) :
    Except Err (GymEnv (Env K W Rd) × Wrapped (Env K W Rd)) :=
  match Env.new c w dead 50 none none (k 0) (k 1) with
  | .error e => .error e
  | .ok v =>
    if isEval then
      match Env.new (acmeCfg c true maxLen v.radius) w dead 50 none none (k 2) (k 3) with
      | .error e => .error e
      | .ok u => .ok (balloonEnv (acmeCfg c true maxLen v.radius), ⟨u, true, 0⟩)
    else .ok (balloonEnv c, ⟨v, true, 0⟩)

/-- `train_acme_qrdqn.py:37-81` — `main`, with `--seed`, `--max_episode_length` and `--num_episodes`. `mk` builds the learning agent from
the seed (lines 50-58), `t0` is the evaluation actor made from `PRNGKey(0)` (lines 60-64); `k` are the successive readings of the
clock. -/
noncomputable def acmeMain (c : EnvCfg K W Rd) (w : WindField W) (dead : BState) (mk : ℤ → S) (t0 : T) (A : Actor S)
    (E : S → Actor T) (fuel : ℕ) (seed : ℤ) (maxLen : ℤ) (numEpisodes : ℕ) (k : ℕ → ℤ) :
    Except Err (Option (AcmeLoop (Env K W Rd) S × AcmeLoop (Env K W Rd) T × Except Err Unit)) :=
  match createEnv c w dead false maxLen k with
  | .error e => .error e
  | .ok env =>
    match createEnv c w dead true maxLen fun i => k (i + 2) with
    | .error e => .error e
    | .ok ev =>
      .ok (acmeTraining env.1 ev.1 maxLen A E fuel numEpisodes ⟨env.2, mk seed, ⟨0, 0⟩, []⟩ ⟨ev.2, t0, ⟨0, 0⟩, []⟩)

/-- `distributed_train_acme_qrdqn.py:108` — the number of actor steps after which the distributed program stops. -/
def maxActorSteps (numEpisodes maxLen : ℕ) : ℕ := numEpisodes * maxLen

end BLE
