import Verif.Model.Env
import Verif.Model.Agents

/-!
# Evaluation

`BLE/eval/eval_lib.py`, `BLE/eval/suites.py`, `BLE/eval/eval.py`, `BLE/eval/combine_eval_shards.py`.
-/

namespace BLE

/-- The environment as seen by the evaluation and training loops (`gym` interface plus `radius` and
`get_simulator_state().balloon_state`). (`eval_lib.py:153-191`) -/
structure GymEnv (V : Type) where
  seed : ℤ → V → V
  reset : V → V × Except Err (List ℝ)
  step : ℤ → V → V × Except Err StepOut
  balloon : V → Except Err BState
  render : V → V
  radius : V → ℝ

/-- `BalloonEnv` through that interface (`balloon_env.py:157-255`). -/
noncomputable def balloonEnv {K W Rd : Type} (c : EnvCfg K W Rd) : GymEnv (Env K W Rd) where
  seed s v := v.seed c s
  reset v := ((v.reset c none).1, (v.reset c none).2.map (·.1))
  step a v := v.step c a
  balloon v := v.arena.getState.map fun st => v.arena.heap.balls st.ball
  render v := v.render c
  radius v := v.radius

/-- `eval_lib.py:58-78` — `SimpleBalloonState`. -/
structure SimpleState where
  x : ℝ
  y : ℝ
  pressure : ℝ
  sp : ℝ
  elapsed : ℤ
  soc : ℝ

/-- `eval_lib.py:68-78` — `from_balloon_state`; `battery_soc` is `balloon.py:222-229`. -/
noncomputable def SimpleState.of (b : BState) : SimpleState :=
  { x := b.x, y := b.y, pressure := b.pressure, sp := b.sp, elapsed := b.timeElapsed, soc := b.charge / b.cap }

/-- `eval_lib.py:82-108` — `EvaluationResult` (its printed form, `:110-115`, is not modelled). -/
structure EvalResult where
  seed : ℤ
  cumulative : ℝ
  twr : ℝ
  outOfPower : Bool
  envelopeBurst : Bool
  zeropressure : Bool
  finalStep : ℕ
  path : List SimpleState
deriving Inhabited

/-- `suites.py:23-33` — `EvaluationSuite`. -/
structure Suite where
  seeds : List ℤ
  maxLen : ℤ

/-- The local variables of one flight (`eval_lib.py:154-165`). `last` is `(reward, is_done)` of the last step. -/
structure Acc where
  total : ℝ
  within : ℕ
  path : List SimpleState
  count : ℕ
  outOfPower : Bool
  envelopeBurst : Bool
  zeropressure : Bool
  last : Option (ℝ × Bool)

/-- `eval_lib.py:118-120` — `_balloon_is_within_radius`. -/
def withinRadius (b : BState) (radius : ℝ) : Prop := Real.sqrt (b.x ^ 2 + b.y ^ 2) ≤ radius

variable {V S : Type}

open Classical in
/-- `eval_lib.py:166-187` — the flight loop with `n` steps left. `action` is the pending action. The modulus in
the rendering condition fails for period 0; a negative period behaves like its absolute value. -/
noncomputable def evalLoop (G : GymEnv V) (A : Agent S) (period : ℤ) (paths : Bool) :
    ℕ → V → S → ℤ → Acc → V × S × Except Err Acc
  | 0, v, s, _, k => (v, s, .ok k)
  | n + 1, v, s, action, k =>
    let r := G.step action v
    match r.2 with
    | .error e => (r.1, s, .error e)
    | .ok out =>
      let q := A.step s out.reward out.obs
      match q.2 with
      | .error e => (r.1, q.1, .error e)
      | .ok action' =>
        match G.balloon r.1 with
        | .error e => (r.1, q.1, .error e)
        | .ok b =>
          if period = 0 then (r.1, q.1, .error .zeroDivision)
          else
            let v2 := if Int.fmod k.count period = 0 then G.render r.1 else r.1
            let k1 := { k with
              total := k.total + out.reward
              path := if paths then k.path ++ [SimpleState.of b] else k.path
              within := k.within + (if withinRadius b (G.radius r.1) then 1 else 0)
              count := k.count + 1
              last := some (out.reward, out.terminal) }
            if out.terminal then
              (v2, q.1, .ok { k1 with
                outOfPower := out.info.outOfPower
                envelopeBurst := out.info.envelopeBurst
                zeropressure := out.info.zeropressure })
            else evalLoop G A period paths n v2 q.1 action' k1

/-- `eval_lib.py:153-209` — one flight. -/
noncomputable def evalFlight (G : GymEnv V) (A : Agent S) (maxLen : ℤ) (period : ℤ) (paths : Bool) (seed : ℤ) (v : V)
    (s : S) : V × S × Except Err EvalResult :=
  let r := G.reset (G.seed seed v)
  match r.2 with
  | .error e => (r.1, s, .error e)
  | .ok obs =>
    let q := A.beginEpisode s obs
    match q.2 with
    | .error e => (r.1, q.1, .error e)
    | .ok action =>
      let l := evalLoop G A period paths maxLen.toNat r.1 q.1 action
        { total := 0, within := 0, path := [], count := 0, outOfPower := false, envelopeBurst := false
          zeropressure := false, last := none }
      match l.2.2 with
      | .error e => (l.1, l.2.1, .error e)
      | .ok k =>
        if k.count = 0 then (l.1, l.2.1, .error .zeroDivision)
        else
          match k.last with
          | none => (l.1, l.2.1, .error .attribute)
          | some (reward, done) =>
            (l.1, A.endEpisode l.2.1 reward done, .ok
              { seed := seed, cumulative := k.total, twr := (k.within : ℝ) / k.count, outOfPower := k.outOfPower
                envelopeBurst := k.envelopeBurst, zeropressure := k.zeropressure, finalStep := k.count, path := k.path })

/-- `eval_lib.py:153-211` — all flights. -/
noncomputable def evalFlights (G : GymEnv V) (A : Agent S) (maxLen : ℤ) (period : ℤ) (paths : Bool) :
    List ℤ → V → S → V × S × Except Err (List EvalResult)
  | [], v, s => (v, s, .ok [])
  | seed :: seeds, v, s =>
    let f := evalFlight G A maxLen period paths seed v s
    match f.2.2 with
    | .error e => (f.1, f.2.1, .error e)
    | .ok r =>
      let g := evalFlights G A maxLen period paths seeds f.1 f.2.1
      (g.1, g.2.1, g.2.2.map (r :: ·))

/-- `eval_lib.py:123-211` — `eval_agent`. -/
noncomputable def evalAgent (G : GymEnv V) (A : Agent S) (suite : Suite) (period : ℤ) (paths : Bool) (v : V) (s : S) :
    V × S × Except Err (List EvalResult) :=
  if ¬ suite.maxLen > 0 then (v, s, .error .assertion)
  else evalFlights G A suite.maxLen period paths suite.seeds v (A.setMode s false)

/-! ## Shards -/

/-- `eval.py:126-127` — first index of shard `i` of `n`: `int(len * i / n)`. The quotient is a float in the code;
that this does not matter is C115. -/
def shardStart (len i n : ℕ) : ℕ := len * i / n

/-- `eval.py:125-128` — the seeds of shard `i` of `n`. -/
def shard (seeds : List ℤ) (i n : ℕ) : List ℤ :=
  if n > 1 then (seeds.drop (shardStart seeds.length i n)).take (shardStart seeds.length (i + 1) n - shardStart seeds.length i n)
  else seeds

/-- A file name. (`eval.py:77-89`) -/
abbrev Name := List Char

/-- `eval.py:77-82` — the name without shard number and extension. -/
def resultName (override : Option Name) (agent : Name) (checkpoint : Option ℕ) : Name :=
  match override with
  | some n => if n = [] then (match checkpoint with
      | some k => agent ++ '_' :: (toString k).toList
      | none => agent) else n
  | none => match checkpoint with
    | some k => agent ++ '_' :: (toString k).toList
    | none => agent

/-- `eval.py:84-86` — the file written for shard `i` of `n`. -/
def resultFile (name : Name) (i n : ℕ) : Name :=
  (if n > 1 then name ++ '_' :: (toString i).toList else name) ++ ".json".toList

/-- A directory: file names with their contents, each name once (`json.load` and `json.dump` are taken to be
inverse to each other on lists of results). (`eval.py:88-96`) -/
abbrev Dir := List (Name × List EvalResult)

/-- `open(path, 'w')` and `json.dump` (`eval.py:95-96`, `combine_eval_shards.py:58-59`). -/
def Dir.write (d : Dir) (n : Name) (rs : List EvalResult) : Dir := (n, rs) :: d.filter fun f => f.1 ≠ n

/-- `combine_eval_shards.py:48` — `glob` with the pattern `{model}_*.json`, for a model name without glob
metacharacters. -/
def globMatch (model : Name) (n : Name) : Prop := ∃ mid, n = model ++ '_' :: mid ++ ".json".toList

open Classical in
/-- `combine_eval_shards.py:46-52` — all results of the matching files (in directory order, which `glob` does
not specify), sorted by seed. -/
noncomputable def combined (model : Name) (d : Dir) : List EvalResult :=
  ((d.filter fun f => globMatch model f.1).flatMap (·.2)).mergeSort fun a b => a.seed ≤ b.seed

/-- `combine_eval_shards.py:45-59` — combining one model. -/
noncomputable def combine (model : Name) (flightPaths : Bool) (d : Dir) : Dir :=
  d.write (model ++ ".json".toList)
    (if flightPaths then combined model d else (combined model d).map fun r => { r with path := [] })

end BLE
