import Verif.Model.Features
import Verif.Model.Sampling
import Verif.Model.Wind

/-!
# Agents

`BLE/agents/`. An agent is a state with three methods; an action is an integer. The networks, the optimiser
and the base classes imported from Dopamine are parameters.
-/

namespace BLE

/-- `agents/agent.py:33-112` — what the training and evaluation loops call. `setMode s true` is training
mode; the base class ignores it. -/
structure Agent (S : Type) where
  beginEpisode : S → List ℝ → S × Except Err ℤ
  step : S → ℝ → List ℝ → S × Except Err ℤ
  endEpisode : S → ℝ → Bool → S
  setMode : S → Bool → S := fun s _ => s

/-! ## Random walk -/

/-- `random_walk_agent.py:46-56` — the mutable attributes; elapsed time in microseconds. -/
structure RandomWalk (K : Type) where
  rng : K
  elapsed : ℤ
  target : ℝ

variable {K : Type}

/-- `random_walk_agent.py:58-60` — `_sample_new_target_pressure`. -/
noncomputable def RandomWalk.sample (J : Jax K) (s : RandomWalk K) : RandomWalk K × Except Err Unit :=
  let s1 := { s with rng := J.split s.rng 2 0 }
  match samplePressure (J.uniform (J.split s.rng 2 1)) none with
  | .error e => (s1, .error e)
  | .ok p => ({ s1 with target := p }, .ok ())

/-- `random_walk_agent.py:49-56` — `__init__` with a seed. -/
noncomputable def RandomWalk.new (J : Jax K) (seed : ℤ) : RandomWalk K :=
  (RandomWalk.sample J { rng := J.prngKey seed, elapsed := 0, target := 0 }).1

/-- `random_walk_agent.py:62-73` — `_select_action`. -/
noncomputable def RandomWalk.select (s : RandomWalk K) (obs : List ℝ) : Except Err Command :=
  if ¬ obs.length = 1099 then .error .assertion
  else match Named.ofList obs with
  | .error e => .error e
  | .ok N =>
    if N.pressure - 100 > s.target then .ok .up
    else if N.pressure + 100 < s.target then .ok .down
    else .ok .stay

/-- `random_walk_agent.py:75-94` — the agent; `normal` is `jax.random.normal`. The time step is
`constants.AGENT_TIME_STEP`, three minutes. -/
noncomputable def randomWalkAgent (J : Jax K) (normal : K → ℝ) : Agent (RandomWalk K) where
  beginEpisode s obs :=
    let r := RandomWalk.sample J { s with elapsed := 0 }
    (r.1, match r.2 with
      | .error e => .error e
      | .ok () => (r.1.select obs).map Command.toInt)
  step s _ obs :=
    let el := s.elapsed + 180 * usPerSec
    let s1 : RandomWalk K :=
      { rng := J.split s.rng 2 0, elapsed := el
        target := s.target + totalSeconds el * 0.1666 * normal (J.split s.rng 2 1) }
    (s1, (s1.select obs).map Command.toInt)
  endEpisode s _ _ := s

/-! ## Exploration wrappers -/

/-- `exploration.py:29-45` — what a learning agent calls; `Exploration` itself returns the action. -/
structure Explorer (S : Type) where
  beginEpisode : S → List ℝ → ℤ → S × Except Err ℤ
  step : S → ℝ → List ℝ → ℤ → S × Except Err ℤ

/-- `exploration.py:29-45` — the no-op wrapper. -/
def noExploration : Explorer Unit where
  beginEpisode s _ a := (s, .ok a)
  step s _ _ a := (s, .ok a)

/-- `marco_polo_exploration.py:43-55` — the mutable attributes. -/
structure Marco (K S : Type) where
  agent : S
  prob : ℝ
  episode : Bool
  phase : Bool
  elapsed : ℤ
  rng : K

variable {S : Type}

/-- `marco_polo_exploration.py:68-76` — `_phase_expired`: two hours of exploring, four hours of policy. -/
def Marco.expired (s : Marco K S) : Bool :=
  if s.phase ∧ s.elapsed ≥ 2 * 3600 * usPerSec then true
  else if ¬ s.phase ∧ s.elapsed ≥ 4 * 3600 * usPerSec then true
  else false

/-- `marco_polo_exploration.py:78-85` — `_update_phase`. -/
def Marco.update (s : Marco K S) : Marco K S :=
  let s1 := { s with elapsed := s.elapsed + 180 * usPerSec }
  if ¬ s1.episode then s1
  else if s1.expired then { s1 with phase := !s1.phase, elapsed := 0 }
  else s1

open Classical in
/-- `marco_polo_exploration.py:57-66, 87-93` — `begin_episode` and `step`. The first component of the split
is the one that is drawn from. -/
noncomputable def marcoPolo (J : Jax K) (A : Agent S) : Explorer (Marco K S) where
  beginEpisode s obs a :=
    let r := A.beginEpisode s.agent obs
    let s1 := { s with agent := r.1 }
    match r.2 with
    | .error e => (s1, .error e)
    | .ok _ =>
      ({ s1 with elapsed := 0, rng := J.split s.rng 2 1, phase := false
                 episode := decide (J.uniform (J.split s.rng 2 0) ≤ s.prob) }, .ok a)
  step s r obs a :=
    let s1 := s.update
    if s1.phase then
      let q := A.step s1.agent r obs
      ({ s1 with agent := q.1 }, q.2)
    else (s1, .ok a)

/-! ## StationSeeker -/

/-- `station_seeker_agent.py:147-178` — `wind_score`. -/
noncomputable def windScore (N : Named) (level : ℤ) : Except Err ℝ := do
  let w ← N.windAt level
  let w ← realWind w
  let distance ← undoSquash N.distance 250
  let ramp : ℝ := 0.45 - 0.6
  let rate : ℝ := 500 - 250
  let coeff := clip ((distance - 250) / rate) 0 1
  let weight := 0.6 + coeff * ramp
  let alpha := Real.exp (-distance / 35)
  let magnitude := Real.exp (-0.07 * w.magnitude)
  let bearing := Real.exp (-weight * w.bearing)
  return (1 - alpha) * bearing + alpha * magnitude

/-- `station_seeker_agent.py:115-145` — `altitude_score`. -/
noncomputable def altitudeScore (N : Named) (level : ℤ) : Except Err ℝ := do
  let w ← N.windAt level
  let ws ← windScore N level
  let mid ← N.center
  let dist : ℝ := |(level : ℝ) - (mid : ℝ)|
  let hysteresis := 0.05 * Real.exp (-0.001 * dist)
  return (1 - w.uncertainty + 0.01) * ws + w.uncertainty * 0.5 + hysteresis

/-- The local variables of the loop `station_seeker_agent.py:93-109`. -/
structure Seek where
  best : Option ℕ
  score : ℝ
  scores : List ℝ

open Classical in
/-- `station_seeker_agent.py:98-109` — one pass through the loop body; `max_altitude_score` is
`1 + 0.05 + 0.01` (line 56). -/
noncomputable def Seek.visit (N : Named) (k : Seek) (l : ℕ) : Except Err Seek :=
  match N.levelValid l with
  | .error e => .error e
  | .ok false => .ok k
  | .ok true =>
    match altitudeScore N l with
    | .error e => .error e
    | .ok a =>
      if ¬ (0 ≤ a ∧ a ≤ 1 + 0.05 + 0.01) then .error .assertion
      else
        let k1 := { k with scores := k.scores.set l a }
        .ok (if a > k.score then { k1 with score := a, best := some l } else k1)

/-- `station_seeker_agent.py:88-113` — `find_best_pressure_level`. -/
noncomputable def findBest (N : Named) : Except Err (ℕ × List ℝ) :=
  match (List.range N.numLevels).foldlM (Seek.visit N)
      { best := none, score := 0, scores := List.replicate N.numLevels 0 } with
  | .error e => .error e
  | .ok k =>
    match k.best with
    | none => .error .assertion
    | some l => .ok (l, k.scores)

/-- `station_seeker_agent.py:72-86` — `pick_action`. -/
noncomputable def stationSeek (obs : List ℝ) : Except Err ℤ :=
  match Named.ofList obs with
  | .error e => .error e
  | .ok N =>
    match findBest N with
    | .error e => .error e
    | .ok (level, _) =>
      match N.center with
      | .error e => .error e
      | .ok mid => .ok (if level < mid then 2 else if level > mid then 0 else 1)

/-- `station_seeker_agent.py:40-70` — the agent: it has no state, the constructor only sets the constants used above. -/
noncomputable def stationSeeker : Agent Unit where
  beginEpisode s obs := (s, stationSeek obs)
  step s _ obs := (s, stationSeek obs)
  endEpisode s _ _ := s

/-! ## Learning agents -/

/-- `mlp_agent.py:95-113` — the attributes of `MLPAgent` that change. `P` network parameters, `O` optimiser
state; `last` are `last_state`, `last_action`, absent before the first episode. -/
structure Mlp (P O : Type) where
  params : P
  opt : O
  train : Bool
  last : Option (List ℝ × ℤ)

/-- `mlp_agent.py:146-147` — `set_mode`. -/
def Mlp.setMode {P O : Type} (s : Mlp P O) (train : Bool) : Mlp P O := { s with train := train }

/-- `mlp_agent.py:53-88, 115-147` — `MLPAgent`; `act` is the greedy action of the network (`select_action`)
and `learn params opt state action reward next_state next_action` is `train`. -/
def mlpAgent {P O : Type} (act : P → List ℝ → ℤ) (learn : P → O → List ℝ → ℤ → ℝ → List ℝ → ℤ → P × O) :
    Agent (Mlp P O) where
  beginEpisode s obs :=
    let a := act s.params obs
    ({ s with last := some (obs, a) }, .ok a)
  step s r obs :=
    let a := act s.params obs
    if s.train then
      match s.last with
      | none => (s, .error .attribute)
      | some l =>
        let q := learn s.params s.opt l.1 l.2 r obs a
        ({ s with params := q.1, opt := q.2, last := some (obs, a) }, .ok a)
    else ({ s with last := some (obs, a) }, .ok a)
  endEpisode s _ _ := s
  setMode := Mlp.setMode

/-- `quantile_agent.py:40-89` — attributes of `QuantileAgent`: the Dopamine part (which reads `action` when it
stores the previous transition), the wrapper and the mode. -/
structure Quantile (D X : Type) where
  core : D
  explorer : X
  action : ℤ
  eval : Bool

/-- `quantile_agent.py:91-118, 161-169` — `QuantileAgent`. `core.step` is `JaxQuantileAgent.step`, which is
given the current value of `self.action`. -/
def quantileAgent {D X : Type} (coreBegin : D → List ℝ → D × Except Err ℤ)
    (coreStep : D → ℤ → ℝ → List ℝ → D × Except Err ℤ) (coreEnd : D → ℤ → ℝ → Bool → D) (E : Explorer X) :
    Agent (Quantile D X) where
  beginEpisode s obs :=
    let q := coreBegin s.core obs
    let s1 := { s with core := q.1 }
    match q.2 with
    | .error e => (s1, .error e)
    | .ok a =>
      let s2 := { s1 with action := a }
      if s.eval then (s2, .ok a)
      else
        let x := E.beginEpisode s.explorer obs a
        let s3 := { s2 with explorer := x.1 }
        match x.2 with
        | .error e => (s3, .error e)
        | .ok b => ({ s3 with action := b }, .ok b)
  step s r obs :=
    let q := coreStep s.core s.action r obs
    let s1 := { s with core := q.1 }
    match q.2 with
    | .error e => (s1, .error e)
    | .ok a =>
      let s2 := { s1 with action := a }
      if s.eval then (s2, .ok a)
      else
        let x := E.step s.explorer r obs a
        let s3 := { s2 with explorer := x.1 }
        match x.2 with
        | .error e => (s3, .error e)
        | .ok b => ({ s3 with action := b }, .ok b)
  endEpisode s r t := { s with core := coreEnd s.core s.action r t }
  setMode s train := { s with eval := !train }

end BLE
