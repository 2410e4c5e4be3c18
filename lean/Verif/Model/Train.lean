import Verif.Model.Eval

/-!
# Training and metrics

`BLE/train_lib.py`, `BLE/metrics/`.
-/

namespace BLE

/-- `statistics_instance.py:22-27` — `StatisticsInstance`. -/
structure Stat where
  step : ℤ
  action : ℤ
  reward : ℝ
  terminal : Bool

/-- The calls a collector receives (`collector.py:64-83`). -/
inductive Event
  | preTraining
  | beginEpisode
  | step (s : Stat)
  | endEpisode (s : Stat)
  | endTraining

/-- A class of collector objects: what each call does to the object. (`collector.py:39-86`) -/
abbrev Collectors (C : Type) := Event → C → C × Except Err Unit

variable {C : Type}

/-- `collector_dispatcher.py:73-92` — pass one call on to all collectors; an exception stops the loop. -/
def dispatch (on : Collectors C) (e : Event) : List C → List C × Except Err Unit
  | [] => ([], .ok ())
  | c :: cs =>
    let r := on e c
    match r.2 with
    | .error err => (r.1 :: cs, .error err)
    | .ok () =>
      let q := dispatch on e cs
      (r.1 :: q.1, q.2)

/-! ## Collectors -/

/-- A line written by the console collector (`console_collector.py:61-73, 75-91`). -/
inductive Line
  | step (s : Stat)
  | episode (number : ℤ) (reward : ℝ) (length : ℤ) (distribution : List ℝ)

/-- `console_collector.py:29-95` — the console collector. `counts` and `reward` exist once an episode was
begun. `log` is the text logged so far; the log file gets the same lines when `file` says so, and exists once
`pre_training` opened it. -/
structure Console where
  numActions : ℕ
  episode : ℤ
  fine : Bool
  frequency : ℤ
  counts : Option (List ℝ × ℝ)
  log : List Line
  file : Bool
  logFile : Option (List Line)

/-- Write a line to the log and, if there is one, the file. (`console_collector.py:71-73, 86-89`) -/
def Console.write (c : Console) (l : Line) : Console × Except Err Unit :=
  let c1 := { c with log := c.log ++ [l] }
  if c.file then
    match c.logFile with
    | none => (c1, .error .attribute)
    | some f => ({ c1 with logFile := some (f ++ [l]) }, .ok ())
  else (c1, .ok ())

/-- NumPy indexing: negative indices count from the end. (`console_collector.py:65, 78`) -/
def npIndex (n : ℕ) (i : ℤ) : Option ℕ :=
  if 0 ≤ i ∧ i < n then some i.toNat
  else if i < 0 ∧ -i ≤ n then some (n + i).toNat
  else none

/-- `counts[i] += 1`. (`console_collector.py:65, 78`) -/
noncomputable def countAction (counts : List ℝ) (a : ℤ) : Except Err (List ℝ) :=
  match npIndex counts.length a with
  | none => .error .index
  | some i => .ok (counts.set i (counts.getD i 0 + 1))

/-- `console_collector.py:53-95` -/
noncomputable def Console.on : Collectors Console
  | .preTraining, c => ({ c with logFile := if c.file then some [] else c.logFile }, .ok ())
  | .beginEpisode, c => ({ c with counts := some (List.replicate c.numActions 0, 0) }, .ok ())
  | .step s, c =>
    match c.counts with
    | none => (c, .error .attribute)
    | some (n, r) =>
      let c1 := { c with counts := some (n, r + s.reward) }
      if s.action < 0 ∨ s.action ≥ c.numActions then (c1, .error .value)
      else
        match countAction n s.action with
        | .error e => (c1, .error e)
        | .ok n' =>
          let c2 := { c1 with counts := some (n', r + s.reward) }
          if c.fine then
            if c.frequency = 0 then (c2, .error .zeroDivision)
            else if Int.fmod s.step c.frequency = 0 then c2.write (.step s)
            else (c2, .ok ())
          else (c2, .ok ())
  | .endEpisode s, c =>
    match c.counts with
    | none => (c, .error .attribute)
    | some (n, r) =>
      let c1 := { c with counts := some (n, r + s.reward) }
      match countAction n s.action with
      | .error e => (c1, .error e)
      | .ok n' =>
        let c2 := { c1 with counts := some (n', r + s.reward) }
        let w := c2.write (.episode c.episode (r + s.reward) s.step (n'.map (· / n'.sum)))
        match w.2 with
        | .error e => (w.1, .error e)
        | .ok () => ({ w.1 with episode := c.episode + 1 }, .ok ())
  | .endTraining, c => (c, if c.file ∧ c.logFile = none then .error .attribute else .ok ())

/-- `pickle_collector.py:26-59` — the pickle collector; `files` maps episode numbers to contents. -/
structure Pickle where
  episode : ℤ
  stats : Option (List Stat)
  files : ℤ → Option (List Stat)

/-- `pickle_collector.py:40-59` -/
def Pickle.on : Collectors Pickle
  | .preTraining, c => (c, .ok ())
  | .beginEpisode, c => ({ c with stats := some [] }, .ok ())
  | .step s, c =>
    match c.stats with
    | none => (c, .error .attribute)
    | some l => ({ c with stats := some (l ++ [s]) }, .ok ())
  | .endEpisode s, c =>
    match c.stats with
    | none => (c, .error .attribute)
    | some l =>
      ({ episode := c.episode + 1, stats := some (l ++ [s])
         files := Function.update c.files c.episode (some (l ++ [s])) }, .ok ())
  | .endTraining, c => (c, .ok ())

/-- The three curves of the tensorboard collector (`tensorboard_collector.py:53-57, 66-77`). -/
inductive Curve
  | fineGrainedReward
  | episodeReward
  | episodeLength

/-- `tensorboard_collector.py:24-80` — the tensorboard collector; `points` are the recorded
`(curve, value, position)`. -/
structure Tensorboard where
  episode : ℤ
  fine : Bool
  frequency : ℤ
  globalStep : Option ℤ
  reward : Option ℝ
  points : List (Curve × ℝ × ℤ)

/-- `tensorboard_collector.py:46-80` -/
noncomputable def Tensorboard.on : Collectors Tensorboard
  | .preTraining, c => ({ c with globalStep := some 0 }, .ok ())
  | .beginEpisode, c => ({ c with reward := some 0 }, .ok ())
  | .step s, c =>
    match c.globalStep with
    | none => (c, .error .attribute)
    | some g =>
      if c.fine ∧ c.frequency = 0 then (c, .error .zeroDivision)
      else
        let c1 := if c.fine ∧ Int.fmod g c.frequency = 0 then
          { c with points := c.points ++ [(.fineGrainedReward, s.reward, g)] } else c
        let c2 := { c1 with globalStep := some (g + 1) }
        match c.reward with
        | none => (c2, .error .attribute)
        | some r => ({ c2 with reward := some (r + s.reward) }, .ok ())
  | .endEpisode s, c =>
    match c.globalStep with
    | none => (c, .error .attribute)
    | some g =>
      let c1 := if c.fine then { c with points := c.points ++ [(.fineGrainedReward, s.reward, g)] } else c
      match c.reward with
      | none => (c1, .error .attribute)
      | some r =>
        ({ c1 with
           reward := some (r + s.reward), globalStep := some (g + 1), episode := c.episode + 1
           points := c1.points ++ [(.episodeReward, r + s.reward, c.episode), (.episodeLength, (s.step : ℝ), c.episode)] },
          .ok ())
  | .endTraining, c => (c, .ok ())

/-- `collector_dispatcher.py:52-56` — an object of one of the available collector classes. -/
inductive Obj
  | console (c : Console)
  | pickle (c : Pickle)
  | tensorboard (c : Tensorboard)

/-- Method calls on such an object. (`collector_dispatcher.py:73-92`) -/
noncomputable def Obj.on : Collectors Obj
  | e, .console c => (.console (Console.on e c).1, (Console.on e c).2)
  | e, .pickle c => (.pickle (Pickle.on e c).1, (Pickle.on e c).2)
  | e, .tensorboard c => (.tensorboard (Tensorboard.on e c).1, (Tensorboard.on e c).2)

/-! ## Episodes -/

variable {V S D : Type}

/-- What a training run works on: environment, agent and collectors. (`train_lib.py:40-44`) -/
structure Run (V S C : Type) where
  env : V
  agent : S
  cols : List C

/-- Send an event to the collectors of a run. (`train_lib.py:62-64, 76-78`) -/
def Run.send (on : Collectors C) (e : Event) (x : Run V S C) : Run V S C × Except Err Unit :=
  let r := dispatch on e x.cols
  ({ x with cols := r.1 }, r.2)

/-- The outcome of the loop of one episode: the pending action, the last reward and terminal flag, the final
step. (`train_lib.py:50-52, 73-78`) -/
structure EpisodeEnd where
  action : ℤ
  reward : ℝ
  terminal : Bool
  final : ℤ

/-- `train_lib.py:54-71` — the loop over the steps `i, i + 1, …` of an episode with `n` steps left. -/
noncomputable def episodeLoop (G : GymEnv V) (A : Agent S) (on : Collectors C) (maxLen period : ℤ) :
    ℕ → ℤ → Run V S C → EpisodeEnd → Run V S C × Except Err EpisodeEnd
  | 0, _, x, k => (x, .ok k)
  | n + 1, i, x, k =>
    let r := G.step k.action x.env
    let x1 := { x with env := r.1 }
    match r.2 with
    | .error e => (x1, .error e)
    | .ok out =>
      if period = 0 then (x1, .error .zeroDivision)
      else
        let x2 := if Int.fmod i period = 0 then { x1 with env := G.render x1.env } else x1
        let d := x2.send on (.step { step := i, action := k.action, reward := out.reward, terminal := out.terminal })
        match d.2 with
        | .error e => (d.1, .error e)
        | .ok () =>
          if out.terminal then
            (d.1, .ok { action := k.action, reward := out.reward, terminal := true, final := i + 1 })
          else
            let q := A.step d.1.agent out.reward out.obs
            let x3 := { d.1 with agent := q.1 }
            match q.2 with
            | .error e => (x3, .error e)
            | .ok a =>
              episodeLoop G A on maxLen period n (i + 1) x3 { action := a, reward := out.reward, terminal := false, final := k.final }

/-- `train_lib.py:40-78` — `_run_one_episode`. -/
noncomputable def runEpisode (G : GymEnv V) (A : Agent S) (on : Collectors C) (maxLen period : ℤ) (x : Run V S C) :
    Run V S C × Except Err Unit :=
  let b := x.send on .beginEpisode
  match b.2 with
  | .error e => (b.1, .error e)
  | .ok () =>
    let r := G.reset b.1.env
    let x1 := { b.1 with env := r.1 }
    match r.2 with
    | .error e => (x1, .error e)
    | .ok obs =>
      let q := A.beginEpisode x1.agent obs
      let x2 := { x1 with agent := q.1 }
      match q.2 with
      | .error e => (x2, .error e)
      | .ok a =>
        let l := episodeLoop G A on maxLen period maxLen.toNat 0 x2 { action := a, reward := 0, terminal := false, final := maxLen }
        match l.2 with
        | .error e => (l.1, .error e)
        | .ok k =>
          let x3 := { l.1 with agent := A.endEpisode l.1.agent k.reward k.terminal }
          x3.send on (.endEpisode { step := k.final, action := k.action, reward := k.reward, terminal := k.terminal })

/-- `train_lib.py:122-127` — `n` episodes. -/
noncomputable def runEpisodes (G : GymEnv V) (A : Agent S) (on : Collectors C) (maxLen period : ℤ) :
    ℕ → Run V S C → Run V S C × Except Err Unit
  | 0, x => (x, .ok ())
  | n + 1, x =>
    let r := runEpisode G A on maxLen period x
    match r.2 with
    | .error e => (r.1, .error e)
    | .ok () => runEpisodes G A on maxLen period n r.1

/-- The checkpointing methods of an agent (`agent.py:114-146`); `D` is the content of the checkpoint directory. -/
structure Saver (S D : Type) where
  save : ℤ → S → D → D × Except Err Unit
  reload : D → S → S × Except Err ℤ

/-- `agent.py:114-146` — the checkpointing of an agent that does not override it: nothing is saved or found. -/
def baseSaver : Saver S D where
  save _ _ d := (d, .ok ())
  reload _ s := (s, .ok (-1))

/-- `train_lib.py:121-129` — iterations `i, …, i + n - 1`. -/
noncomputable def runIterations (G : GymEnv V) (A : Agent S) (Z : Saver S D) (on : Collectors C)
    (maxLen period episodes : ℤ) : ℕ → ℤ → Run V S C → D → Run V S C × D × Except Err Unit
  | 0, _, x, d => (x, d, .ok ())
  | n + 1, i, x, d =>
    let r := runEpisodes G A on maxLen period episodes.toNat x
    match r.2 with
    | .error e => (r.1, d, .error e)
    | .ok () =>
      let w := Z.save i r.1.agent d
      match w.2 with
      | .error e => (r.1, w.1, .error e)
      | .ok () => runIterations G A Z on maxLen period episodes n (i + 1) r.1 w.1

/-- `train_lib.py:81-131` — `run_training_loop`. `mk` constructs the collectors, given the number of the first
episode. -/
noncomputable def runTraining (G : GymEnv V) (A : Agent S) (Z : Saver S D) (on : Collectors C) (mk : ℤ → List C)
    (maxLen period episodes iterations : ℤ) (v : V) (s : S) (d : D) : Run V S C × D × Except Err Unit :=
  let q := Z.reload d s
  match q.2 with
  | .error e => ({ env := v, agent := q.1, cols := [] }, d, .error e)
  | .ok last =>
    let start := max (last + 1) 0
    let x : Run V S C := { env := v, agent := A.setMode q.1 true, cols := mk (start * episodes) }
    let p := x.send on .preTraining
    match p.2 with
    | .error e => (p.1, d, .error e)
    | .ok () =>
      let r := runIterations G A Z on maxLen period episodes (iterations - start).toNat start p.1 d
      match r.2.2 with
      | .error e => (r.1, r.2.1, .error e)
      | .ok () =>
        let t := r.1.send on .endTraining
        (t.1, r.2.1, t.2)

end BLE
