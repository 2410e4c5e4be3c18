import Verif.Model.Train
import Verif.Model.Commands

/-!
# The training command and what its collectors leave on disk

`BLE/train.py`, `BLE/train_lib.py:27-37`, the constructors of `BLE/metrics/`. As in the evaluation command, the command line,
gin, gym's registry and the constructors of environment and agent are parameters. What a collector writes is taken to reach the
disk. If a collector is named twice its two objects write to the same files; the model keeps what the last one wrote.
-/

namespace BLE

/-- The collector classes. (`collector_dispatcher.py:52-56`) -/
inductive CollectorClass
  | console | pickle | tensorboard
  deriving DecidableEq, Repr

/-- `collector_dispatcher.py:52-56` — `AVAILABLE_COLLECTORS`. -/
def availableCollectors : List (String × CollectorClass) :=
  [("console", .console), ("pickle", .pickle), ("tensorboard", .tensorboard)]

/-- `train_lib.py:27-37` — `get_collector_data`. -/
def collectorData (names : List String) : List CollectorClass := names.filterMap fun c => availableCollectors.lookup c

/-- What gin may set of the collectors. (`console_collector.py:29-31`, `tensorboard_collector.py:22-23`) -/
structure CollectorCfg where
  consoleFine : Bool
  consoleFrequency : ℤ
  saveToFile : Bool
  boardFine : Bool
  boardFrequency : ℤ

/-- What the collectors of a run have left in its directory: `metrics/console/console.log`, `metrics/pickle/pickle_{n}.pkl` and the
event files in `metrics/tensorboard`. (`console_collector.py:42-44`, `pickle_collector.py:52-55`, `tensorboard_collector.py:41`) -/
structure Records where
  consoleLog : Option (List Line)
  pickles : ℤ → Option (List Stat)
  points : List (Curve × ℝ × ℤ)

/-- The constructors, with a directory to write to (`collector.py:42-59`, `console_collector.py:35-48`, `pickle_collector.py:29-35`,
`tensorboard_collector.py:28-41`). A `SummaryWriter` adds to what is in its directory. -/
def newCollector (g : CollectorCfg) (r : Records) (numActions : ℕ) (episode : ℤ) : CollectorClass → Obj
  | .console => .console { numActions := numActions, episode := episode, fine := g.consoleFine, frequency := g.consoleFrequency
                           counts := none, log := [], file := g.saveToFile, logFile := none }
  | .pickle => .pickle { episode := episode, stats := none, files := r.pickles }
  | .tensorboard => .tensorboard { episode := episode, fine := g.boardFine, frequency := g.boardFrequency, globalStep := none
                                   reward := none, points := r.points }

/-- The records after one collector's work. (`console_collector.py:53-55`, `pickle_collector.py:48-56`) -/
def Records.update (r : Records) : Obj → Records
  | .console c => match c.logFile with
    | some l => { r with consoleLog := some l }
    | none => r
  | .pickle c => { r with pickles := c.files }
  | .tensorboard c => { r with points := c.points }

/-- The records after the work of all collectors. (`collector_dispatcher.py:65-69`) -/
def Records.after (r : Records) (cs : List Obj) : Records := cs.foldl Records.update r

/-- `train.py:31-66` — the flags, without the base directory. -/
structure TrainFlags where
  agent : String
  envName : String
  wind : String
  ginFile : Option String
  bindings : List String
  collectors : List String
  run : ℤ
  iterations : ℤ
  maxLen : ℤ
  episodes : ℤ
  renderer : Option String
  renderPeriod : ℤ

/-- What a training process finds on its machine, besides what an evaluation finds: gym's registry, the collectors' configuration,
the agents' checkpointing, and the picture `render(mode='rgb_array')` returns. (`train.py:74-109`) -/
structure Trainer (Γ V S D I : Type) extends Machine Γ V S where
  registered : String → Bool
  collectors : Γ → CollectorCfg
  saver : Γ → AgentClass → Saver S D
  picture : Γ → WindKind → Bool → V → Option I

/-- The base directory: records and checkpoints of every run, and `balloon_path.png`. (`train.py:94, 105-109`) -/
structure TrainDisk (D I : Type) where
  runs : List Char → Records × D
  image : Option I

variable {Γ V S D I : Type}

/-- `train.py:76-92` — configuration, wind field, renderer, environment and agent. gym's error for an unknown environment is
`gym.error.Error`, here a `ValueError`. -/
def trainSetup (M : Trainer Γ V S D I) (fl : TrainFlags) : Except Err (Γ × WindKind × Bool × AgentClass × V × S) :=
  match bindGin M.toMachine fl.agent fl.ginFile fl.bindings [] with
  | .error e => .error e
  | .ok g =>
    match rendererFlag fl.renderer with
    | .error e => .error e
    | .ok r =>
      match windFactory fl.wind with
      | .error e => .error e
      | .ok w =>
        if M.registered fl.envName then
          match M.makeEnv g w r with
          | .error e => .error e
          | .ok v =>
            match agentConstructor M.acme fl.agent with
            | .error e => .error e
            | .ok k =>
              match M.makeAgent g k v with
              | .error e => .error e
              | .ok s => .ok (g, w, r, k, v, s)
        else .error .value

/-- `train.py:73-109` — `main`. There are three actions (`balloon_env.py:262-264`). -/
noncomputable def trainMain (M : Trainer Γ V S D I) (fl : TrainFlags) (d : TrainDisk D I) : TrainDisk D I × Except Err Unit :=
  match trainSetup M fl with
  | .error e => (d, .error e)
  | .ok (g, w, r, k, v, s) =>
    let dir := runDir fl.agent fl.run
    let q := runTraining (M.gym g w r) (M.agent g k) (M.saver g k) Obj.on
      (fun ep => (collectorData fl.collectors).map (newCollector (M.collectors g) (d.runs dir).1 3 ep))
      fl.maxLen fl.renderPeriod fl.episodes fl.iterations v s (d.runs dir).2
    let d1 : TrainDisk D I := { d with runs := Function.update d.runs dir ((d.runs dir).1.after q.1.cols, q.2.1) }
    match q.2.2 with
    | .error e => (d1, .error e)
    | .ok () =>
      ({ d1 with image := match M.picture g w r q.1.env with
          | some i => some i
          | none => d1.image }, .ok ())

end BLE
