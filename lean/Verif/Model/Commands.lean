import Verif.Model.Eval
import Verif.Model.Suites

/-!
# The evaluation command

`BLE/eval/eval.py`, `BLE/utils/run_helpers.py`, `BLE/agents/agent_registry.py`, and the directory of a run of
`BLE/train.py`. Parsing of the command line (absl), gin, the constructors of environment and agent and the loading of a
checkpoint are parameters. Creating the output directory and writing the file are taken to succeed.
-/

namespace BLE

/-- The agent classes of the registry. (`agent_registry.py:40-54`) -/
inductive AgentClass
  | random | mlp | dqn | perciatelli44 | quantile | stationSeeker | randomWalk | acmeEval
  deriving DecidableEq, Repr

/-- `agent_registry.py:39` — `BASE_DIR`. -/
def configDir : String := "balloon_learning_environment/agents/configs"

/-- `agent_registry.py:40-57` — `REGISTRY`; `acme` says whether the acme dependencies are installed. -/
def registry (acme : Bool) : List (String × AgentClass × Option String) :=
  [("random", .random, none), ("mlp", .mlp, some (configDir ++ "/mlp.gin")), ("dqn", .dqn, some (configDir ++ "/dqn.gin")),
   ("perciatelli44", .perciatelli44, none), ("quantile", .quantile, some (configDir ++ "/quantile.gin")),
   ("finetune_perciatelli", .quantile, some (configDir ++ "/finetune_perciatelli.gin")),
   ("station_seeker", .stationSeeker, none), ("random_walk", .randomWalk, none)] ++
  if acme then [("acme_eval_agent", .acmeEval, none)] else []

/-- `agent_registry.py:62-69` — `agent_constructor` (both messages are `ValueError`s). -/
def agentConstructor (acme : Bool) (name : String) : Except Err AgentClass :=
  match (registry acme).lookup name with
  | none => .error .value
  | some e => .ok e.1

/-- `agent_registry.py:72-75` — `get_default_gin_config`. (`run_helpers.create_agent`, `:49-52`, calls the constructor that the
registry has for the name.) -/
def defaultGin (acme : Bool) (name : String) : Except Err (Option String) :=
  match (registry acme).lookup name with
  | none => .error .value
  | some e => .ok e.2

/-- `run_helpers.py:30-46` — `get_agent_gin_file`. -/
def agentGinFile (acme : Bool) (name : String) (file : Option String) : Except Err (Option String) :=
  match file with
  | none => defaultGin acme name
  | some f => .ok (some f)

/-- The wind field factories. (`run_helpers.py:67-70`) -/
inductive WindKind
  | simple | generative
  deriving DecidableEq, Repr

/-- `run_helpers.py:55-72` — `get_wind_field_factory`. -/
def windFactory (name : String) : Except Err WindKind :=
  if name = "simple" then .ok .simple else if name = "generative" then .ok .generative else .error .value

/-- `eval.py:70-72, 107-109` — whether a renderer is made; an unknown name is a `KeyError`. -/
def rendererFlag (name : Option String) : Except Err Bool :=
  match name with
  | none => .ok false
  | some n => if n = "matplotlib" then .ok true else .error .key

/-- `eval.py:34-67` — the flags. -/
structure EvalFlags where
  agent : String
  suite : String
  wind : String
  ginFile : Option String
  bindings : List String
  numShards : ℕ
  shardIdx : ℕ
  checkpointDir : Option String
  checkpointIdx : Option ℕ
  nameOverride : Option String
  renderer : Option String
  renderPeriod : ℤ

/-- What a process finds on its machine: the packages installed, gin (its result is the configuration in force), and the
constructors. `V` are environment objects, `S` agent objects. (`eval.py:99-132`) -/
structure Machine (Γ V S : Type) where
  acme : Bool
  parseGin : List String → List String → Except Err Γ
  makeEnv : Γ → WindKind → Bool → Except Err V
  gym : Γ → WindKind → Bool → GymEnv V
  makeAgent : Γ → AgentClass → V → Except Err S
  agent : Γ → AgentClass → Agent S
  load : Γ → AgentClass → String → ℕ → S → Except Err S

variable {Γ V S : Type}

/-- `run_helpers.py:75-106` — `bind_gin_variables`. -/
def bindGin (M : Machine Γ V S) (agent : String) (file : Option String) (bindings more : List String) : Except Err Γ :=
  match agentGinFile M.acme agent file with
  | .error e => .error e
  | .ok f => M.parseGin (f.toList ++ more) bindings

/-- `eval.py:103-121` — everything before the suite is looked up: the configuration, the wind field, whether there is a renderer, the class of the
agent, the environment and the agent. -/
def evalSetup (M : Machine Γ V S) (fl : EvalFlags) : Except Err (Γ × WindKind × Bool × AgentClass × V × S) :=
  match bindGin M fl.agent fl.ginFile fl.bindings [] with
  | .error e => .error e
  | .ok g =>
    match rendererFlag fl.renderer with
    | .error e => .error e
    | .ok r =>
      match windFactory fl.wind with
      | .error e => .error e
      | .ok w =>
        match M.makeEnv g w r with
        | .error e => .error e
        | .ok v =>
          match agentConstructor M.acme fl.agent with
          | .error e => .error e
          | .ok k =>
            match M.makeAgent g k v with
            | .error e => .error e
            | .ok s =>
              match fl.checkpointDir, fl.checkpointIdx with
              | some d, some i =>
                match M.load g k d i s with
                | .error e => .error e
                | .ok s' => .ok (g, w, r, k, v, s')
              | _, _ => .ok (g, w, r, k, v, s)

/-- `eval.py:103-131` — the results of the evaluation. -/
noncomputable def evalResults (M : Machine Γ V S) (fl : EvalFlags) : Except Err (List EvalResult) :=
  match evalSetup M fl with
  | .error e => .error e
  | .ok (g, w, r, k, v, s) =>
    match getEvalSuite importSuites.2 importSuites.1 fl.suite with
    | (_, .error e) => .error e
    | (h, .ok su) =>
      (evalAgent (M.gym g w r) (M.agent g k) ⟨shard (h.val su.seeds) fl.shardIdx fl.numShards, su.maxLen⟩ fl.renderPeriod true
        v s).2.2

/-- The output directory: one subdirectory per suite. (`eval.py:88-94`) -/
abbrev Output := String → Dir

/-- `eval.py:77-89` — the name of the result file. -/
def EvalFlags.file (fl : EvalFlags) : Name :=
  resultFile (resultName (fl.nameOverride.map String.toList) fl.agent.toList fl.checkpointIdx) fl.shardIdx fl.numShards

/-- `eval.py:75-96` — `write_result`. -/
def writeResult (fl : EvalFlags) (rs : List EvalResult) (o : Output) : Output :=
  fun d => if d = fl.suite then (o d).write fl.file rs else o d

/-- `eval.py:99-132` — `main` (without the complaint about stray arguments). -/
noncomputable def evalMain (M : Machine Γ V S) (fl : EvalFlags) (o : Output) : Output × Except Err Unit :=
  match evalResults M fl with
  | .error e => (o, .error e)
  | .ok rs => (writeResult fl rs o, .ok ())

/-- `train.py:94` — the directory of a training run below `--base_dir`: agent and run number. -/
def runDir (agent : String) (run : ℤ) : List Char := agent.toList ++ '/' :: (toString run).toList

end BLE
