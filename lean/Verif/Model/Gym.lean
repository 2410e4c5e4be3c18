import Mathlib.Logic.Function.Basic
import Mathlib.Data.List.Induction

/-!
# Registration with gym (`env/gym.py`, `__init__.py`, entry points of `setup.py`)

Gym itself is not modelled beyond the registry that `register_env` talks to: a dictionary from ids to entry points, the
namespace in force (gym 0.21 only), and a count of the warnings given for registering an id twice.
-/

namespace BLE

/-- The state of `gym.envs.registration` as `env/gym.py:26-40` uses it. -/
structure GymRegistry where
  /-- `registry.env_specs`: entry point by id. -/
  specs : String → Option String
  /-- The namespace in force. -/
  ns : Option String
  /-- Whether the module has an attribute `namespace` (`env/gym.py:38`). -/
  hasNamespace : Bool
  /-- Warnings given for overriding an environment. -/
  warnings : ℕ

/-- The id under which gym enters an environment: gym 0.21 puts the namespace in force in front. (Used by
`env/gym.py:40`.) -/
def GymRegistry.fullId (g : GymRegistry) (id : String) : String :=
  match g.ns with
  | none => id
  | some n => n ++ "/" ++ id

/-- `registration.register(id, entry_point)`, called at `env/gym.py:40`: enters the environment, with a warning if there is one
of that id already. -/
def GymRegistry.register (g : GymRegistry) (id entry : String) : GymRegistry :=
  { g with specs := Function.update g.specs (g.fullId id) (some entry)
           warnings := if (g.specs (g.fullId id)).isSome then g.warnings + 1 else g.warnings }

/-- `env/gym.py:28` — `env_id`. -/
def bleEnvId : String := "BalloonLearningEnvironment-v0"
/-- `env/gym.py:29` — `env_entry_point`. -/
def bleEntryPoint : String := "balloon_learning_environment.env.balloon_env:BalloonEnv"

/-- `env/gym.py:20-40` — `register_env`; the namespace entered on the exit stack is left again at its end. -/
def registerEnv (g : GymRegistry) : GymRegistry :=
  let registered := (g.specs bleEnvId).isSome
  if registered then g
  else if g.hasNamespace then { ({ g with ns := none }).register bleEnvId bleEntryPoint with ns := g.ns }
  else g.register bleEnvId bleEntryPoint

/-- What happens to the registry: `register_env` is called (`__init__.py:21` at import, `setup.py:87-91` by gym's plugin
loader), or some other package registers an environment, in either case inside some namespace or none. -/
inductive GymEvent where
  | ours (ns : Option String)
  | other (ns : Option String) (id entry : String)

/-- One event; without namespaces in gym (`env/gym.py:38`) there is none to be in. -/
def GymRegistry.event (g : GymRegistry) : GymEvent → GymRegistry
  | .ours n => { registerEnv { g with ns := if g.hasNamespace then n else none } with ns := g.ns }
  | .other n id entry => { ({ g with ns := if g.hasNamespace then n else none }).register id entry with ns := g.ns }

end BLE
