import Verif.Model.Eval

/-!
# The notebook that shows flight paths

`BLE/colab/BLE_view_flight_paths.ipynb`: flying the agents and the curves that are drawn. Each agent has an environment of its own
(`:90-96`), here used through its own methods without `gym`'s wrappers; drawing apart from the lengths of the curves is not
modelled, nor is the call of `end_episode` (`:153`), after which nothing is recorded.
-/

namespace BLE

variable {K W Rd S : Type}

/-- One entry of `flight_paths[agent_name]`: position and altitude in km, charge in percent. (`BLE_view_flight_paths.ipynb:143-144`) -/
structure ViewPoint where
  x : ℝ
  y : ℝ
  altitude : ℝ
  charge : ℝ

/-- `BLE_view_flight_paths.ipynb:141-144` — the entry for one state. -/
noncomputable def viewPoint (α : ℝ) (b : BState) : Except Err ViewPoint := do
  let air ← atPressure α b.pressure
  let soc ← b.soc
  return { x := b.x / 1000, y := b.y / 1000, altitude := air.height / 1000, charge := soc * 100 }

/-- `sim_state.atmosphere` (`BLE_view_flight_paths.ipynb:138, 141`). -/
def Env.air (v : Env K W Rd) : ℝ := v.arena.heap.atms v.arena.atm

/-- `BLE_view_flight_paths.ipynb:133-151` — the loop with `n` steps left and `step_count` equal to `k`; the entries with the times that
are kept beside those of the first agent. -/
noncomputable def viewLoop (c : EnvCfg K W Rd) (A : Agent S) (skip : ℕ) :
    ℕ → Env K W Rd → S → ℤ → ℕ → Except Err (List (ViewPoint × ℤ))
  | 0, _, _, _, _ => .ok []
  | n + 1, v, s, action, k => do
    let out ← (v.step c action).2
    let action' ← (A.step s out.reward out.obs).2
    let b ← (balloonEnv c).balloon (v.step c action).1
    let here ←
      if skip = 0 then .error .zeroDivision
      else if k % skip = 0 then (viewPoint (v.step c action).1.air b).map fun p => [(p, b.dateTime)]
      else .ok []
    let rest ←
      if out.terminal then .ok []
      else viewLoop c A skip n (v.step c action).1 (A.step s out.reward out.obs).1 action' (k + 1)
    return here ++ rest

/-- `BLE_view_flight_paths.ipynb:126-151` — the flight of one agent: after seeding, the environment is reset and the episode begun
twice. -/
noncomputable def viewFlight (c : EnvCfg K W Rd) (A : Agent S) (seed : ℤ) (numSteps skip : ℕ) (v : Env K W Rd) (s : S) :
    Except Err (List (ViewPoint × ℤ)) := do
  let v0 := v.seed c seed
  let o0 ← (v0.reset c none).2
  let _ ← (A.beginEpisode s o0.1).2
  let v1 := (v0.reset c none).1
  let o1 ← (v1.reset c none).2
  let s1 := (A.beginEpisode s o0.1).1
  let action ← (A.beginEpisode s1 o1.1).2
  viewLoop c A skip numSteps (v1.reset c none).1 (A.beginEpisode s1 o1.1).1 action 0

/-- `BLE_view_flight_paths.ipynb:275-277` — the charge curves of one frame: `ax.plot(x, y)` raises `ValueError` for lists of different
lengths (external). -/
def chargeCurves (times : List ℤ) (paths : List (List ViewPoint)) (curr : ℕ) : Except Err (List (List (ℤ × ℝ))) :=
  paths.mapM fun path =>
    if (times.take curr).length = (path.take curr).length then .ok ((times.take curr).zip ((path.take curr).map (·.charge)))
    else .error .value

end BLE
