import Verif.Model.Env

/-!
# The matplotlib renderer

`BLE/env/rendering/matplotlib_renderer.py`. The figure is represented by what is drawn on it (`Frame`); how matplotlib turns
it into pixels is not modelled. The summary writer of mode `tensorboard` is never passed by `BalloonEnv.render`
(`balloon_env.py:247`) and is left out.
-/

namespace BLE

/-- `matplotlib_renderer.py:64-67` — the three lists of the renderer: positions (km), charge (%) and dates. -/
structure Plot where
  trajectory : List (ℝ × ℝ × ℝ)
  charge : List ℝ
  datetime : List ℤ

/-- What is drawn: the flight path with its marker at the last position (`matplotlib_renderer.py:127-179, 192-207`) and the
power curve with ticks at its first and last date (`matplotlib_renderer.py:181-190`). -/
structure Frame where
  path : List (ℝ × ℝ × ℝ)
  marker : ℝ × ℝ × ℝ
  power : List (ℤ × ℝ)
  ticks : ℤ × ℤ

/-- `matplotlib_renderer.py:123-125` — `render_modes`, also the `render.modes` of the environment
(`balloon_env.py:150-152`). -/
def renderModes : List String := ["human", "rgb_array", "tensorboard"]

/-- `matplotlib_renderer.py:64-67` — `reset`. -/
def Plot.reset (_ : Plot) : Plot := { trajectory := [], charge := [], datetime := [] }

/-- `matplotlib_renderer.py:69-77` — `step`: the altitude is looked up before anything is appended. -/
noncomputable def Plot.step (α : ℝ) (b : BState) (p : Plot) : Plot × Except Err Unit :=
  match atPressure α b.pressure with
  | .error e => (p, .error e)
  | .ok a =>
    ({ trajectory := p.trajectory ++ [(b.x / 1000, b.y / 1000, a.height / 1000)]
       charge := p.charge ++ [b.charge / b.cap * 100]
       datetime := p.datetime ++ [b.dateTime] }, .ok ())

/-- `matplotlib_renderer.py:79-121` — `render`: an unsupported mode is refused; `np.vstack` raises `ValueError` and indexing
raises `IndexError` on empty lists; only mode `rgb_array` returns the frame. -/
def Plot.render (mode : String) (p : Plot) : Except Err (Option Frame) :=
  if mode ∉ renderModes then .error .value
  else match p.trajectory.getLast? with
    | none => .error .value
    | some m =>
      match p.datetime.head?, p.datetime.getLast? with
      | some d0, some d1 =>
        .ok (if mode = "rgb_array" then
          some { path := p.trajectory, marker := m, power := p.datetime.zip p.charge, ticks := (d0, d1) } else none)
      | _, _ => .error .index

/-- The renderer as `BalloonEnv` uses it (`balloon_env.py:174-175, 216-218, 244-247`). Simplification: an exception in
`step` (pressure outside the atmosphere table) does not abort the environment's step here; the theorems assume or prove
that it does not occur. -/
noncomputable def mplRenderer {W : Type} : Renderer W Plot where
  reset := Plot.reset
  step p b _ α := (p.step α b).1
  render p := p

/-- `balloon_env.py:228-247` — the result of `BalloonEnv.render(mode)`. -/
def Env.image {K W : Type} (v : Env K W Plot) (mode : String) : Except Err (Option Frame) :=
  match v.renderer with
  | none => .ok none
  | some p => p.render mode

end BLE
