import Verif.Model.Wind

/-!
# The notebook that animates a wind field

`BLE/colab/BLE_Generative_Wind_Field.ipynb`: the frames of the animation. The sampler and the clock are parameters; the camera
(`elev`, `azim`), labels and the drawing of an arrow are not modelled.
-/

namespace BLE

/-- The globals that `frame` changes (apart from the camera); `field` is `wind_field.field`.
(`BLE_Generative_Wind_Field.ipynb:113-115, 127`) -/
structure WindAnim where
  field : GridField
  timeStep : ℤ
  direction : ℤ
  episode : ℤ

/-- One arrow of `quiver`: where it is drawn (km, km, Pa) and the wind it shows. (`BLE_Generative_Wind_Field.ipynb:131-132`) -/
structure Arrow where
  x : ℝ
  y : ℝ
  p : ℝ
  wind : ℝ × ℝ

/-- `BLE_Generative_Wind_Field.ipynb:107-110, 127-132` — the arrow with indices `i < 21`, `j < 21`, `k < 10` of the time slice `l`.
`np.meshgrid` (external) has `indexing='xy'` by default: its first argument varies along the second axis. -/
noncomputable def drawnArrow (f : GridField) (l i j k : ℕ) : Arrow :=
  { x := linspace (-150) 150 21 j, y := linspace (-150) 150 21 i, p := linspace 5000 14000 10 k, wind := f i j k l }

/-- Indexing an axis of length 9: negative indices count from the end, others raise `IndexError`.
(`BLE_Generative_Wind_Field.ipynb:127-128`) -/
def timeIndex (t : ℤ) : Except Err ℕ :=
  if t < -9 ∨ 9 ≤ t then .error .index else if t < 0 then .ok (t + 9).toNat else .ok t.toNat

/-- `BLE_Generative_Wind_Field.ipynb:121-151` — `frame`: the arrows drawn and the globals afterwards; `now` is the clock. -/
noncomputable def windFrame {K : Type} (prngKey : ℤ → K) (sample : K → ℤ → GridField) (now : ℤ) (a : WindAnim) :
    Except Err (WindAnim × (ℕ → ℕ → ℕ → Arrow)) := do
  let l ← timeIndex a.timeStep
  let t := a.timeStep + a.direction
  let a' : WindAnim :=
    if t = 9 then { a with timeStep := 7, direction := -1, episode := a.episode + 1 }
    else if t = -1 then
      { field := sample (prngKey (a.episode + 1)) now, timeStep := 1, direction := 1, episode := a.episode + 1 }
    else { a with timeStep := t }
  return (a', drawnArrow a.field l)

/-- `BLE_Generative_Wind_Field.ipynb:92-94, 113-115` — before the first frame: the field sampled with key 0. -/
noncomputable def windAnimStart {K : Type} (prngKey : ℤ → K) (sample : K → ℤ → GridField) (now : ℤ) : WindAnim :=
  { field := sample (prngKey 0) now, timeStep := 0, direction := 1, episode := 0 }

/-- `BLE_Generative_Wind_Field.ipynb:153` — the globals after `n` calls of `frame` by `FuncAnimation`; `now m` is the clock at call `m`. -/
noncomputable def windAnimAfter {K : Type} (prngKey : ℤ → K) (sample : K → ℤ → GridField) (now : ℕ → ℤ) (a : WindAnim) :
    ℕ → Except Err WindAnim
  | 0 => .ok a
  | n + 1 => do
    let b ← windAnimAfter prngKey sample now a n
    let r ← windFrame prngKey sample (now n) b
    return r.1

end BLE
