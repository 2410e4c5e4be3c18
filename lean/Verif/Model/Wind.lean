import Verif.Model.Sampling
import Mathlib.Algebra.Order.Floor.Ring
import Mathlib.Data.List.FinRange

/-!
# Wind fields and wind noise

`BLE/env/wind_field.py`, `grid_based_wind_field.py`, `generative_wind_field.py`,
`simplex_wind_noise.py`, and the grids of `BLE/generative/vae.py`. Winds are pairs (u, v) in m/s,
positions in metres, elapsed times in microseconds. `float32` rounding of the interpolation points is
not modelled.
-/

namespace BLE

/-- `jax.random` as a parameter: keys and what is drawn from them. `split k n i` is the `i`-th of the
`n` keys returned by `jax.random.split(k, num=n)`. (`simplex_wind_noise.py:102, 112, 175`) -/
structure Jax (K : Type) where
  prngKey : ℤ → K
  split : K → ℕ → ℕ → K
  /-- a draw from `[0,1)` -/
  uniform : K → ℝ
  /-- four draws from `[0,1)` -/
  uniform4 : K → Fin 4 → ℝ
  /-- a draw from the beta distribution -/
  beta : K → ℝ
  /-- `choice k n` is an index below `n` -/
  choice : K → ℕ → ℕ
  /-- the outcome of the rejection loop `sampling.py:136-152` -/
  upwelling : K → ℝ

/-- `wind_field.py:39-51` — `WindVector`, `WindVector.add` (both operands wind vectors). -/
def windAdd (a b : ℝ × ℝ) : ℝ × ℝ := (a.1 + b.1, a.2 + b.2)

/-! ## Noise -/

/-- `simplex_wind_noise.py:30-37` — `HarmonicParameters`. -/
structure Harmonic where
  weight : ℝ
  xSpacing : ℝ
  ySpacing : ℝ
  pSpacing : ℝ
  tSpacing : ℝ

/-- `simplex_wind_noise.py:50-56` -/
noncomputable def uHarmonics : Fin 5 → Harmonic
  | 0 => ⟨0.1445, 702.269, 2116.987, 2587.802, 245.0⟩
  | 1 => ⟨0.2766, 1483.570, 752.124, 646.208, 16.39⟩
  | 2 => ⟨0.2627, 276.810, 147.040, 587.702, 3.836⟩
  | 3 => ⟨0.2137, 10214.525, 1512.216, 965.629, 41.780⟩
  | 4 => ⟨0.1025, 181.286, 420.942, 8500.0, 245.0⟩

/-- `simplex_wind_noise.py:58-64` -/
noncomputable def vHarmonics : Fin 5 → Harmonic
  | 0 => ⟨0.2716, 1974.228, 2028.814, 713.697, 26.435⟩
  | 1 => ⟨0.2684, 699.738, 541.845, 632.116, 9.530⟩
  | 2 => ⟨0.2348, 217.750, 196.522, 686.825, 3.546⟩
  | 3 => ⟨0.1186, 47.500, 43.048, 66.553, 8.424⟩
  | 4 => ⟨0.1066, 3663.291, 232.023, 7499.741, 225.0⟩

/-- `simplex_wind_noise.py:76` — `NOISE_MAGNITUDE`. -/
noncomputable def noiseMagnitude : ℝ := Real.sqrt (1.02 / 0.0569)

/-- `simplex_wind_noise.py:87-88, 102-114` — what a harmonic owns after `reset`: the seed of its
`OpenSimplex` generator and the four offsets. -/
structure HarmonicState where
  seed : ℕ
  offset : Fin 4 → ℝ

/-- `simplex_wind_noise.py:98-114` — `NoisyWindHarmonic.reset`. -/
noncomputable def harmonicReset {K : Type} (J : Jax K) (key : K) : HarmonicState :=
  { seed := J.choice key 1634753849, offset := fun i => J.uniform4 key i * 2 - 1 }

/-- The `OpenSimplex(seed).noise4d` function (external). (`simplex_wind_noise.py:107, 142-146`) -/
abbrev Noise4d := ℕ → ℝ → ℝ → ℝ → ℝ → ℝ

/-- `simplex_wind_noise.py:116-146` — `NoisyWindHarmonic.get_noise`; `none` is "never reset". -/
noncomputable def harmonicNoise (nz : Noise4d) (h : Harmonic) (x y p : ℝ) (t : ℤ) :
    Option HarmonicState → Except Err ℝ
  | none => .error .value
  | some s => .ok (noiseMagnitude * nz s.seed (x / 1000 / h.xSpacing + s.offset 0)
      (y / 1000 / h.ySpacing + s.offset 1) (p / h.pSpacing + s.offset 2)
      (hoursOf t / h.tSpacing + s.offset 3))

/-- The mutable part of a `NoisyWindComponent`: one optional state per harmonic. (`simplex_wind_noise.py:152-171`) -/
abbrev NoiseComp := Fin 5 → Option HarmonicState

/-- `simplex_wind_noise.py:173-178` — `NoisyWindComponent.reset` (`zip` of two lists of length 5). -/
noncomputable def compReset {K : Type} (J : Jax K) (key : K) (_ : NoiseComp) : NoiseComp :=
  fun i => some (harmonicReset J (J.split key 5 i))

/-- `simplex_wind_noise.py:195-204` — the accumulating loop: (weighted noise, total weight, total
squared weight). -/
noncomputable def noiseLoop (nz : Noise4d) (x y p : ℝ) (t : ℤ) :
    List (Harmonic × Option HarmonicState) → ℝ × ℝ × ℝ → Except Err (ℝ × ℝ × ℝ)
  | [], acc => .ok acc
  | h :: hs, (w, tw, tw2) =>
    match harmonicNoise nz h.1 x y p t h.2 with
    | .error e => .error e
    | .ok n => noiseLoop nz x y p t hs (w + n * h.1.weight, tw + h.1.weight, tw2 + h.1.weight ^ 2)

/-- `simplex_wind_noise.py:180-211` — `NoisyWindComponent.get_noise`. -/
noncomputable def compNoise (nz : Noise4d) (hs : Fin 5 → Harmonic) (c : NoiseComp) (x y p : ℝ) (t : ℤ) :
    Except Err ℝ := do
  let acc ← noiseLoop nz x y p t ((List.finRange 5).map fun i => (hs i, c i)) (0, 0, 0)
  let a ← pyDiv acc.1 acc.2.1
  let b ← pyDiv acc.2.1 acc.2.2
  return a * Real.sqrt b

/-- `wind_field.py:188-218` — `SimplexWindNoise`. -/
structure NoiseModel where
  u : NoiseComp
  v : NoiseComp

/-- `wind_field.py:191-193` — a noise model before any reset. -/
def NoiseModel.new : NoiseModel := { u := fun _ => none, v := fun _ => none }

/-- `wind_field.py:195-207` — `reset_wind_noise`. -/
noncomputable def NoiseModel.reset {K : Type} (J : Jax K) (key : K) (n : NoiseModel) : NoiseModel :=
  { u := compReset J (J.split key 2 0) n.u, v := compReset J (J.split key 2 1) n.v }

/-- `wind_field.py:209-218` — `get_wind_noise`. -/
noncomputable def NoiseModel.noise (nz : Noise4d) (n : NoiseModel) (x y p : ℝ) (t : ℤ) :
    Except Err (ℝ × ℝ) := do
  let a ← compNoise nz uHarmonics n.u x y p t
  let b ← compNoise nz vHarmonics n.v x y p t
  return (a, b)

/-! ## Abstract wind field -/

/-- `wind_field.py:54-145` — what a subclass of `WindField` provides; `W` is its mutable state.
`none` for `column` is "not overridden". -/
structure WindClass (K W : Type) where
  resetForecast : K → ℤ → W → W
  forecast : W → ℝ → ℝ → ℝ → ℤ → Except Err (ℝ × ℝ)
  column : Option (W → ℝ → ℝ → List ℝ → ℤ → Except Err (List (ℝ × ℝ)))

/-- State of a wind field object: subclass state and noise model (`wind_field.py:58-59`). -/
structure WindField (W : Type) where
  sub : W
  noise : NoiseModel

/-- `wind_field.py:113-123` — `WindField.reset`. -/
noncomputable def WindField.reset {K W : Type} (J : Jax K) (C : WindClass K W) (key : K) (date : ℤ)
    (w : WindField W) : WindField W :=
  { noise := w.noise.reset J (J.split key 2 0), sub := C.resetForecast (J.split key 2 1) date w.sub }

/-- `wind_field.py:89-111` — `get_forecast_column`: the base-class list comprehension unless
overridden. -/
def columnOf {K W : Type} (C : WindClass K W) (w : W) (x y : ℝ) (ps : List ℝ) (t : ℤ) :
    Except Err (List (ℝ × ℝ)) :=
  match C.column with
  | some f => f w x y ps t
  | none => ps.mapM fun p => C.forecast w x y p t

/-- `wind_field.py:125-145` — `get_ground_truth`. -/
noncomputable def groundTruth {K W : Type} (nz : Noise4d) (C : WindClass K W) (w : WindField W)
    (x y p : ℝ) (t : ℤ) : Except Err (ℝ × ℝ) := do
  let f ← C.forecast w.sub x y p t
  let n ← w.noise.noise nz x y p t
  return windAdd f n

/-- `wind_field.py:148-184` — `SimpleStaticWindField`. -/
noncomputable def staticWind (K : Type) : WindClass K Unit where
  resetForecast _ _ w := w
  forecast _ _ _ p _ :=
    if p < 8000 then .ok (10, 0)
    else if p < 10000 then .ok (0, 10)
    else if p < 12000 then .ok (-10, 0)
    else .ok (0, -10)
  column := none

/-! ## Grid wind field -/

/-- `BLE/generative/vae.py:26-38` — `FieldShape` (the parts used by the grid). -/
structure FieldShape where
  latlngSlices : ℕ
  pressureSlices : ℕ
  timeSlices : ℕ
  displacementKm : ℝ
  maxPressure : ℝ
  minPressure : ℝ
  horizonHours : ℕ

/-- `BLE/generative/vae.py:30-38` — defaults. -/
noncomputable def FieldShape.default : FieldShape :=
  { latlngSlices := 21, pressureSlices := 10, timeSlices := 9, displacementKm := 500,
    maxPressure := 14000, minPressure := 5000, horizonHours := 48 }

/-- `jnp.linspace(a, b, n)[i]` (external). (`vae.py:80-93`) -/
noncomputable def linspace (a b : ℝ) (n i : ℕ) : ℝ := a + i * (b - a) / ((n : ℝ) - 1)

/-- `vae.py:77-81` — `latlng_grid_points`. -/
noncomputable def FieldShape.latlngGrid (s : FieldShape) (i : ℕ) : ℝ :=
  linspace (-s.displacementKm) s.displacementKm s.latlngSlices i
/-- `vae.py:83-87` — `pressure_grid_points`. -/
noncomputable def FieldShape.pressureGrid (s : FieldShape) (i : ℕ) : ℝ :=
  linspace s.minPressure s.maxPressure s.pressureSlices i
/-- `vae.py:89-93` — `time_grid_points`; `dtype=int32` truncates. -/
noncomputable def FieldShape.timeGrid (s : FieldShape) (i : ℕ) : ℝ :=
  (⌊linspace 0 s.horizonHours s.timeSlices i⌋ : ℤ)

/-- `grid_based_wind_field.py:134-143` (and `generative_wind_field.py:177-186`) — `_boomerang`;
`int` truncates, `%` is floored. Non-zero `max_val`. -/
noncomputable def boomerang (t h : ℝ) : ℝ :=
  let cycle : ℤ := (if 0 ≤ t / h then ⌊t / h⌋ else ⌈t / h⌉) % 2
  let rem := t - h * ⌊t / h⌋
  if cycle % 2 = 0 then rem else h - rem

/-- `grid_based_wind_field.py:172-178` — the time coordinate. -/
noncomputable def timePosition (s : FieldShape) (t : ℤ) : ℝ :=
  if hoursOf t < s.horizonHours then hoursOf t else boomerang (hoursOf t) s.horizonHours

/-- One row of the point array: (x, y, pressure, time). (`grid_based_wind_field.py:180-187`) -/
structure GridPoint where
  x : ℝ
  y : ℝ
  p : ℝ
  t : ℝ

/-- `grid_based_wind_field.py:145-187` — `_prepare_get_forecast_inputs` for one pressure. -/
noncomputable def prepare (s : FieldShape) (x y p : ℝ) (t : ℤ) : GridPoint :=
  { x := clip (x / 1000) (-s.displacementKm) s.displacementKm
    y := clip (y / 1000) (-s.displacementKm) s.displacementKm
    p := clip p s.minPressure s.maxPressure
    t := timePosition s t }

/-- The cell used by `scipy.interpolate.interpn` (external): `searchsorted(grid, x) - 1` clamped to
`0 … n-2`. (`grid_based_wind_field.py:91-94`) -/
noncomputable def locate (g : ℕ → ℝ) (n : ℕ) (x : ℝ) : ℕ :=
  min (((List.range n).filter fun j => @decide (g j < x) (Classical.propDecidable _)).length - 1) (n - 2)

/-- Linear interpolation along one axis. (`grid_based_wind_field.py:91-94`) -/
noncomputable def interp1 (g : ℕ → ℝ) (n : ℕ) (vals : ℕ → ℝ) (x : ℝ) : ℝ :=
  let i := locate g n x
  let w := (x - g i) / (g (i + 1) - g i)
  (1 - w) * vals i + w * vals (i + 1)

/-- A stored field: one component at every grid node. (`grid_based_wind_field.py:56-68`) -/
abbrev GridField := ℕ → ℕ → ℕ → ℕ → ℝ × ℝ

/-- The point lies in the grid's box. (`grid_based_wind_field.py:91-94`) -/
def inGrid (s : FieldShape) (q : GridPoint) : Prop :=
  (s.latlngGrid 0 ≤ q.x ∧ q.x ≤ s.latlngGrid (s.latlngSlices - 1)) ∧
  (s.latlngGrid 0 ≤ q.y ∧ q.y ≤ s.latlngGrid (s.latlngSlices - 1)) ∧
  (s.pressureGrid 0 ≤ q.p ∧ q.p ≤ s.pressureGrid (s.pressureSlices - 1)) ∧
  (s.timeGrid 0 ≤ q.t ∧ q.t ≤ s.timeGrid (s.timeSlices - 1))

/-- Multilinear interpolation of one component (iterated form of the 16-corner sum).
(`grid_based_wind_field.py:91-94`) -/
noncomputable def interp4 (s : FieldShape) (f : ℕ → ℕ → ℕ → ℕ → ℝ) (q : GridPoint) : ℝ :=
  interp1 s.latlngGrid s.latlngSlices (fun i =>
    interp1 s.latlngGrid s.latlngSlices (fun j =>
      interp1 s.pressureGrid s.pressureSlices (fun k =>
        interp1 s.timeGrid s.timeSlices (f i j k) q.t) q.p) q.y) q.x

/-- `scipy.interpolate.interpn(grid, field, point)` with its default `bounds_error=True` (external,
modelled by its documentation): `ValueError` outside the grid, else multilinear interpolation.
(`grid_based_wind_field.py:91-94`) -/
noncomputable def interpn (s : FieldShape) (f : GridField) (q : GridPoint) : Except Err (ℝ × ℝ) :=
  if @decide (inGrid s q) (Classical.propDecidable _) then
    .ok (interp4 s (fun i j k l => (f i j k l).1) q, interp4 s (fun i j k l => (f i j k l).2) q)
  else .error .value

/-- `grid_based_wind_field.py:70-94` — `get_forecast`. -/
noncomputable def gridForecast (s : FieldShape) (field : Option GridField) (x y p : ℝ) (t : ℤ) :
    Except Err (ℝ × ℝ) :=
  match field with
  | none => .error .runtime
  | some f => interpn s f (prepare s x y p t)

/-- `grid_based_wind_field.py:96-132` — `get_forecast_column`: one `interpn` call on all points,
which raises if any of them is outside. -/
noncomputable def gridColumn (s : FieldShape) (field : Option GridField) (x y : ℝ) (ps : List ℝ) (t : ℤ) :
    Except Err (List (ℝ × ℝ)) :=
  match field with
  | none => .error .runtime
  | some f => (ps.map fun p => prepare s x y p t).mapM (interpn s f)

/-- `grid_based_wind_field.py:29-68` — `GridBasedWindField` with a sampler (`sample_field`, external);
the state is `self.field`, `none` before the first reset. `GenerativeWindField`
(`generative_wind_field.py:65-230`) has the same methods with the VAE sampler built in. -/
noncomputable def gridWind {K : Type} (s : FieldShape) (sample : K → ℤ → GridField) :
    WindClass K (Option GridField) where
  resetForecast key date _ := some (sample key date)
  forecast w x y p t := gridForecast s w x y p t
  column := some fun w x y ps t => gridColumn s w x y ps t

end BLE
