import Mathlib.Data.Sign.Basic
import Mathlib.Analysis.SpecialFunctions.Log.Basic
import Mathlib.Analysis.SpecialFunctions.Trigonometric.Basic
import Verif.Model.Generative
import Verif.Model.WindColumn

/-!
# The variational autoencoder of the wind generator

`BLE/generative/vae.py` (sizes, encoder, decoder network, `WindFieldVAE`), the losses and `evaluation` of
`BLE/generative/learn_wind_field_generator.py`.

Vectors are functions on ℕ of which the first entries count; kernels and biases are given by the layers' names.
Simplified: flax's shape checks other than those modelled by `reshape` are not modelled; `jax.random.normal` is a parameter.
-/

namespace BLE

/-! ## Sizes -/

/-- `vae.py:40-44` — `direction_grid_shape`. -/
def FieldShape.directionGridShape (s : FieldShape) : List ℕ := [s.latlngSlices, s.latlngSlices, s.pressureSlices, s.timeSlices]

/-- `vae.py:46-51` — `grid_shape`. -/
def FieldShape.gridShape (s : FieldShape) : List ℕ := [s.latlngSlices, s.latlngSlices, s.pressureSlices, s.timeSlices, 2]

/-- `vae.py:53-57` — `num_grid_points`. -/
def FieldShape.numGridPoints (s : FieldShape) : ℕ := s.latlngSlices * s.latlngSlices * s.pressureSlices * s.timeSlices

/-- `vae.py:59-64` — `output_length`. -/
def FieldShape.outputLength (s : FieldShape) : ℕ := 2 * s.numGridPoints

/-- `vae.py:71-75` — `num_flow_field_units`. -/
def FieldShape.numFlowFieldUnits (s : FieldShape) : ℕ := flowWidth * flowWidth * s.numFlowFields

/-- An array of the given shape, flattened in C order, can be given another shape iff the sizes agree; otherwise
`reshape` raises `TypeError`. (`vae.py:149-151, 182-183`) -/
def reshape (size : ℕ) (shape : List ℕ) : Except Err Unit := if size = shape.prod then .ok () else .error .type

/-! ## Layers -/

/-- The parameters of one `nn.Dense`. (`vae.py:126, 129-130, 143, 145`) -/
structure DenseParams where
  kernel : ℕ → ℕ → ℝ
  bias : ℕ → ℝ

/-- `nn.Dense` on `d` inputs. (`vae.py:126, 129-130, 143, 145`) -/
noncomputable def DenseParams.apply (p : DenseParams) (d : ℕ) (x : ℕ → ℝ) (j : ℕ) : ℝ :=
  ∑ i ∈ Finset.range d, x i * p.kernel i j + p.bias j

/-- `vae.py:125-127`, `142-144` — the hidden layers `first, …, first + k - 1` of width `h` with ReLU, on `d` inputs. -/
noncomputable def reluStack (layers : ℕ → DenseParams) (h : ℕ) : ℕ → ℕ → ℕ → (ℕ → ℝ) → ℕ → ℝ
  | 0, _, _, x => x
  | k + 1, first, d, x => reluStack layers h k (first + 1) h fun j => max ((layers first).apply d x j) 0

/-- `vae.py:107-113` — `_squash` (with the default cap). -/
noncomputable def vaeSquash (x : ℝ) : ℝ := (SignType.sign x : ℝ) * |x| / (50 + |x|)

/-- `vae.py:119-120`, `136-137` — number and width of the hidden layers. -/
def vaeHidden : ℕ := 3

/-- `vae.py:120, 137` -/
def vaeWidth : ℕ := 1000

/-- The trainable parameters of `WindFieldVAE`. (`vae.py:122-130, 140-145, 196-199`) -/
structure VaeParams where
  enc : ℕ → DenseParams
  mean : DenseParams
  logvar : DenseParams
  dec : ℕ → DenseParams
  sigma : ℝ

/-- `vae.py:96-98` — `EncoderOutput`. -/
structure EncoderOutput where
  mean : ℕ → ℝ
  logvar : ℕ → ℝ

/-- `vae.py:116-131` — `Encoder.__call__` on `d` entries. -/
noncomputable def vaeEncode (p : VaeParams) (d : ℕ) (x : ℕ → ℝ) : EncoderOutput :=
  let y := reluStack p.enc vaeWidth vaeHidden 0 d fun i => vaeSquash (x i)
  { mean := p.mean.apply vaeWidth y, logvar := p.logvar.apply vaeWidth y }

/-- `vae.py:134-186` — `Decoder.__call__` for a field shape, on `latents` entries; also returns the shape of the array. -/
noncomputable def vaeDecode (p : VaeParams) (s : FieldShape) (latents : ℕ) (z : ℕ → ℝ) : Except Err (List ℕ × GridField) :=
  let y := (p.dec vaeHidden).apply vaeWidth (reluStack p.dec vaeWidth vaeHidden 0 latents z)
  match reshape s.numFlowFieldUnits [flowWidth, flowWidth, s.numFlowFields] with
  | .error e => .error e
  | .ok () =>
    match reshape (s.latlngSlices * s.latlngSlices * s.numFlowFields) s.directionGridShape with
    | .error e => .error e
    | .ok () => .ok (s.directionGridShape ++ [2], decode s y)

/-! ## The autoencoder -/

/-- `vae.py:192-194` — the fields of `WindFieldVAE`. -/
structure VaeConfig where
  numLatents : ℕ
  reparameterize : Bool
  fieldShape : FieldShape

/-- `vae.py:223-224` — `model()`: the defaults. -/
noncomputable def vaeModel : VaeConfig := { numLatents := 64, reparameterize := true, fieldShape := FieldShape.default }

/-- `vae.py:101-104` — `VAEOutput`. -/
structure VaeOutput where
  shape : List ℕ
  reconstruction : GridField
  encoderOutput : EncoderOutput
  sigma : ℝ

/-- `vae.py:215-220` — `_reparameterize`; `eps` are the normal variates. -/
noncomputable def reparameterize (eps mean logvar : ℕ → ℝ) (i : ℕ) : ℝ := mean i + eps i * Real.exp (0.5 * logvar i)

/-- The entries of a field as `ravel()` lists them. (`vae.py:124`) -/
def ravel (s : FieldShape) (f : GridField) (m : ℕ) : ℝ :=
  let q := m / 2
  let w := f (q / s.timeSlices / s.pressureSlices / s.latlngSlices) (q / s.timeSlices / s.pressureSlices % s.latlngSlices)
    (q / s.timeSlices % s.pressureSlices) (q % s.timeSlices)
  if m % 2 = 0 then w.1 else w.2

/-- `vae.py:196-210` — `setup` and `__call__` on a flattened field of `d` entries. The decoder is built without arguments. -/
noncomputable def vaeCall {K : Type} (normal : K → ℕ → ℝ) (c : VaeConfig) (p : VaeParams) (d : ℕ) (x : ℕ → ℝ) (rng : K) :
    Except Err VaeOutput :=
  let e := vaeEncode p d x
  let z := if c.reparameterize then reparameterize (normal rng) e.mean e.logvar else e.mean
  match vaeDecode p FieldShape.default c.numLatents z with
  | .error err => .error err
  | .ok y => .ok { shape := y.1, reconstruction := y.2, encoderOutput := e, sigma := p.sigma }

/-- `vae.py:212-213` — `generate`. -/
noncomputable def vaeGenerate (c : VaeConfig) (p : VaeParams) (z : ℕ → ℝ) : Except Err (List ℕ × GridField) :=
  vaeDecode p FieldShape.default c.numLatents z

/-! ## Losses -/

/-- `mean_square_error` of two fields. (`learn_wind_field_generator.py:100-101, 130, 171`) -/
noncomputable def fieldError (s : FieldShape) (reconstructed original : GridField) : ℝ :=
  meanSquareError (n := s.outputLength) (fun m => ravel s reconstructed m) fun m => ravel s original m

/-- `kl_divergence` of the first `n` latents. (`learn_wind_field_generator.py:96-97, 131, 172-173`) -/
noncomputable def latentDivergence (n : ℕ) (e : EncoderOutput) : ℝ :=
  klDivergence (n := n) (fun i => e.mean i) fun i => e.logvar i

/-- `learn_wind_field_generator.py:133-134` — `combined_loss`. -/
noncomputable def combinedLoss (klWeight mse kld sigma : ℝ) : ℝ :=
  0.5 / sigma ^ 2 * mse + Real.log (sigma * Real.sqrt (2 * Real.pi)) + klWeight * kld

/-- `learn_wind_field_generator.py:118-135` — `_loss_fn` on a field. -/
noncomputable def vaeLoss {K : Type} (normal : K → ℕ → ℝ) (klWeight : ℝ) (p : VaeParams) (x : GridField) (rng : K) :
    Except Err ℝ :=
  match vaeCall normal vaeModel p FieldShape.default.outputLength (ravel FieldShape.default x) rng with
  | .error e => .error e
  | .ok y => .ok (combinedLoss klWeight (fieldError FieldShape.default y.reconstruction x) (latentDivergence 64 y.encoderOutput) y.sigma)

/-- `learn_wind_field_generator.py:193-199` — the metrics returned by `evaluation`. -/
structure VaeMetrics where
  kld : ℝ
  mse : ℝ
  speedReconstructed : ℝ
  speedOriginal : ℝ
  speedDifferential : ℝ

/-- The winds of a field, grid point by grid point. (`utils/wind.py:55-57`) -/
def gridWinds (s : FieldShape) (f : GridField) : List (ℝ × ℝ) :=
  (List.range s.numGridPoints).map fun q => (ravel s f (2 * q), ravel s f (2 * q + 1))

/-- `.mean()` of a vector (of at least one entry). (`learn_wind_field_generator.py:194-198`) -/
noncomputable def average (l : List ℝ) : ℝ := l.sum / l.length

/-- `learn_wind_field_generator.py:166-175` — `_eval_field`. -/
noncomputable def evalField {K : Type} (normal : K → ℕ → ℝ) (p : VaeParams) (x : GridField × K) :
    Except Err (GridField × (ℕ → ℝ) × ℝ × ℝ) :=
  match vaeCall normal vaeModel p FieldShape.default.outputLength (ravel FieldShape.default x.1) x.2 with
  | .error e => .error e
  | .ok y => .ok (y.reconstruction, y.encoderOutput.mean, fieldError FieldShape.default y.reconstruction x.1,
      latentDivergence 64 y.encoderOutput)

/-- `learn_wind_field_generator.py:153-200` — `evaluation`; `keys seed n` are the keys split from the initial one. -/
noncomputable def vaeEvaluation {K : Type} (normal : K → ℕ → ℝ) (keys : ℤ → ℕ → List K) (p : VaeParams)
    (fields : List GridField) (seed : ℤ := 0) : Except Err (VaeMetrics × List GridField × List (ℕ → ℝ)) :=
  match (fields.zip (keys seed fields.length)).mapM (evalField normal p) with
  | .error e => .error e
  | .ok r =>
    let reconstructed := r.map fun x => meanSpeed (gridWinds FieldShape.default x.1)
    let original := fields.map fun x => meanSpeed (gridWinds FieldShape.default x)
    .ok ({ kld := average (r.map fun x => x.2.2.2), mse := average (r.map fun x => x.2.2.1),
           speedReconstructed := average reconstructed, speedOriginal := average original,
           speedDifferential := average (List.zipWith (· - ·) original reconstructed) },
      r.map (·.1), r.map (·.2.1))

end BLE
