import Verif.Model.Wind

/-!
# The generative wind model

`BLE/generative/vae.py` (decoder), `BLE/generative/dataset_wind_field_reservoir.py`,
`BLE/generative/learn_wind_field_generator.py` and `BLE/models/models.py`. The network is an arbitrary function: what
follows it is modelled for every output `z` of its last layer.
-/

namespace BLE

/-! ## Decoder -/

/-- `vae.py:31` — `flow_field_width`. -/
def flowWidth : ℕ := 7

/-- `vae.py:66-69` — `num_flow_fields`. -/
def FieldShape.numFlowFields (s : FieldShape) : ℕ := s.pressureSlices * s.timeSlices

/-- `vae.py:149-151` — `z.reshape((w, w, n))`, C order. -/
def flowFields (s : FieldShape) (z : ℕ → ℝ) (a b c : ℕ) : ℝ := z ((a * flowWidth + b) * s.numFlowFields + c)

/-- `jax.image.resize(method='linear')` along one axis (external, by its definition): the position of output `i` of `m` in
the input of length `n`, with pixel centres at half-integers. (`vae.py:160-164`) -/
noncomputable def samplePos (n m i : ℕ) : ℝ := ((i : ℝ) + 1 / 2) * (n / m) - 1 / 2

/-- The triangle kernel. (`vae.py:160-164`) -/
noncomputable def triangle (x : ℝ) : ℝ := max 0 (1 - |x|)

/-- One output of the resizing: the normalised weighted sum (for `n ≤ m`, when no antialiasing takes place).
(`vae.py:160-164`) -/
noncomputable def resize1 (n m : ℕ) (vals : ℕ → ℝ) (i : ℕ) : ℝ :=
  (∑ k ∈ Finset.range n, triangle (samplePos n m i - k) * vals k) /
    ∑ k ∈ Finset.range n, triangle (samplePos n m i - k)

/-- `vae.py:160-164` — the flow fields expanded to `latlng_slices + 2` in both horizontal directions. -/
noncomputable def flowExpanded (s : FieldShape) (z : ℕ → ℝ) (i j c : ℕ) : ℝ :=
  resize1 flowWidth (s.latlngSlices + 2) (fun a =>
    resize1 flowWidth (s.latlngSlices + 2) (fun b => flowFields s z a b c) j) i

/-- `jnp.roll(·, shift=-1)` along an axis of length `n`: index `i` holds what was at `i + 1`, cyclically.
(`vae.py:171, 174`) -/
def rollBack (n : ℕ) (f : ℕ → ℝ) (i : ℕ) : ℝ := f ((i + 1) % n)

/-- `jnp.roll(·, shift=1)` (`vae.py:172, 175`) -/
def rollForward (n : ℕ) (f : ℕ → ℝ) (i : ℕ) : ℝ := f ((i + n - 1) % n)

/-- `vae.py:171-173` — `dflow_dy`, after slicing off the border (`[1:-1, 1:-1, :]`). -/
noncomputable def dflowDy (s : FieldShape) (F : ℕ → ℕ → ℕ → ℝ) (i j c : ℕ) : ℝ :=
  (rollBack (s.latlngSlices + 2) (fun a => F a (j + 1) c) (i + 1) -
    rollForward (s.latlngSlices + 2) (fun a => F a (j + 1) c) (i + 1)) / 2

/-- `vae.py:174-176` — `dflow_dx`. -/
noncomputable def dflowDx (s : FieldShape) (F : ℕ → ℕ → ℕ → ℝ) (i j c : ℕ) : ℝ :=
  (rollBack (s.latlngSlices + 2) (fun b => F (i + 1) b c) (j + 1) -
    rollForward (s.latlngSlices + 2) (fun b => F (i + 1) b c) (j + 1)) / 2

/-- `vae.py:166-186` — from an expanded flow field to the wind field; the reshaping splits the last axis into
pressures and times. -/
noncomputable def windOfFlow (s : FieldShape) (F : ℕ → ℕ → ℕ → ℝ) : GridField := fun i j k l =>
  (dflowDy s F i j (k * s.timeSlices + l), -1 * dflowDx s F i j (k * s.timeSlices + l))

/-- `vae.py:145-186` — the decoder after its last dense layer. -/
noncomputable def decode (s : FieldShape) (z : ℕ → ℝ) : GridField := windOfFlow s (flowExpanded s z)

/-- `generative_wind_field.py:52-62` — `sample_field`; `net` is the decoder network applied to the latents drawn for
the key, with the parameters of `load_offlineskies22` (`:43-46`); the shape (`:48-50`) is the default one in the wind
field of `generative_wind_field_factory` (`:35-37`). -/
noncomputable def sampleField {K : Type} (s : FieldShape) (net : K → ℕ → ℝ) (key : K) (_date : ℤ) : GridField :=
  decode s (net key)

/-! ## Reservoir -/

variable {F K P : Type}

/-- `jax.random.choice(key, n, shape=(b,), replace=False)` (external): the errors it raises, and otherwise what `pick`
returns for the key. (`dataset_wind_field_reservoir.py:66-70`) -/
def randomChoice (pick : K → ℕ → ℕ → List ℕ) (key : K) (n : ℤ) (b : ℕ) : Except Err (List ℕ) :=
  if b = 0 then .ok []
  else if n ≤ 0 then .error .value
  else if n < b then .error .value
  else .ok (pick key n.toNat b)

/-- `dataset_wind_field_reservoir.py:28-53` — the reservoir. -/
structure Reservoir (F K : Type) where
  evalBatchSize : ℤ
  dataset : List F
  rng : K

/-- `dataset_wind_field_reservoir.py:37-50` — loading 200 shards; `shard i` is the content of the i-th file. -/
def loadDataset (shard : ℕ → Except Err (List F)) : Except Err (List F) := do
  let parts ← (List.range 200).mapM shard
  .ok parts.flatten

/-- `dataset[samples, ...]`: JAX clamps indices that are too large. (`dataset_wind_field_reservoir.py:71`) -/
def gather (d : List F) (samples : List ℕ) : List F := samples.filterMap fun i => d[min i (d.length - 1)]?

/-- `dataset_wind_field_reservoir.py:55-71` — `get_batch`. -/
def Reservoir.getBatch (split : K → K × K) (pick : K → ℕ → ℕ → List ℕ) (r : Reservoir F K) (b : ℕ) :
    Reservoir F K × Except Err (List F) :=
  let r1 := { r with rng := (split r.rng).1 }
  match randomChoice pick (split r.rng).2 (r.dataset.length - r.evalBatchSize) b with
  | .error e => (r1, .error e)
  | .ok samples => (r1, .ok (gather r.dataset samples))

/-- Where the slice `[k:]` of a list of length `n` begins. (`dataset_wind_field_reservoir.py:81`) -/
def sliceStart (n : ℕ) (k : ℤ) : ℕ := if k < 0 then (n + k).toNat else min k.toNat n

/-- `dataset_wind_field_reservoir.py:73-81` — `get_eval_batch`, `dataset[-eval_batch_size:]`. -/
def Reservoir.getEvalBatch (r : Reservoir F K) : List F := r.dataset.drop (sliceStart r.dataset.length (-r.evalBatchSize))

/-! ## Losses and schedules -/

/-- `learn_wind_field_generator.py:59-70` -/
def constantSchedule (_idx : ℤ) (value : ℝ) : ℝ := value

/-- `learn_wind_field_generator.py:73-93` — `step_schedule`. -/
noncomputable def stepSchedule (idx : ℤ) (start increment : ℝ) (frequency : ℤ) (maxVal : ℝ) : Except Err ℝ :=
  if frequency = 0 then .error .zeroDivision
  else
    let e := Int.fdiv idx frequency
    if @decide (increment = 0) (Classical.propDecidable _) ∧ e < 0 then .error .zeroDivision
    else .ok (min (start * increment ^ e) maxVal)

/-- `learn_wind_field_generator.py:96-97` — `kl_divergence` of two vectors of length `n`. -/
noncomputable def klDivergence {n : ℕ} (mean logvar : Fin n → ℝ) : ℝ :=
  -0.5 * ∑ i, (1 + logvar i - mean i ^ 2 - Real.exp (logvar i))

/-- `learn_wind_field_generator.py:100-101` — `mean_square_error` (a sum, over all entries). -/
noncomputable def meanSquareError {n : ℕ} (reconstructed original : Fin n → ℝ) : ℝ :=
  ∑ i, (reconstructed i - original i) ^ 2

/-! ## Training of the generator -/

/-- The training machinery (external): one optimiser step on a batch, the number of steps taken so far, splitting of
keys. (`learn_wind_field_generator.py:104-150`) -/
structure VaeOps (F P K : Type) where
  trainStep : P → List F → K → ℝ → P
  steps : P → ℤ
  split : K → K × K

/-- `learn_wind_field_generator.py:268-280` — the `n` batches of an epoch; also returns the batches. -/
noncomputable def vaeBatches (O : VaeOps F P K) (pick : K → ℕ → ℕ → List ℕ) (kl : ℝ) :
    ℕ → Reservoir F K → P → K → List (List F) → Except Err (Reservoir F K × P × K × List (List F))
  | 0, r, p, k, acc => .ok (r, p, k, acc)
  | n + 1, r, p, k, acc =>
    match r.getBatch O.split pick 64 with
    | (_, .error e) => .error e
    | (r1, .ok batch) =>
      vaeBatches O pick kl n r1 (O.trainStep p batch (O.split k).2 kl) (O.split k).1 (acc ++ [batch])

/-- What a call of `train` has done: the batches it trained on, the numbers of the checkpoints it wrote.
(`learn_wind_field_generator.py:261-318`) -/
structure VaeLog (F : Type) where
  batches : List (List F)
  saved : List ℤ

/-- `learn_wind_field_generator.py:261-318` — the epochs `epoch, …, epoch + n - 1`. The names `mse_series` etc. (lines
289-291) are not defined anywhere, so `NameError` is raised there. -/
noncomputable def vaeEpochs (O : VaeOps F P K) (pick : K → ℕ → ℕ → List ℕ) (schedule : ℤ → Except Err ℝ) (numBatches : ℕ) :
    ℕ → ℤ → Reservoir F K → P → K → VaeLog F → VaeLog F × Except Err Unit
  | 0, _, _, _, _, log => (log, .ok ())
  | _ + 1, epoch, r, p, k, log =>
    match schedule epoch with
    | .error e => (log, .error e)
    | .ok kl =>
      match vaeBatches O pick kl numBatches r p k [] with
      | .error e => (log, .error e)
      | .ok (_, _, _, bs) => ({ log with batches := log.batches ++ bs }, .error .name)

/-- `learn_wind_field_generator.py:203-318` — `train` (with the optimiser `p` as restored or created). -/
noncomputable def vaeTrain (O : VaeOps F P K) (pick : K → ℕ → ℕ → List ℕ) (schedule : ℤ → Except Err ℝ) (numBatches : ℕ)
    (numEpochs : ℤ) (r : Reservoir F K) (p : P) (k : K) : VaeLog F × Except Err Unit :=
  if numBatches = 0 then ({ batches := [], saved := [] }, .error .zeroDivision)
  else
    let epoch := Int.fdiv (O.steps p) numBatches + 1
    vaeEpochs O pick schedule numBatches (numEpochs - epoch).toNat epoch r p k { batches := [], saved := [] }

/-! ## Model files -/

/-- `models.py:33-79` — `load_offlineskies22`: `given` is the outcome of reading the path, if one is given; the other two are
the outcomes of reading the package resource and the file in the source tree. -/
def loadOfflineskies22 {B : Type} (given : Option (Except Err B)) (package source : Except Err B) : Except Err B :=
  match given with
  | some (.ok b) => .ok b
  | some (.error .tfNotFound) => .error .value
  | some (.error e) => .error e
  | none =>
    match package with
    | .ok b => .ok b
    | .error .fileNotFound =>
      match source with
      | .ok b => .ok b
      | .error .tfNotFound => .error .runtime
      | .error e => .error e
    | .error e => .error e

/-- `models.py:83-129` — `load_perciatelli44`; the last handler expects `FileNotFoundError`. -/
def loadPerciatelli44 {B : Type} (given : Option (Except Err B)) (package source : Except Err B) : Except Err B :=
  match given with
  | some (.ok b) => .ok b
  | some (.error .tfNotFound) => .error .value
  | some (.error e) => .error e
  | none =>
    match package with
    | .ok b => .ok b
    | .error .fileNotFound =>
      match source with
      | .ok b => .ok b
      | .error .fileNotFound => .error .runtime
      | .error e => .error e
    | .error e => .error e

end BLE
