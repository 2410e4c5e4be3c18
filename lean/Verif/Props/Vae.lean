import Mathlib.Algebra.BigOperators.Fin
import Mathlib.Algebra.Order.Chebyshev
import Verif.Model.Vae
import Verif.Lemmas.GaussianKl
import Verif.Props.Generative
import Verif.Props.WindColumn

/-!
# C122, C123: the autoencoder behind the wind generator
-/

namespace BLE

open MeasureTheory ProbabilityTheory InformationTheory

/-! ## The encoder -/

theorem vaeSquash_eq (x : ℝ) : vaeSquash x = x / (50 + |x|) := by rw [vaeSquash, sign_mul_abs]

/-- The input transformation keeps the order and the direction of every wind component, maps into (−1, 1), and never magnifies
differences by more than 1/50. -/
theorem C122_squash :
    StrictMono vaeSquash ∧ (∀ x, |vaeSquash x| < 1) ∧ (∀ x, vaeSquash (-x) = -vaeSquash x) ∧
    ∀ x y, |vaeSquash x - vaeSquash y| ≤ |x - y| / 50 := by
  have key : ∀ x y, x < y → 0 < vaeSquash y - vaeSquash x ∧ vaeSquash y - vaeSquash x ≤ (y - x) / 50 := by
    intro x y h
    rw [vaeSquash_eq, vaeSquash_eq, div_sub_div _ _ (by positivity) (by positivity)]
    have hd : 0 < (50 + |y|) * (50 + |x|) := by positivity
    refine ⟨div_pos ?_ hd, ?_⟩
    · rcases abs_cases x with ⟨a, ha⟩ | ⟨a, ha⟩ <;> rcases abs_cases y with ⟨b, hb⟩ | ⟨b, hb⟩ <;> rw [a, b] <;> nlinarith
    · rw [div_le_div_iff₀ hd (by norm_num)]
      rcases abs_cases x with ⟨a, ha⟩ | ⟨a, ha⟩ <;> rcases abs_cases y with ⟨b, hb⟩ | ⟨b, hb⟩ <;> rw [a, b]
      · nlinarith [mul_nonneg ha hb, mul_nonneg (sub_nonneg.2 h.le) (mul_nonneg ha hb), mul_nonneg (sub_nonneg.2 h.le) ha,
          mul_nonneg (sub_nonneg.2 h.le) hb]
      · linarith
      · nlinarith [mul_nonneg (sub_nonneg.2 h.le) (mul_nonneg (neg_nonneg.2 ha.le) hb), sq_nonneg (x + y),
          mul_nonneg (neg_nonneg.2 ha.le) hb, sq_nonneg (y - x)]
      · nlinarith [mul_nonneg (neg_nonneg.2 ha.le) (neg_nonneg.2 hb.le),
          mul_nonneg (sub_nonneg.2 h.le) (mul_nonneg (neg_nonneg.2 ha.le) (neg_nonneg.2 hb.le)),
          mul_nonneg (sub_nonneg.2 h.le) (neg_nonneg.2 ha.le), mul_nonneg (sub_nonneg.2 h.le) (neg_nonneg.2 hb.le)]
  refine ⟨fun x y h => by linarith [(key x y h).1], fun x => ?_, fun x => ?_, fun x y => ?_⟩
  · rw [vaeSquash_eq, abs_div, abs_of_pos (show (0 : ℝ) < 50 + |x| by positivity), div_lt_one (by positivity)]
    linarith
  · rw [vaeSquash_eq, vaeSquash_eq, abs_neg, neg_div]
  · rcases lt_trichotomy x y with h | h | h
    · rw [abs_sub_comm, abs_sub_comm x, abs_of_pos (key x y h).1, abs_of_pos (sub_pos.2 h)]
      exact (key x y h).2
    · simp [h]
    · rw [abs_of_pos (key y x h).1, abs_of_pos (sub_pos.2 h)]
      exact (key y x h).2

example : vaeSquash 50 = 1 / 2 ∧ vaeSquash (-50) = -1 / 2 := by
  rw [vaeSquash_eq, vaeSquash_eq]; norm_num

theorem apply_bounded (q : DenseParams) (d n : ℕ) (B : ℝ) : ∃ B', ∀ x : ℕ → ℝ, (∀ i < d, |x i| ≤ B) →
    ∀ j < n, |q.apply d x j| ≤ B' := by
  refine ⟨∑ j ∈ Finset.range n, (∑ i ∈ Finset.range d, |B| * |q.kernel i j| + |q.bias j|), fun x hx j hj => ?_⟩
  have h1 : |q.apply d x j| ≤ ∑ i ∈ Finset.range d, |B| * |q.kernel i j| + |q.bias j| := by
    refine (abs_add_le _ _).trans (add_le_add_left ((Finset.abs_sum_le_sum_abs _ _).trans
      (Finset.sum_le_sum fun i hi => ?_)) _)
    rw [abs_mul]
    exact mul_le_mul_of_nonneg_right ((hx i (Finset.mem_range.1 hi)).trans (le_abs_self _)) (abs_nonneg _)
  refine h1.trans (Finset.single_le_sum (f := fun j => ∑ i ∈ Finset.range d, |B| * |q.kernel i j| + |q.bias j|)
    (fun j _ => ?_) (Finset.mem_range.2 hj))
  exact add_nonneg (Finset.sum_nonneg fun i _ => by positivity) (abs_nonneg _)

theorem reluStack_bounded (layers : ℕ → DenseParams) (h k : ℕ) : ∀ (first d : ℕ) (B : ℝ), ∃ B', ∀ x : ℕ → ℝ,
    (∀ i < d, |x i| ≤ B) → ∀ j < (if k = 0 then d else h), |reluStack layers h k first d x j| ≤ B' := by
  induction k with
  | zero => exact fun _ _ B => ⟨B, fun x hx j hj => hx j (by simpa using hj)⟩
  | succ k ih =>
    intro first d B
    obtain ⟨B1, h1⟩ := apply_bounded (layers first) d h B
    obtain ⟨B2, h2⟩ := ih (first + 1) h (max B1 0)
    refine ⟨B2, fun x hx j hj => h2 _ (fun i hi => ?_) j (by split <;> simpa using hj)⟩
    have := h1 x hx i hi
    rw [abs_of_nonneg (le_max_right _ _)]
    exact max_le_max ((le_abs_self _).trans this) le_rfl

/-- Whatever the winds, however strong: the parameters alone bound what the encoder says about them. -/
theorem C122_encoder_bounded (p : VaeParams) (d n : ℕ) : ∃ B, ∀ x, ∀ i < n,
    |(vaeEncode p d x).mean i| ≤ B ∧ |(vaeEncode p d x).logvar i| ≤ B := by
  obtain ⟨B1, h1⟩ := reluStack_bounded p.enc vaeWidth vaeHidden 0 d 1
  obtain ⟨B2, h2⟩ := apply_bounded p.mean vaeWidth n B1
  obtain ⟨B3, h3⟩ := apply_bounded p.logvar vaeWidth n B1
  refine ⟨max B2 B3, fun x i hi => ?_⟩
  have hb := h1 (fun i => vaeSquash (x i)) fun i _ => (C122_squash.2.1 (x i)).le
  exact ⟨(h2 _ (fun j hj => hb j hj) i hi).trans (le_max_left _ _), (h3 _ (fun j hj => hb j hj) i hi).trans (le_max_right _ _)⟩

/-! ## The latents and the divergence -/

/-- Finitely many numbers, continued by zeros. -/
def padded {n : ℕ} (e : Fin n → ℝ) (j : ℕ) : ℝ := if h : j < n then e ⟨j, h⟩ else 0

/-- `n` independent standard normal variates. -/
noncomputable def Spec.prior (n : ℕ) : Measure (Fin n → ℝ) := Measure.pi fun _ => gaussianReal 0 1

/-- The distribution of the first `n` latents passed to the decoder, if the variates drawn are independent standard normal. -/
noncomputable def Spec.latents (n : ℕ) (o : EncoderOutput) : Measure (Fin n → ℝ) :=
  (Spec.prior n).map fun e i => reparameterize (padded e) o.mean o.logvar i

/-- The variance encoded by a logarithm. -/
noncomputable def Spec.variance (l : ℝ) : NNReal := ⟨Real.exp l, (Real.exp_pos l).le⟩

theorem variance_coe (l : ℝ) : (Spec.variance l : ℝ) = Real.exp l := rfl

/-- The latents are independent normal variates with the encoder's means and the exponentials of its log-variances as variances. -/
theorem C122_latents (n : ℕ) (o : EncoderOutput) :
    Spec.latents n o = Measure.pi fun i : Fin n => gaussianReal (o.mean i) (Spec.variance (o.logvar i)) := by
  have e : (fun (e : Fin n → ℝ) (i : Fin n) => reparameterize (padded e) o.mean o.logvar i) =
      fun (e : Fin n → ℝ) (i : Fin n) => (fun t : ℝ => o.mean i + t * Real.exp (0.5 * o.logvar i)) (e i) := by
    funext e i
    simp [reparameterize, padded]
  rw [Spec.latents, Spec.prior, e]
  have hm : ∀ i : Fin n, Measurable fun t : ℝ => o.mean i + t * Real.exp (0.5 * o.logvar i) := fun i => by fun_prop
  have hg : ∀ i : Fin n, (gaussianReal 0 1).map (fun t : ℝ => o.mean i + t * Real.exp (0.5 * o.logvar i)) =
      gaussianReal (o.mean i) (Spec.variance (o.logvar i)) := by
    intro i
    have : (fun t : ℝ => o.mean i + t * Real.exp (0.5 * o.logvar i)) =
        (fun t => o.mean i + t) ∘ fun t => t * Real.exp (0.5 * o.logvar i) := rfl
    rw [this, ← Measure.map_map (by fun_prop) (by fun_prop), gaussianReal_map_mul_const, gaussianReal_map_const_add]
    congr 1
    · simp
    · ext
      rw [variance_coe, mul_one, NNReal.coe_mk, ← Real.exp_nat_mul]
      congr 1
      push_cast
      ring
  have := Measure.pi_map_pi (μ := fun _ : Fin n => gaussianReal 0 1)
    (f := fun i t => o.mean i + t * Real.exp (0.5 * o.logvar i)) fun i => (hm i).aemeasurable
  rw [this]
  simp only [hg]

/-- The divergence term of the loss is the relative entropy of the distribution of the latents to the distribution from which
`generate` and the wind field sampler are fed, and it is finite. -/
theorem C122_divergence (n : ℕ) (o : EncoderOutput) :
    klDiv (Spec.latents n o) (Spec.prior n) ≠ ⊤ ∧
    latentDivergence n o = (klDiv (Spec.latents n o) (Spec.prior n)).toReal := by
  rw [C122_latents, Spec.prior]
  have h := klDiv_gaussians (fun i : Fin n => o.mean i) (fun i => Spec.variance (o.logvar i)) fun i => by
    intro h
    have := congrArg NNReal.toReal h
    rw [variance_coe] at this
    exact (Real.exp_pos _).ne' this
  refine ⟨h.1, ?_⟩
  rw [h.2, latentDivergence, klDivergence, Finset.mul_sum]
  refine Finset.sum_congr rfl fun i _ => ?_
  rw [variance_coe, Real.log_exp]
  norm_num

example : latentDivergence 2 { mean := fun _ => 1, logvar := fun _ => 0 } = 1 := by
  norm_num [latentDivergence, klDivergence, Fin.sum_univ_two]

/-! ## The loss -/

/-- The loss grows with the error of the reconstruction and, for positive weights, with the divergence. As a function of the
learnt scale it has exactly one minimum: the square root of the summed squared error. -/
theorem C122_loss (w mse kld : ℝ) :
    (∀ σ mse', 0 < σ → mse < mse' → combinedLoss w mse kld σ < combinedLoss w mse' kld σ) ∧
    (∀ σ kld', 0 < w → kld < kld' → combinedLoss w mse kld σ < combinedLoss w mse kld' σ) ∧
    (0 < mse → ∀ σ, 0 < σ → combinedLoss w mse kld (Real.sqrt mse) ≤ combinedLoss w mse kld σ ∧
      (combinedLoss w mse kld σ = combinedLoss w mse kld (Real.sqrt mse) → σ = Real.sqrt mse)) := by
  refine ⟨fun σ mse' hσ h => ?_, fun σ kld' hw h => ?_, fun hm σ hσ => ?_⟩
  · have : (0 : ℝ) < 0.5 / σ ^ 2 := by positivity
    unfold combinedLoss
    nlinarith [mul_lt_mul_of_pos_left h this]
  · unfold combinedLoss
    linarith [mul_lt_mul_of_pos_left h hw]
  · have hs : 0 < Real.sqrt mse := Real.sqrt_pos.2 hm
    have hpi : 0 < Real.sqrt (2 * Real.pi) := Real.sqrt_pos.2 (by positivity)
    have hd : combinedLoss w mse kld σ - combinedLoss w mse kld (Real.sqrt mse) =
        1 / 2 * (mse / σ ^ 2 - 1 - Real.log (mse / σ ^ 2)) := by
      unfold combinedLoss
      rw [Real.log_mul hσ.ne' hpi.ne', Real.log_mul hs.ne' hpi.ne', Real.log_sqrt hm.le, Real.sq_sqrt hm.le,
        Real.log_div hm.ne' (by positivity), Real.log_pow]
      have : (0.5 : ℝ) / mse * mse = 0.5 := div_mul_cancel₀ _ hm.ne'
      rw [this]
      push_cast
      ring
    have hq : 0 < mse / σ ^ 2 := by positivity
    refine ⟨by nlinarith [Real.log_le_sub_one_of_pos hq], fun h => ?_⟩
    have h1 : mse / σ ^ 2 = 1 := by
      by_contra hne
      have := Real.log_lt_sub_one_of_pos hq hne
      linarith
    rw [div_eq_one_iff_eq (by positivity)] at h1
    rw [h1, Real.sqrt_sq hσ.le]

example : combinedLoss 1 4 0 2 < combinedLoss 1 4 0 1 := by
  have h := (C122_loss 1 4 0).2.2 (by norm_num) 1 one_pos
  have e : Real.sqrt 4 = 2 := by rw [show (4 : ℝ) = 2 ^ 2 by norm_num, Real.sqrt_sq (by norm_num)]
  rw [e] at h
  exact lt_of_le_of_ne h.1 fun heq => by linarith [h.2 heq.symm]

/-! ## Forward pass -/

theorem vaeDecode_default (p : VaeParams) (latents : ℕ) (z : ℕ → ℝ) : vaeDecode p FieldShape.default latents z =
    .ok (FieldShape.default.gridShape,
      decode FieldShape.default ((p.dec vaeHidden).apply vaeWidth (reluStack p.dec vaeWidth vaeHidden 0 latents z))) := by
  have e1 : reshape FieldShape.default.numFlowFieldUnits [flowWidth, flowWidth, FieldShape.default.numFlowFields] = .ok () :=
    if_pos (by simp [FieldShape.numFlowFieldUnits, mul_assoc])
  have e2 : reshape (FieldShape.default.latlngSlices * FieldShape.default.latlngSlices * FieldShape.default.numFlowFields)
      FieldShape.default.directionGridShape = .ok () :=
    if_pos (by simp [FieldShape.directionGridShape, FieldShape.numFlowFields, mul_assoc])
  simp only [vaeDecode, e1, e2]
  rfl

/-- Every call succeeds. It returns the encoder's output and the scale unchanged, and as reconstruction what `generate` makes of
the latents: the means alone if reparameterisation is off, whatever the key. The reconstruction has the shape of the grid, and is
incompressible in the sense of C73. -/
theorem C122_forward {K : Type} (normal : K → ℕ → ℝ) (c : VaeConfig) (p : VaeParams) (d : ℕ) (x : ℕ → ℝ) (rng : K) :
    ∃ z r, vaeCall normal c p d x rng =
        .ok { shape := FieldShape.default.gridShape, reconstruction := r, encoderOutput := vaeEncode p d x, sigma := p.sigma } ∧
      vaeGenerate c p z = .ok (FieldShape.default.gridShape, r) ∧
      (c.reparameterize = false → z = (vaeEncode p d x).mean) ∧
      (c.reparameterize = true → ∀ i, z i = (vaeEncode p d x).mean i +
        Real.sqrt (Real.exp ((vaeEncode p d x).logvar i)) * normal rng i) ∧
      ∀ i j k l, 1 ≤ i → i + 1 < FieldShape.default.latlngSlices → 1 ≤ j → j + 1 < FieldShape.default.latlngSlices →
        Spec.divergenceYX r i j k l = 0 := by
  refine ⟨if c.reparameterize then reparameterize (normal rng) (vaeEncode p d x).mean (vaeEncode p d x).logvar
    else (vaeEncode p d x).mean, _, ?_, vaeDecode_default p _ _, fun h => by simp [h], fun h i => ?_,
    fun i j k l hi0 hi hj0 hj => C73_incompressible_partial _ _ i j k l hi0 hi hj0 hj⟩
  · simp only [vaeCall, vaeDecode_default]
  · rw [if_pos h, reparameterize, Real.sqrt_eq_rpow, ← Real.exp_mul, mul_comm (normal rng i)]
    norm_num
    left
    ring_nf

/-- One hidden layer, entry by entry: the weighted sum of the first `d` inputs plus the bias, cut off at zero. -/
noncomputable def Spec.reluLayer (p : DenseParams) (d : ℕ) (x : ℕ → ℝ) : ℕ → ℝ :=
  fun j => max (∑ i ∈ Finset.range d, x i * p.kernel i j + p.bias j) 0

/-- The networks: three hidden layers of a thousand units each, in encoder and decoder; the encoder sees every wind component divided by
50 m/s plus its size; the model's decoder reads the first 64 latents, and turns the last layer's output into winds. -/
theorem C122_layers (p : VaeParams) (d : ℕ) (x z : ℕ → ℝ) :
    (∀ i, let h := Spec.reluLayer (p.enc 2) 1000 (Spec.reluLayer (p.enc 1) 1000 (Spec.reluLayer (p.enc 0) d fun i => x i / (50 + |x i|)));
       (vaeEncode p d x).mean i = ∑ j ∈ Finset.range 1000, h j * p.mean.kernel j i + p.mean.bias i ∧
        (vaeEncode p d x).logvar i = ∑ j ∈ Finset.range 1000, h j * p.logvar.kernel j i + p.logvar.bias i) ∧
    (let h := Spec.reluLayer (p.dec 2) 1000 (Spec.reluLayer (p.dec 1) 1000 (Spec.reluLayer (p.dec 0) 64 z));
      vaeGenerate vaeModel p z = .ok ([21, 21, 10, 9, 2], decode FieldShape.default fun i =>
        ∑ j ∈ Finset.range 1000, h j * (p.dec 3).kernel j i + (p.dec 3).bias i)) := by
  refine ⟨fun i => ⟨?_, ?_⟩, ?_⟩
  · simp only [vaeEncode, vaeSquash_eq]; rfl
  · simp only [vaeEncode, vaeSquash_eq]; rfl
  · show vaeDecode p FieldShape.default 64 z = _
    rw [vaeDecode_default]
    rfl

/-- How fields are listed: u and v of a node next to each other, then by time, pressure, second and first coordinate. -/
theorem C122_ravel (s : FieldShape) (f : GridField) (i j k l : ℕ) (hj : j < s.latlngSlices) (hk : k < s.pressureSlices)
    (hl : l < s.timeSlices) :
    ravel s f (2 * (((i * s.latlngSlices + j) * s.pressureSlices + k) * s.timeSlices + l)) = (f i j k l).1 ∧
    ravel s f (2 * (((i * s.latlngSlices + j) * s.pressureSlices + k) * s.timeSlices + l) + 1) = (f i j k l).2 := by
  have dm : ∀ a b n : ℕ, b < n → (a * n + b) / n = a ∧ (a * n + b) % n = b := fun a b n h => by
    have hn : 0 < n := by omega
    refine ⟨?_, ?_⟩
    · rw [mul_comm, Nat.mul_add_div hn, Nat.div_eq_of_lt h, add_zero]
    · rw [mul_comm, Nat.mul_add_mod, Nat.mod_eq_of_lt h]
  have e1 := dm ((i * s.latlngSlices + j) * s.pressureSlices + k) l s.timeSlices hl
  have e2 := dm (i * s.latlngSlices + j) k s.pressureSlices hk
  have e3 := dm i j s.latlngSlices hj
  set q := ((i * s.latlngSlices + j) * s.pressureSlices + k) * s.timeSlices + l with hq
  have h0 : 2 * q / 2 = q := by omega
  have h1 : (2 * q + 1) / 2 = q := by omega
  constructor
  · simp only [ravel, h0, e1.1, e1.2, e2.1, e2.2, e3.1, e3.2]
    simp
  · simp only [ravel, h1, e1.1, e1.2, e2.1, e2.2, e3.1, e3.2]
    rw [if_neg (by omega)]

/-- The loss of a field: the summed squared differences of all wind components over `2 σ²`, plus the logarithm of the normal
density's constant, plus the weighted relative entropy of all 64 latents to the distribution fields are generated from. -/
theorem C122_objective {K : Type} (normal : K → ℕ → ℝ) (w : ℝ) (p : VaeParams) (x : GridField) (rng : K) :
    ∃ y, vaeCall normal vaeModel p 79380 (ravel FieldShape.default x) rng = .ok y ∧
      vaeLoss normal w p x rng = .ok ((∑ m ∈ Finset.range 79380,
          (ravel FieldShape.default y.reconstruction m - ravel FieldShape.default x m) ^ 2) / (2 * p.sigma ^ 2) +
        Real.log (p.sigma * Real.sqrt (2 * Real.pi)) +
        w * (klDiv (Spec.latents 64 (vaeEncode p 79380 (ravel FieldShape.default x))) (Spec.prior 64)).toReal) := by
  have hlen : FieldShape.default.outputLength = 79380 := by
    simp [FieldShape.outputLength, FieldShape.numGridPoints, FieldShape.default]
  obtain ⟨z, r, hy, -⟩ := C122_forward normal vaeModel p 79380 (ravel FieldShape.default x) rng
  refine ⟨_, hy, ?_⟩
  unfold vaeLoss
  rw [hlen, hy]
  simp only [combinedLoss, (C122_divergence 64 _).2, fieldError, meanSquareError]
  rw [Fin.sum_univ_eq_sum_range (fun m => (ravel FieldShape.default r m - ravel FieldShape.default x m) ^ 2), hlen]
  generalize ∑ m ∈ Finset.range 79380, (ravel FieldShape.default r m - ravel FieldShape.default x m) ^ 2 = S
  rw [show 0.5 / p.sigma ^ 2 * S = S / (2 * p.sigma ^ 2) by ring]

/-- With weak parameters: zero kernels, and the scale 1. -/
noncomputable def zeroVae : VaeParams :=
  { enc := fun _ => ⟨fun _ _ => 0, fun _ => 0⟩, mean := ⟨fun _ _ => 0, fun _ => 3⟩, logvar := ⟨fun _ _ => 0, fun _ => 0⟩,
    dec := fun _ => ⟨fun _ _ => 0, fun _ => 0⟩, sigma := 1 }

example : (vaeEncode zeroVae FieldShape.default.outputLength fun _ => 7).mean 5 = 3 := by
  simp [vaeEncode, DenseParams.apply, zeroVae]

/-! ## Evaluation -/

theorem sum_pairs (g : ℕ → ℝ) (n : ℕ) :
    ∑ m ∈ Finset.range (2 * n), g m = ∑ q ∈ Finset.range n, (g (2 * q) + g (2 * q + 1)) := by
  induction n with
  | zero => simp
  | succ n ih =>
    rw [show 2 * (n + 1) = 2 * n + 1 + 1 by ring, Finset.sum_range_succ, Finset.sum_range_succ, Finset.sum_range_succ, ih]
    ring

/-- The difference of mean speeds, squared, is at most the squared error per grid point. -/
theorem speed_error (s : FieldShape) (f g : GridField) :
    (meanSpeed (gridWinds s f) - meanSpeed (gridWinds s g)) ^ 2 ≤ fieldError s g f / s.numGridPoints := by
  set n := s.numGridPoints with hn
  have hs : ∀ f, meanSpeed (gridWinds s f) =
      (∑ q ∈ Finset.range n, Real.sqrt (ravel s f (2 * q) ^ 2 + ravel s f (2 * q + 1) ^ 2)) / n := by
    intro f
    simp only [meanSpeed, windSpeeds, gridWinds, List.map_map, List.length_map, List.length_range, ← hn, pow_two]
    rfl
  have he : fieldError s g f = ∑ q ∈ Finset.range n, ((ravel s g (2 * q) - ravel s f (2 * q)) ^ 2 +
      (ravel s g (2 * q + 1) - ravel s f (2 * q + 1)) ^ 2) := by
    rw [fieldError, meanSquareError, Fin.sum_univ_eq_sum_range (fun m => (ravel s g m - ravel s f m) ^ 2),
      FieldShape.outputLength, ← hn, sum_pairs]
  have h1 : ∀ a b c d : ℝ, (Real.sqrt (a ^ 2 + b ^ 2) - Real.sqrt (c ^ 2 + d ^ 2)) ^ 2 ≤ (c - a) ^ 2 + (d - b) ^ 2 := by
    intro a b c d
    have h : a * c + b * d ≤ Real.sqrt (a ^ 2 + b ^ 2) * Real.sqrt (c ^ 2 + d ^ 2) := by
      rw [← Real.sqrt_mul (by positivity)]
      exact Real.le_sqrt_of_sq_le (by nlinarith [sq_nonneg (a * d - b * c)])
    nlinarith [Real.sq_sqrt (show 0 ≤ a ^ 2 + b ^ 2 by positivity), Real.sq_sqrt (show 0 ≤ c ^ 2 + d ^ 2 by positivity)]
  rcases Nat.eq_zero_or_pos n with h0 | h0
  · simp [hs, h0]
  have hn0 : (0 : ℝ) < n := by exact_mod_cast h0
  rw [hs, hs, ← sub_div, ← Finset.sum_sub_distrib, div_pow, he, div_le_div_iff₀ (by positivity) hn0, pow_two (n : ℝ), ← mul_assoc]
  refine mul_le_mul_of_nonneg_right ?_ hn0.le
  refine (sq_sum_le_card_mul_sum_sq).trans ?_
  rw [Finset.card_range, mul_comm]
  exact mul_le_mul_of_nonneg_right (Finset.sum_le_sum fun q _ => h1 _ _ _ _) hn0.le

theorem sq_average (l : List ℝ) : average l ^ 2 ≤ average (l.map (· ^ 2)) := by
  rcases List.eq_nil_or_concat l with rfl | ⟨l', a, h⟩
  · simp [average]
  have hl : (0 : ℝ) < l.length := by rw [h]; simp; positivity
  unfold average
  rw [List.length_map, div_pow, div_le_div_iff₀ (by positivity) hl, pow_two (l.length : ℝ), ← mul_assoc]
  refine mul_le_mul_of_nonneg_right ?_ hl.le
  have h1 := sq_sum_le_card_mul_sum_sq (s := Finset.univ) (f := fun i : Fin l.length => l[i])
  have e1 : ∑ i : Fin l.length, l[i] = l.sum := by simpa using Fin.sum_univ_fun_getElem l id
  have e2 : ∑ i : Fin l.length, l[i] ^ 2 = (l.map (· ^ 2)).sum := Fin.sum_univ_fun_getElem l (· ^ 2)
  rw [e1, e2, Finset.card_univ, Fintype.card_fin] at h1
  linarith

theorem average_mono {α : Type} (l : List α) (f g : α → ℝ) (h : ∀ x ∈ l, f x ≤ g x) :
    average (l.map f) ≤ average (l.map g) := by
  unfold average
  rw [List.length_map, List.length_map]
  exact div_le_div_of_nonneg_right (List.sum_le_sum h) (by positivity)

theorem average_nonneg {α : Type} (l : List α) (f : α → ℝ) (h : ∀ x ∈ l, 0 ≤ f x) : 0 ≤ average (l.map f) := by
  have := average_mono l (fun _ => 0) f h
  simpa [average] using this

/-- What `_eval_field` returns for a field and a key. -/
noncomputable def evalOf {K : Type} (normal : K → ℕ → ℝ) (p : VaeParams) (x : GridField × K) : GridField × (ℕ → ℝ) × ℝ × ℝ :=
  let r := (C122_forward normal vaeModel p FieldShape.default.outputLength (ravel FieldShape.default x.1) x.2).choose_spec.choose
  let e := vaeEncode p FieldShape.default.outputLength (ravel FieldShape.default x.1)
  (r, e.mean, fieldError FieldShape.default r x.1, latentDivergence 64 e)

theorem evalOf_error {K : Type} (normal : K → ℕ → ℝ) (p : VaeParams) (x : GridField × K) :
    (evalOf normal p x).2.2.1 = fieldError FieldShape.default (evalOf normal p x).1 x.1 := by
  simp only [evalOf]

theorem fieldError_nonneg (s : FieldShape) (f g : GridField) : 0 ≤ fieldError s f g := by
  unfold fieldError meanSquareError
  exact Finset.sum_nonneg fun _ _ => sq_nonneg _

theorem evalField_eq {K : Type} (normal : K → ℕ → ℝ) (p : VaeParams) (x : GridField × K) :
    evalField normal p x = .ok (evalOf normal p x) := by
  have h := (C122_forward normal vaeModel p FieldShape.default.outputLength (ravel FieldShape.default x.1)
    x.2).choose_spec.choose_spec.1
  unfold evalField
  rw [h]
  rfl

theorem mapM_evalField {α β : Type} (f : α → Except Err β) (g : α → β) (h : ∀ x, f x = .ok (g x)) (l : List α) :
    l.mapM f = .ok (l.map g) := by
  induction l with
  | nil => rfl
  | cons a l ih => rw [List.mapM_cons, h a, ih]; rfl

theorem zipWith_map_map {α : Type} (l : List α) (f g : α → ℝ) :
    List.zipWith (· - ·) (l.map f) (l.map g) = l.map fun x => f x - g x := by
  induction l with
  | nil => rfl
  | cons a l ih => simp [ih]

theorem sum_map_sub' {α : Type} (l : List α) (f g : α → ℝ) :
    (l.map fun x => f x - g x).sum = (l.map f).sum - (l.map g).sum := by
  induction l with
  | nil => simp
  | cons a l ih => simp only [List.map_cons, List.sum_cons, ih]; ring

theorem sum_map_div {α : Type} (l : List α) (f : α → ℝ) (c : ℝ) : (l.map fun x => f x / c).sum = (l.map f).sum / c := by
  induction l with
  | nil => simp
  | cons a l ih => simp only [List.map_cons, List.sum_cons, ih]; ring

/-- For every set of fields and every parameters, the evaluation succeeds with one reconstruction and one latent vector per field, in
order. Both losses are nonnegative; the reported differential is the difference of the reported speeds; it is small if the
error is: its square is at most the mean squared error per grid point. -/
theorem C122_evaluation {K : Type} (normal : K → ℕ → ℝ) (keys : ℤ → ℕ → List K) (hk : ∀ s n, (keys s n).length = n)
    (p : VaeParams) (fields : List GridField) (seed : ℤ) :
    ∃ m rs ls, vaeEvaluation normal keys p fields seed = .ok (m, rs, ls) ∧
      rs.length = fields.length ∧ ls.length = fields.length ∧
      (∀ i (h : i < fields.length), ls[i]? =
        some (vaeEncode p FieldShape.default.outputLength (ravel FieldShape.default fields[i])).mean) ∧
      (∀ i (h : i < fields.length) key, (keys seed fields.length)[i]? = some key →
        ∃ y, vaeCall normal vaeModel p FieldShape.default.outputLength (ravel FieldShape.default fields[i]) key = .ok y ∧
          rs[i]? = some y.reconstruction) ∧
      0 ≤ m.kld ∧ 0 ≤ m.mse ∧ m.speedDifferential = m.speedOriginal - m.speedReconstructed ∧
      m.speedDifferential ^ 2 ≤ m.mse / FieldShape.default.numGridPoints := by
  set ks := keys seed fields.length with hks
  have hlen : ks.length = fields.length := hk seed fields.length
  set z := fields.zip ks with hz
  have hzl : z.length = fields.length := by rw [hz, List.length_zip, hlen, min_self]
  have hfst : fields = z.map (·.1) := by rw [hz, List.map_fst_zip hlen.ge]
  have hm : z.mapM (evalField normal p) = .ok (z.map (evalOf normal p)) := mapM_evalField _ _ (evalField_eq normal p) z
  refine ⟨_, _, _, by unfold vaeEvaluation; rw [← hks, ← hz, hm], ?_, ?_, fun i h => ?_, fun i h key hkey => ?_, ?_, ?_, ?_, ?_⟩
  · simp [hzl]
  · simp [hzl]
  · have hi : i < z.length := by omega
    rw [List.getElem?_eq_getElem (by simpa using hi)]
    simp [evalOf, hz]
  · have hi : i < z.length := by omega
    have hki : i < ks.length := by omega
    have hkk : ks[i] = key := by
      rw [List.getElem?_eq_getElem hki] at hkey
      exact Option.some.inj hkey
    obtain ⟨y, e, hr⟩ : ∃ y, vaeCall normal vaeModel p FieldShape.default.outputLength (ravel FieldShape.default fields[i]) key =
        .ok y ∧ y.reconstruction = (evalOf normal p (fields[i], key)).1 :=
      ⟨_, (C122_forward normal vaeModel p FieldShape.default.outputLength (ravel FieldShape.default fields[i])
        key).choose_spec.choose_spec.1, rfl⟩
    refine ⟨y, e, ?_⟩
    rw [List.getElem?_eq_getElem (by simpa using hi), hr]
    simp [hz, hkk]
  · rw [List.map_map]
    refine average_nonneg z _ fun x _ => ?_
    show 0 ≤ latentDivergence 64 _
    rw [(C122_divergence _ _).2]
    exact ENNReal.toReal_nonneg
  · show 0 ≤ average (List.map _ (List.map _ z))
    rw [List.map_map]
    refine average_nonneg z _ fun x _ => ?_
    rw [Function.comp_apply, evalOf_error]
    exact fieldError_nonneg _ _ _
  · show average _ = average _ - average _
    rw [hfst]
    simp only [List.map_map]
    rw [zipWith_map_map]
    unfold average
    simp only [List.length_map]
    rw [← sub_div, sum_map_sub']
  · show average _ ^ 2 ≤ average _ / _
    rw [hfst]
    simp only [List.map_map]
    rw [zipWith_map_map]
    refine (sq_average _).trans ?_
    rw [List.map_map]
    simp only [Function.comp_def]
    refine (average_mono z (fun x => (meanSpeed (gridWinds FieldShape.default x.1) -
      meanSpeed (gridWinds FieldShape.default (evalOf normal p x).1)) ^ 2) (fun x => (evalOf normal p x).2.2.1 / FieldShape.default.numGridPoints)
      fun x _ => by rw [evalOf_error]; exact speed_error FieldShape.default x.1 (evalOf normal p x).1).trans (le_of_eq ?_)
    unfold average
    simp only [List.length_map]
    rw [sum_map_div, div_right_comm]

/-! ## C123 -/

/-- The sizes fit for every field shape: the last dense layer has as many units as the flow fields have entries, the winds as
many entries as `output_length` says. -/
theorem C123_sizes (s : FieldShape) : s.gridShape.prod = s.outputLength ∧ s.directionGridShape.prod = s.numGridPoints ∧
    ∀ p latents z, ∃ r, vaeDecode p s latents z = .ok (s.gridShape, r) := by
  refine ⟨?_, ?_, fun p latents z => ?_⟩
  · simp [FieldShape.gridShape, FieldShape.outputLength, FieldShape.numGridPoints]; ring
  · simp [FieldShape.directionGridShape, FieldShape.numGridPoints]; ring
  · have e1 : reshape s.numFlowFieldUnits [flowWidth, flowWidth, s.numFlowFields] = .ok () :=
      if_pos (by simp [FieldShape.numFlowFieldUnits, mul_assoc])
    have e2 : reshape (s.latlngSlices * s.latlngSlices * s.numFlowFields) s.directionGridShape = .ok () :=
      if_pos (by simp [FieldShape.directionGridShape, FieldShape.numFlowFields, mul_assoc])
    simp only [vaeDecode, e1, e2]
    exact ⟨_, rfl⟩

/-- Full statement: `y.shape = c.fieldShape.gridShape`. It holds for the default shape. -/
theorem C123_shape_partial {K : Type} (normal : K → ℕ → ℝ) (c : VaeConfig) (hc : c.fieldShape = FieldShape.default) (p : VaeParams)
    (d : ℕ) (x : ℕ → ℝ) (rng : K) (y : VaeOutput) (h : vaeCall normal c p d x rng = .ok y) :
    y.shape = c.fieldShape.gridShape := by
  obtain ⟨z, r, e, -⟩ := C122_forward normal c p d x rng
  rw [e] at h
  obtain rfl := Except.ok.inj h
  rw [hc]

/-- Any other shape is ignored, silently: the results never depend on it. -/
theorem C123_ignored {K : Type} (normal : K → ℕ → ℝ) (c : VaeConfig) (s : FieldShape) (p : VaeParams) (d : ℕ) (x : ℕ → ℝ) (rng : K) :
    vaeCall normal { c with fieldShape := s } p d x rng = vaeCall normal c p d x rng ∧
    (s.gridShape ≠ FieldShape.default.gridShape →
      ∃ y, vaeCall normal { c with fieldShape := s } p d x rng = .ok y ∧ y.shape ≠ s.gridShape) := by
  refine ⟨rfl, fun h => ?_⟩
  obtain ⟨z, r, e, -⟩ := C122_forward normal { c with fieldShape := s } p d x rng
  exact ⟨_, e, fun h' => h h'.symm⟩

example : ({ FieldShape.default with latlngSlices := 11 } : FieldShape).gridShape ≠ FieldShape.default.gridShape := by
  simp [FieldShape.gridShape, FieldShape.default]

end BLE
