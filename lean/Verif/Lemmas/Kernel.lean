import Mathlib.Analysis.Matrix.Order
import Mathlib.Analysis.InnerProductSpace.PiL2
import Mathlib.Analysis.SpecialFunctions.ImproperIntegrals
import Mathlib.Analysis.SpecialFunctions.Exponential
import Mathlib.MeasureTheory.Integral.IntegralEqImproper
import Verif.Model.WindGP

/-!
# The Matérn-1/2 kernel is positive definite

`exp(-‖x-y‖)` is a positive semi-definite kernel on every real inner product space: Gaussians are (Schur
products of the Gram matrix), `‖x-y‖` is a mixture of `1 - exp(-s‖x-y‖²)`, hence conditionally negative
definite, and Schoenberg's trick finishes.
-/

namespace BLE

open Finset Matrix MeasureTheory

/-- Quadratic form of a kernel matrix. -/
def qform {ι : Type} [Fintype ι] (M : ι → ι → ℝ) (c : ι → ℝ) : ℝ := ∑ i, ∑ j, c i * c j * M i j

/-- Positive semi-definite symmetric matrices. -/
def PSD {ι : Type} [Fintype ι] (M : ι → ι → ℝ) : Prop := (∀ i j, M i j = M j i) ∧ ∀ c, 0 ≤ qform M c

variable {ι : Type} [Fintype ι]

theorem qform_eq (M : ι → ι → ℝ) (c : ι → ℝ) : qform M c = c ⬝ᵥ ((Matrix.of M) *ᵥ c) := by
  unfold qform dotProduct mulVec dotProduct
  refine Finset.sum_congr rfl fun i _ => ?_
  rw [Finset.mul_sum]
  refine Finset.sum_congr rfl fun j _ => ?_
  simp only [Matrix.of_apply]; ring

theorem PSD.iff (M : ι → ι → ℝ) : PSD M ↔ (Matrix.of M).PosSemidef := by
  rw [Matrix.posSemidef_iff_dotProduct_mulVec]
  constructor
  · rintro ⟨h1, h2⟩
    refine ⟨?_, fun c => ?_⟩
    · ext i j; simp [h1 i j]
    · have := h2 c; rw [qform_eq] at this; simpa using this
  · rintro ⟨h1, h2⟩
    refine ⟨fun i j => ?_, fun c => ?_⟩
    · have := congrFun (congrFun h1 j) i; simpa using this
    · have := h2 c; rw [qform_eq]; simpa using this

theorem PSD.mul {M N : ι → ι → ℝ} (hM : PSD M) (hN : PSD N) : PSD fun i j => M i j * N i j := by
  rw [PSD.iff] at *
  exact hM.hadamard hN

theorem qform_add (M N : ι → ι → ℝ) (c : ι → ℝ) : qform (fun i j => M i j + N i j) c = qform M c + qform N c := by
  unfold qform
  simp only [mul_add, Finset.sum_add_distrib]

theorem qform_smul (a : ℝ) (M : ι → ι → ℝ) (c : ι → ℝ) : qform (fun i j => a * M i j) c = a * qform M c := by
  unfold qform
  simp only [Finset.mul_sum]
  exact Finset.sum_congr rfl fun i _ => Finset.sum_congr rfl fun j _ => by ring

theorem PSD.add {M N : ι → ι → ℝ} (hM : PSD M) (hN : PSD N) : PSD fun i j => M i j + N i j :=
  ⟨fun i j => by simp only [hM.1 i j, hN.1 i j], fun c => by rw [qform_add]; exact add_nonneg (hM.2 c) (hN.2 c)⟩

theorem PSD.smul {M : ι → ι → ℝ} (hM : PSD M) {a : ℝ} (ha : 0 ≤ a) : PSD fun i j => a * M i j :=
  ⟨fun i j => by simp only [hM.1 i j], fun c => by rw [qform_smul]; exact mul_nonneg ha (hM.2 c)⟩

theorem PSD.rank1 (d : ι → ℝ) : PSD fun i j => d i * d j := by
  refine ⟨fun i j => mul_comm _ _, fun c => ?_⟩
  have : qform (fun i j => d i * d j) c = (∑ i, c i * d i) ^ 2 := by
    unfold qform
    rw [sq, Finset.sum_mul_sum]
    exact Finset.sum_congr rfl fun i _ => Finset.sum_congr rfl fun j _ => by ring
  rw [this]; positivity

theorem PSD.pow {M : ι → ι → ℝ} (hM : PSD M) (n : ℕ) : PSD fun i j => M i j ^ n := by
  induction n with
  | zero => simpa using PSD.rank1 (fun _ : ι => (1 : ℝ))
  | succ n ih => simp only [pow_succ]; exact ih.mul hM

theorem PSD.partial {M : ι → ι → ℝ} (hM : PSD M) (n : ℕ) :
    PSD fun i j => ∑ k ∈ range n, M i j ^ k / (k.factorial : ℝ) := by
  induction n with
  | zero => exact ⟨by simp, by simp [qform]⟩
  | succ n ih =>
    simp only [Finset.sum_range_succ]
    refine ih.add ?_
    have : (fun i j => M i j ^ n / (n.factorial : ℝ)) = fun i j => (1 / (n.factorial : ℝ)) * M i j ^ n := by
      funext i j; ring
    rw [this]
    exact (hM.pow n).smul (by positivity)

theorem PSD.exp {M : ι → ι → ℝ} (hM : PSD M) : PSD fun i j => Real.exp (M i j) := by
  refine ⟨fun i j => by simp only [hM.1 i j], fun c => ?_⟩
  have hlim : ∀ x : ℝ, Filter.Tendsto (fun n => ∑ k ∈ range n, x ^ k / (k.factorial : ℝ)) Filter.atTop
      (nhds (Real.exp x)) := by
    intro x
    have := NormedSpace.expSeries_div_hasSum_exp (𝔸 := ℝ) x
    rw [Real.exp_eq_exp_ℝ]
    exact this.tendsto_sum_nat
  have : Filter.Tendsto (fun n => qform (fun i j => ∑ k ∈ range n, M i j ^ k / (k.factorial : ℝ)) c)
      Filter.atTop (nhds (qform (fun i j => Real.exp (M i j)) c)) := by
    unfold qform
    exact tendsto_finsetSum _ fun i _ => tendsto_finsetSum _ fun j _ => (hlim (M i j)).const_mul _
  exact ge_of_tendsto' this fun n => (hM.partial n).2 c

variable {E : Type} [NormedAddCommGroup E] [InnerProductSpace ℝ E]

theorem PSD.gram (x : ι → E) : PSD fun i j => inner ℝ (x i) (x j) := by
  refine ⟨fun i j => real_inner_comm _ _, fun c => ?_⟩
  have : qform (fun i j => inner ℝ (x i) (x j)) c = inner ℝ (∑ i, c i • x i) (∑ i, c i • x i) := by
    unfold qform
    rw [sum_inner]
    refine Finset.sum_congr rfl fun i _ => ?_
    rw [inner_sum]
    refine Finset.sum_congr rfl fun j _ => ?_
    rw [real_inner_smul_left, real_inner_smul_right]; ring
  rw [this]; exact real_inner_self_nonneg

theorem PSD.gauss (x : ι → E) {s : ℝ} (hs : 0 ≤ s) : PSD fun i j => Real.exp (-(s * ‖x i - x j‖ ^ 2)) := by
  have : (fun i j => Real.exp (-(s * ‖x i - x j‖ ^ 2))) = fun i j =>
      (Real.exp (-(s * ‖x i‖ ^ 2)) * Real.exp (-(s * ‖x j‖ ^ 2))) * Real.exp (2 * s * inner ℝ (x i) (x j)) := by
    funext i j
    rw [← Real.exp_add, ← Real.exp_add, norm_sub_sq_real]
    congr 1; ring
  rw [this]
  exact (PSD.rank1 fun i => Real.exp (-(s * ‖x i‖ ^ 2))).mul (((PSD.gram x).smul (by positivity)).exp)

/-! ### `‖z‖` as a mixture -/

/-- The mixing density. -/
noncomputable def mix (u : ℝ) : ℝ := (1 - Real.exp (-u)) * u ^ (-(3 / 2) : ℝ)

theorem mix_nonneg {u : ℝ} (hu : 0 < u) : 0 ≤ mix u :=
  mul_nonneg (by have := Real.exp_le_one_iff.2 (by linarith : -u ≤ 0); linarith) (Real.rpow_nonneg hu.le _)

theorem mix_pos {u : ℝ} (hu : 0 < u) : 0 < mix u :=
  mul_pos (by have := (Real.exp_lt_exp.2 (by linarith : -u < 0)).trans_eq Real.exp_zero; linarith) (Real.rpow_pos_of_pos hu _)

theorem mix_measurable : Measurable mix := by
  unfold mix; fun_prop

theorem mix_integrable : IntegrableOn mix (Set.Ioi 0) := by
  rw [← Set.Ioc_union_Ioi_eq_Ioi (zero_le_one (α := ℝ))]
  refine IntegrableOn.union ?_ ?_
  · have h : IntegrableOn (fun u : ℝ => u ^ (-(1 / 2) : ℝ)) (Set.Ioc 0 1) := by
      have := (intervalIntegral.intervalIntegrable_rpow' (a := 0) (b := 1) (r := -(1 / 2)) (by norm_num))
      rwa [intervalIntegrable_iff_integrableOn_Ioc_of_le zero_le_one] at this
    refine h.mono' mix_measurable.aestronglyMeasurable ?_
    refine (ae_restrict_iff' measurableSet_Ioc).2 (Filter.Eventually.of_forall fun u hu => ?_)
    rw [Real.norm_of_nonneg (mix_nonneg hu.1)]
    unfold mix
    have e : u ^ (-(1 / 2) : ℝ) = u * u ^ (-(3 / 2) : ℝ) := by
      conv_rhs => rw [← Real.rpow_one u, ← Real.rpow_mul hu.1.le, ← Real.rpow_add hu.1]
      norm_num
    rw [e]
    refine mul_le_mul_of_nonneg_right ?_ (Real.rpow_nonneg hu.1.le _)
    have := Real.add_one_le_exp (-u); linarith
  · have h : IntegrableOn (fun u : ℝ => u ^ (-(3 / 2) : ℝ)) (Set.Ioi 1) :=
      integrableOn_Ioi_rpow_of_lt (by norm_num) zero_lt_one
    refine h.mono' mix_measurable.aestronglyMeasurable ?_
    refine (ae_restrict_iff' measurableSet_Ioi).2 (Filter.Eventually.of_forall fun u hu => ?_)
    have hu0 : (0 : ℝ) < u := zero_lt_one.trans hu
    rw [Real.norm_of_nonneg (mix_nonneg hu0)]
    unfold mix
    have := Real.exp_pos (-u)
    exact mul_le_of_le_one_left (Real.rpow_nonneg hu0.le _) (by linarith)

/-- Normalisation. -/
noncomputable def mixC : ℝ := ∫ u in Set.Ioi (0 : ℝ), mix u

theorem mixC_pos : 0 < mixC := by
  unfold mixC
  rw [setIntegral_pos_iff_support_of_nonneg_ae ?_ mix_integrable]
  · have : Set.Ioi (0 : ℝ) ⊆ Function.support mix ∩ Set.Ioi 0 := fun u hu => ⟨(mix_pos hu).ne', hu⟩
    refine lt_of_lt_of_le ?_ (measure_mono this)
    simp
  · exact (ae_restrict_iff' measurableSet_Ioi).2 (Filter.Eventually.of_forall fun u hu => mix_nonneg hu)

theorem mix_scale {r : ℝ} (hr : 0 < r) {s : ℝ} (hs : 0 < s) :
    (1 - Real.exp (-(s * r ^ 2))) * s ^ (-(3 / 2) : ℝ) = r ^ 3 * mix (r ^ 2 * s) := by
  unfold mix
  rw [Real.mul_rpow (by positivity) hs.le]
  have : (r ^ 2) ^ (-(3 / 2) : ℝ) = (r ^ 3)⁻¹ := by
    rw [← Real.rpow_natCast r 2, ← Real.rpow_mul hr.le, ← Real.rpow_natCast r 3, ← Real.rpow_neg hr.le]
    norm_num
  rw [this, mul_comm s]
  field_simp

theorem norm_mix_integrable {r : ℝ} (hr : 0 ≤ r) :
    IntegrableOn (fun s : ℝ => (1 - Real.exp (-(s * r ^ 2))) * s ^ (-(3 / 2) : ℝ)) (Set.Ioi 0) := by
  rcases hr.eq_or_lt with rfl | hr
  · simp
  have h : IntegrableOn (fun s => mix (r ^ 2 * s)) (Set.Ioi 0) := by
    have := (integrableOn_Ioi_comp_mul_left_iff mix 0 (a := r ^ 2) (by positivity)).2 (by simpa using mix_integrable)
    exact this
  exact IntegrableOn.congr_fun (h.const_mul (r ^ 3)) (fun s hs => (mix_scale hr hs).symm) measurableSet_Ioi

theorem norm_mix {r : ℝ} (hr : 0 ≤ r) :
    ∫ s in Set.Ioi (0 : ℝ), (1 - Real.exp (-(s * r ^ 2))) * s ^ (-(3 / 2) : ℝ) = r * mixC := by
  rcases hr.eq_or_lt with rfl | hr
  · simp
  rw [setIntegral_congr_fun measurableSet_Ioi (fun s hs => mix_scale hr hs), integral_const_mul,
    integral_comp_mul_left_Ioi mix 0 (by positivity : (0 : ℝ) < r ^ 2)]
  simp only [mul_zero, smul_eq_mul, mixC]
  field_simp

/-- Norm distances are conditionally negative definite. -/
theorem norm_cnd (x : ι → E) (c : ι → ℝ) (hc : ∑ i, c i = 0) : qform (fun i j => ‖x i - x j‖) c ≤ 0 := by
  have key : qform (fun i j => ‖x i - x j‖) c * mixC =
      ∫ s in Set.Ioi (0 : ℝ), ∑ i, ∑ j, c i * c j * ((1 - Real.exp (-(s * ‖x i - x j‖ ^ 2))) * s ^ (-(3 / 2) : ℝ)) := by
    rw [integral_finsetSum _ fun i _ => integrable_finsetSum _ fun j _ =>
      (norm_mix_integrable (norm_nonneg _)).const_mul _]
    unfold qform
    rw [Finset.sum_mul]
    refine Finset.sum_congr rfl fun i _ => ?_
    rw [integral_finsetSum _ fun j _ => (norm_mix_integrable (norm_nonneg _)).const_mul _, Finset.sum_mul]
    refine Finset.sum_congr rfl fun j _ => ?_
    rw [integral_const_mul, norm_mix (norm_nonneg _)]; ring
  have hle : qform (fun i j => ‖x i - x j‖) c * mixC ≤ 0 := by
    rw [key]
    refine setIntegral_nonpos measurableSet_Ioi fun s hs => ?_
    have h1 : ∑ i, ∑ j, c i * c j * ((1 - Real.exp (-(s * ‖x i - x j‖ ^ 2))) * s ^ (-(3 / 2) : ℝ)) =
        s ^ (-(3 / 2) : ℝ) * ((∑ i, c i) * (∑ j, c j) - qform (fun i j => Real.exp (-(s * ‖x i - x j‖ ^ 2))) c) := by
      unfold qform
      rw [Finset.sum_mul_sum, ← Finset.sum_sub_distrib, Finset.mul_sum]
      refine Finset.sum_congr rfl fun i _ => ?_
      rw [← Finset.sum_sub_distrib, Finset.mul_sum]
      exact Finset.sum_congr rfl fun j _ => by ring
    rw [h1, hc]
    have := (PSD.gauss x (le_of_lt hs)).2 c
    have hp : 0 ≤ s ^ (-(3 / 2) : ℝ) := Real.rpow_nonneg (le_of_lt hs) _
    nlinarith
  by_contra hcon
  exact absurd hle (not_le.2 (mul_pos (not_le.1 hcon) mixC_pos))

/-- Schoenberg. -/
theorem PSD.schoenberg (x : ι → E) : PSD fun i j => ‖x i‖ + ‖x j‖ - ‖x i - x j‖ := by
  refine ⟨fun i j => by simp only [norm_sub_rev (x i), add_comm ‖x i‖], fun c => ?_⟩
  have h := norm_cnd (ι := Option ι) (fun o => o.elim 0 x) (fun o => o.elim (-∑ i, c i) c)
    (by rw [Fintype.sum_option]; simp)
  have e : qform (ι := Option ι) (fun a b => ‖(a.elim 0 x : E) - b.elim 0 x‖) (fun o => o.elim (-∑ i, c i) c) =
      -qform (fun i j => ‖x i‖ + ‖x j‖ - ‖x i - x j‖) c := by
    unfold qform
    simp only [Fintype.sum_option, Option.elim, sub_self, norm_zero, mul_zero, zero_add, zero_sub, norm_neg,
      sub_zero]
    have a1 : ∑ i, ∑ j, c i * c j * (‖x i‖ + ‖x j‖ - ‖x i - x j‖) =
        (∑ i, c i * ‖x i‖) * (∑ j, c j) + (∑ i, c i) * (∑ j, c j * ‖x j‖) - ∑ i, ∑ j, c i * c j * ‖x i - x j‖ := by
      rw [Finset.sum_mul_sum, Finset.sum_mul_sum, ← Finset.sum_add_distrib, ← Finset.sum_sub_distrib]
      refine Finset.sum_congr rfl fun i _ => ?_
      rw [← Finset.sum_add_distrib, ← Finset.sum_sub_distrib]
      exact Finset.sum_congr rfl fun j _ => by ring
    have a2 : ∑ i, (c i * -∑ i, c i) * ‖x i‖ = -((∑ i, c i * ‖x i‖) * ∑ i, c i) := by
      rw [← mul_neg]
      generalize -∑ i, c i = S
      rw [Finset.sum_mul]
      exact Finset.sum_congr rfl fun i _ => by ring
    have a3 : ∑ i, ((-∑ i, c i) * c i) * ‖x i‖ = -((∑ i, c i) * (∑ i, c i * ‖x i‖)) := by
      rw [← neg_mul]
      generalize -∑ i, c i = S
      rw [Finset.mul_sum]
      exact Finset.sum_congr rfl fun i _ => by ring
    rw [Finset.sum_add_distrib, a1, a2, a3]; ring
  rw [e] at h; linarith

/-- The exponential kernel is positive semi-definite. -/
theorem PSD.expNorm (x : ι → E) : PSD fun i j => Real.exp (-‖x i - x j‖) := by
  have : (fun i j => Real.exp (-‖x i - x j‖)) = fun i j =>
      (Real.exp (-‖x i‖) * Real.exp (-‖x j‖)) * Real.exp (‖x i‖ + ‖x j‖ - ‖x i - x j‖) := by
    funext i j
    rw [← Real.exp_add, ← Real.exp_add]; congr 1; ring
  rw [this]
  exact (PSD.rank1 fun i => Real.exp (-‖x i‖)).mul (PSD.schoenberg x).exp

/-! ### The kernel of the estimator -/

/-- A location in units of the length scales. -/
noncomputable def Row.scaled (r : Row) : EuclideanSpace ℝ (Fin 4) :=
  WithLp.toLp 2 ![r.x / 357000, r.y / 357000, r.p / 326, r.t / 34560]

theorem matern_eq (a b : Row) : matern a b = sigmaExpSq * Real.exp (-‖a.scaled - b.scaled‖) := by
  unfold matern
  congr 3
  rw [EuclideanSpace.norm_eq, Fin.sum_univ_four]
  simp [Row.scaled]
  congr 1
  ring

theorem matern_self (a : Row) : matern a a = sigmaExpSq := by simp [matern_eq]

theorem matern_comm (a b : Row) : matern a b = matern b a := by
  rw [matern_eq, matern_eq, norm_sub_rev]

theorem sigmaExpSq_pos : 0 < sigmaExpSq := by norm_num [sigmaExpSq]

theorem PSD.matern (r : ι → Row) : PSD fun i j => BLE.matern (r i) (r j) := by
  simp only [matern_eq]
  exact (PSD.expNorm fun i => (r i).scaled).smul sigmaExpSq_pos.le

theorem gramMatrix_split (data : List (Row × (ℝ × ℝ))) :
    gramMatrix data = Matrix.of (fun i j => matern (data.get i).1 (data.get j).1) + sigmaNoiseSq • (1 : Matrix _ _ ℝ) := by
  ext i j
  simp only [gramMatrix, Matrix.of_apply, Matrix.add_apply, Matrix.smul_apply, Matrix.one_apply, smul_eq_mul]
  split_ifs <;> simp

/-- The matrix to be factorised is positive definite for every training set: `fit` cannot fail. -/
theorem gramMatrix_posDef (data : List (Row × (ℝ × ℝ))) : (gramMatrix data).PosDef := by
  rw [gramMatrix_split]
  have h1 := (PSD.iff _).1 (PSD.matern fun i : Fin data.length => (data.get i).1)
  have h2 : (sigmaNoiseSq • (1 : Matrix (Fin data.length) (Fin data.length) ℝ)).PosDef :=
    Matrix.PosDef.one.smul (by norm_num [sigmaNoiseSq])
  exact h2.posSemidef_add h1

/-- Posterior variance: non-negative before clipping, at most the prior variance. -/
theorem posteriorVar_bounds (data : List (Row × (ℝ × ℝ))) (l : Row) :
    (posteriorVar data l = matern l l - gramVector data l ⬝ᵥ ((gramMatrix data)⁻¹ *ᵥ gramVector data l)) ∧
    0 ≤ posteriorVar data l ∧ posteriorVar data l ≤ sigmaExpSq := by
  have hA := gramMatrix_posDef data
  have hlow : 0 ≤ gramVector data l ⬝ᵥ ((gramMatrix data)⁻¹ *ᵥ gramVector data l) := by
    have := (Matrix.posSemidef_iff_dotProduct_mulVec.1 hA.inv.posSemidef).2 (gramVector data l)
    simpa using this
  have hup : 0 ≤ matern l l - gramVector data l ⬝ᵥ ((gramMatrix data)⁻¹ *ᵥ gramVector data l) := by
    -- quadratic form of the kernel on training points and query, at weights (-A⁻¹k, 1)
    set k := gramVector data l with hk
    set w := (gramMatrix data)⁻¹ *ᵥ k with hw
    have h := (PSD.matern fun o : Option (Fin data.length) => o.elim l fun i => (data.get i).1).2
      (fun o => o.elim 1 fun i => -w i)
    have e : qform (fun a b : Option (Fin data.length) => matern (a.elim l fun i => (data.get i).1)
        (b.elim l fun i => (data.get i).1)) (fun o => o.elim 1 fun i => -w i) =
        matern l l - 2 * (k ⬝ᵥ w) + w ⬝ᵥ (Matrix.of (fun i j => matern (data.get i).1 (data.get j).1) *ᵥ w) := by
      rw [← qform_eq]
      unfold qform dotProduct
      simp only [Fintype.sum_option, Option.elim, one_mul, mul_one, neg_mul_neg]
      rw [Finset.sum_add_distrib]
      have : ∑ i, -w i * matern (data.get i).1 l = -∑ i, k i * w i := by
        rw [← Finset.sum_neg_distrib]
        exact Finset.sum_congr rfl fun i _ => by simp only [hk, gramVector]; ring
      have h2 : ∑ i, -w i * matern l (data.get i).1 = -∑ i, k i * w i := by
        rw [← this]; exact Finset.sum_congr rfl fun i _ => by rw [matern_comm]
      rw [this, h2]; ring
    rw [e] at h
    have hAw : gramMatrix data *ᵥ w = k := by
      rw [hw, Matrix.mulVec_mulVec, Matrix.mul_nonsing_inv _ ((Matrix.isUnit_iff_isUnit_det _).1 hA.isUnit),
        Matrix.one_mulVec]
    have hsplit : w ⬝ᵥ (Matrix.of (fun i j => matern (data.get i).1 (data.get j).1) *ᵥ w) =
        k ⬝ᵥ w - sigmaNoiseSq * (w ⬝ᵥ w) := by
      have := congrArg (fun v => w ⬝ᵥ v) hAw
      simp only [gramMatrix_split, Matrix.add_mulVec, Matrix.smul_mulVec, Matrix.one_mulVec,
        dotProduct_add, dotProduct_smul, smul_eq_mul] at this
      rw [dotProduct_comm k w]; linarith
    have hww : 0 ≤ w ⬝ᵥ w := by
      unfold dotProduct; exact Finset.sum_nonneg fun i _ => mul_self_nonneg _
    have : 0 ≤ sigmaNoiseSq * (w ⬝ᵥ w) := mul_nonneg (by norm_num [sigmaNoiseSq]) hww
    rw [hsplit] at h
    linarith
  unfold posteriorVar
  rw [max_eq_right hup]
  refine ⟨rfl, hup, ?_⟩
  rw [matern_self]; linarith

end BLE
