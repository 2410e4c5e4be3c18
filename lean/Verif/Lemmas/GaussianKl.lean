import Mathlib.InformationTheory.KullbackLeibler.Basic
import Mathlib.Probability.Distributions.Gaussian.Real
import Mathlib.MeasureTheory.Integral.Pi

/-!
# Relative entropy of normal distributions with independent coordinates
-/

namespace BLE

open MeasureTheory ProbabilityTheory InformationTheory

variable {α : Type*} [MeasurableSpace α]

/-- Relative entropy to a measure from a density that is an exponential. -/
theorem klDiv_of_exp_density (μ ν : Measure α) [IsProbabilityMeasure μ] [IsProbabilityMeasure ν] (ell : α → ℝ)
    (hm : Measurable ell) (hd : μ = ν.withDensity fun x => ENNReal.ofReal (Real.exp (ell x))) (hi : Integrable ell μ) :
    klDiv μ ν ≠ ⊤ ∧ (klDiv μ ν).toReal = ∫ x, ell x ∂μ := by
  have hac : μ ≪ ν := by rw [hd]; exact withDensity_absolutelyContinuous _ _
  have hr : μ.rnDeriv ν =ᵐ[ν] fun x => ENNReal.ofReal (Real.exp (ell x)) := by
    conv_lhs => rw [hd]
    exact Measure.rnDeriv_withDensity _ (by fun_prop)
  have hl : llr μ ν =ᵐ[μ] ell := by
    filter_upwards [hac.ae_le hr] with x hx
    rw [llr, hx, ENNReal.toReal_ofReal (Real.exp_pos _).le, Real.log_exp]
  have hint : Integrable (llr μ ν) μ := (integrable_congr hl).2 hi
  refine ⟨klDiv_ne_top hac hint, ?_⟩
  rw [toReal_klDiv_of_measure_eq hac (by simp), integral_congr_ae hl]

/-- Logarithm of the density of N(m, v) relative to N(0, 1). -/
noncomputable def logRatio (m v x : ℝ) : ℝ := -(1 / 2) * Real.log v - (x - m) ^ 2 / (2 * v) + x ^ 2 / 2

theorem gaussian_density (m : ℝ) (v : NNReal) (hv : v ≠ 0) :
    gaussianReal m v = (gaussianReal 0 1).withDensity fun x => ENNReal.ofReal (Real.exp (logRatio m v x)) := by
  have hv' : (0 : ℝ) < v := by positivity
  rw [gaussianReal_of_var_ne_zero _ hv, gaussianReal_of_var_ne_zero _ one_ne_zero, ← withDensity_mul]
  · congr 1
    funext x
    simp only [gaussianPDF, Pi.mul_apply]
    rw [← ENNReal.ofReal_mul (gaussianPDFReal_nonneg _ _ _)]
    congr 1
    simp only [gaussianPDFReal, logRatio, NNReal.coe_one, mul_one, sub_zero]
    have h : (Real.sqrt v)⁻¹ = Real.exp (-(1 / 2) * Real.log v) := by
      rw [← Real.exp_log (show (0 : ℝ) < (Real.sqrt v)⁻¹ by positivity), Real.log_inv, Real.log_sqrt hv'.le]
      congr 1
      ring
    rw [Real.sqrt_mul (by positivity), mul_inv, h, mul_assoc, mul_assoc, ← Real.exp_add, ← Real.exp_add]
    congr 2
    ring
  · exact measurable_gaussianPDF _ _
  · unfold logRatio; fun_prop

theorem integral_logRatio (m : ℝ) (v : NNReal) (hv : v ≠ 0) :
    Integrable (logRatio m v) (gaussianReal m v) ∧
    ∫ x, logRatio m v x ∂gaussianReal m v = -(1 / 2) * (1 + Real.log v - m ^ 2 - v) := by
  have hv' : (v : ℝ) ≠ 0 := by exact_mod_cast hv
  have e : logRatio m v = fun x =>
      (-(1 / 2) * Real.log v - m ^ 2 / 2) + ((1 / 2 - 1 / (2 * v)) * (x - m) ^ 2 + m * x) := by
    funext x
    unfold logRatio
    field_simp
    ring
  have i1 : Integrable (fun x : ℝ => x) (gaussianReal m v) :=
    (memLp_id_gaussianReal' 1 (by simp)).integrable le_rfl
  have i2 : Integrable (fun x : ℝ => (x - m) ^ 2) (gaussianReal m v) :=
    ((memLp_id_gaussianReal' 2 (by simp)).sub (memLp_const m)).integrable_sq
  have v2 : ∫ x, (x - m) ^ 2 ∂gaussianReal m v = v := by
    have h := variance_fun_id_gaussianReal (μ := m) (v := v)
    rw [variance_eq_integral (by fun_prop)] at h
    simpa [integral_id_gaussianReal] using h
  have i3 : Integrable (fun x : ℝ => (1 / 2 - 1 / (2 * (v : ℝ))) * (x - m) ^ 2 + m * x) (gaussianReal m v) :=
    (i2.const_mul _).add (i1.const_mul _)
  rw [e]
  refine ⟨(integrable_const _).add i3, ?_⟩
  rw [integral_add (integrable_const _) i3, integral_add (i2.const_mul _) (i1.const_mul _), integral_const_mul,
    integral_const_mul, v2, integral_id_gaussianReal]
  simp only [integral_const, probReal_univ, smul_eq_mul, one_mul]
  field_simp
  ring

theorem pi_density {n : ℕ} (μ ν : Fin n → Measure ℝ) [∀ i, IsProbabilityMeasure (μ i)] [∀ i, IsProbabilityMeasure (ν i)]
    (ell : Fin n → ℝ → ℝ) (hm : ∀ i, Measurable (ell i))
    (hd : ∀ i, μ i = (ν i).withDensity fun x => ENNReal.ofReal (Real.exp (ell i x))) :
    Measure.pi μ = (Measure.pi ν).withDensity fun x => ENNReal.ofReal (Real.exp (∑ i, ell i (x i))) := by
  refine Measure.pi_eq fun s hs => ?_
  rw [withDensity_apply _ (MeasurableSet.univ_pi hs), Measure.restrict_pi_pi]
  have hi : ∀ i, Integrable (fun x => Real.exp (ell i x)) ((ν i).restrict (s i)) := by
    intro i
    refine Integrable.restrict ⟨((hm i).exp).aestronglyMeasurable, ?_⟩
    rw [hasFiniteIntegral_iff_ofReal (ae_of_all _ fun x => (Real.exp_pos _).le)]
    have h := measure_univ (μ := μ i)
    rw [hd i, withDensity_apply _ MeasurableSet.univ, Measure.restrict_univ] at h
    rw [h]
    exact ENNReal.one_lt_top
  simp only [Real.exp_sum]
  rw [← ofReal_integral_eq_lintegral_ofReal (Integrable.fintype_prod hi) (ae_of_all _ fun x => by positivity),
    integral_fintype_prod_eq_prod (fun i x => Real.exp (ell i x)), ENNReal.ofReal_prod_of_nonneg fun i _ => integral_nonneg fun x => by positivity]
  refine Finset.prod_congr rfl fun i _ => ?_
  rw [ofReal_integral_eq_lintegral_ofReal (hi i) (ae_of_all _ fun x => by positivity), hd i, withDensity_apply _ (hs i)]

/-- The relative entropy of independent normal variates with means `m i` and variances `v i` to standard normal ones. -/
theorem klDiv_gaussians {n : ℕ} (m : Fin n → ℝ) (v : Fin n → NNReal) (hv : ∀ i, v i ≠ 0) :
    klDiv (Measure.pi fun i => gaussianReal (m i) (v i)) (Measure.pi fun _ : Fin n => gaussianReal 0 1) ≠ ⊤ ∧
    (klDiv (Measure.pi fun i => gaussianReal (m i) (v i)) (Measure.pi fun _ : Fin n => gaussianReal 0 1)).toReal =
      ∑ i, -(1 / 2) * (1 + Real.log (v i) - m i ^ 2 - v i) := by
  have hm : ∀ i, Measurable (logRatio (m i) (v i)) := fun i => by unfold logRatio; fun_prop
  have hi : ∀ i, Integrable (fun x : Fin n → ℝ => logRatio (m i) (v i) (x i)) (Measure.pi fun i => gaussianReal (m i) (v i)) :=
    fun i => integrable_comp_eval (integral_logRatio (m i) (v i) (hv i)).1
  have h := klDiv_of_exp_density (Measure.pi fun i => gaussianReal (m i) (v i)) (Measure.pi fun _ : Fin n => gaussianReal 0 1)
    (fun x => ∑ i, logRatio (m i) (v i) (x i)) (by fun_prop)
    (pi_density _ _ (fun i => logRatio (m i) (v i)) hm fun i => gaussian_density (m i) (v i) (hv i))
    (integrable_finset_sum _ fun i _ => hi i)
  refine ⟨h.1, h.2.trans ?_⟩
  rw [integral_finset_sum _ fun i _ => hi i]
  refine Finset.sum_congr rfl fun i _ => ?_
  rw [← (integral_logRatio (m i) (v i) (hv i)).2]
  exact integral_comp_eval (μ := fun i => gaussianReal (m i) (v i)) (hm i).aestronglyMeasurable

end BLE
