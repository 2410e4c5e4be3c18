import Mathlib.Analysis.Complex.ExponentialBounds
import Verif.Props.WindGP

/-!
# C129: what measurements do to the estimated wind
-/

namespace BLE

open Matrix

theorem perm_equiv {α : Type} {l l' : List α} (h : l.Perm l') : ∃ σ : Fin l.length ≃ Fin l'.length, ∀ i, l.get i = l'.get (σ i) := by
  induction h with
  | nil => exact ⟨Equiv.refl _, fun i => i.elim0⟩
  | @cons a l l' _ ih =>
    obtain ⟨σ, hσ⟩ := ih
    refine ⟨(finSuccEquiv l.length).trans ((Equiv.optionCongr σ).trans (finSuccEquiv l'.length).symm), fun i => ?_⟩
    refine Fin.cases ?_ (fun j => ?_) i
    · rfl
    · have := hσ j
      simpa [finSuccEquiv_succ] using this
  | swap a b l =>
    refine ⟨Equiv.swap 0 1, fun i => ?_⟩
    refine Fin.cases ?_ (fun j => Fin.cases ?_ (fun k => ?_) j) i
    · simp [Equiv.swap_apply_left]
    · simp [Equiv.swap_apply_right]
    · rw [Equiv.swap_apply_of_ne_of_ne]
      · rfl
      · simp
      · intro e; simpa using congrArg Fin.val e
  | trans _ _ ih1 ih2 =>
    obtain ⟨σ, hσ⟩ := ih1
    obtain ⟨τ, hτ⟩ := ih2
    exact ⟨σ.trans τ, fun i => (hσ i).trans (hτ _)⟩

theorem gram_equiv (data data' : List (Row × (ℝ × ℝ))) (σ : Fin data.length ≃ Fin data'.length)
    (h : ∀ i, (data.get i).1 = (data'.get (σ i)).1) :
    gramMatrix data = (gramMatrix data').submatrix σ σ ∧ ∀ l, gramVector data l = gramVector data' l ∘ σ := by
  refine ⟨?_, fun l => ?_⟩
  · ext i j
    simp only [gramMatrix, Matrix.submatrix_apply, Matrix.of_apply, h i, h j, σ.injective.eq_iff]
  · funext i
    simp only [gramVector, Function.comp_apply, h i]

theorem inv_equiv (data data' : List (Row × (ℝ × ℝ))) (σ : Fin data.length ≃ Fin data'.length)
    (h : ∀ i, (data.get i).1 = (data'.get (σ i)).1) (l : Row) (y : Fin data'.length → ℝ) :
    gramVector data l ⬝ᵥ ((gramMatrix data)⁻¹ *ᵥ (y ∘ σ)) = gramVector data' l ⬝ᵥ ((gramMatrix data')⁻¹ *ᵥ y) := by
  obtain ⟨h1, h2⟩ := gram_equiv data data' σ h
  rw [h1, h2 l, Matrix.inv_submatrix_equiv]
  unfold dotProduct mulVec dotProduct
  rw [← Equiv.sum_comp σ]
  refine Finset.sum_congr rfl fun i _ => ?_
  simp only [Function.comp_apply, Matrix.submatrix_apply]
  rw [Equiv.sum_comp σ fun j => (gramMatrix data')⁻¹ (σ i) j * y j]

/-- C129. The order in which observations are stored does not matter. -/
theorem C129_order (data data' : List (Row × (ℝ × ℝ))) (h : data.Perm data') (target : ℝ × ℝ → ℝ) (l : Row) :
    posteriorMean data target l = posteriorMean data' target l ∧ posteriorVar data l = posteriorVar data' l := by
  obtain ⟨σ, hσ⟩ := perm_equiv h
  have h1 : ∀ i, (data.get i).1 = (data'.get (σ i)).1 := fun i => by rw [hσ i]
  constructor
  · unfold posteriorMean
    rw [← inv_equiv data data' σ h1 l]
    congr 3
    funext i
    simp only [Function.comp_apply, hσ i]
  · unfold posteriorVar
    rw [← inv_equiv data data' σ h1 l, (gram_equiv data data' σ h1).2 l]

/-- C129. Effects of errors add up, in proportion, place by place: whatever was measured at the places `r i`, the correction for a
sum of multiples of two sets of errors is the sum of the multiples of the corrections. -/
theorem C129_superposition {ι : Type} (idx : List ι) (r : ι → Row) (e e' : ι → ℝ × ℝ) (a b : ℝ) (l : Row) :
    posteriorMean (idx.map fun i => (r i, (a * (e i).1 + b * (e' i).1, a * (e i).2 + b * (e' i).2))) (·.1) l =
        a * posteriorMean (idx.map fun i => (r i, e i)) (·.1) l + b * posteriorMean (idx.map fun i => (r i, e' i)) (·.1) l ∧
    posteriorMean (idx.map fun i => (r i, (a * (e i).1 + b * (e' i).1, a * (e i).2 + b * (e' i).2))) (·.2) l =
        a * posteriorMean (idx.map fun i => (r i, e i)) (·.2) l + b * posteriorMean (idx.map fun i => (r i, e' i)) (·.2) l ∧
    posteriorVar (idx.map fun i => (r i, e i)) l = posteriorVar (idx.map fun i => (r i, e' i)) l := by
  have key : ∀ (f g : ι → ℝ × ℝ) (y : Fin (idx.map fun i => (r i, g i)).length → ℝ),
      gramVector (idx.map fun i => (r i, f i)) l ⬝ᵥ ((gramMatrix (idx.map fun i => (r i, f i)))⁻¹ *ᵥ
        (y ∘ finCongr (by simp))) = gramVector (idx.map fun i => (r i, g i)) l ⬝ᵥ ((gramMatrix (idx.map fun i => (r i, g i)))⁻¹ *ᵥ y) :=
    fun f g y => inv_equiv _ _ (finCongr (by simp)) (fun i => by simp) l y
  have lin : ∀ t : ℝ × ℝ → ℝ, (∀ i, t (a * (e i).1 + b * (e' i).1, a * (e i).2 + b * (e' i).2) = a * t (e i) + b * t (e' i)) →
      posteriorMean (idx.map fun i => (r i, (a * (e i).1 + b * (e' i).1, a * (e i).2 + b * (e' i).2))) t l =
        a * posteriorMean (idx.map fun i => (r i, e i)) t l + b * posteriorMean (idx.map fun i => (r i, e' i)) t l := by
    intro t ht
    unfold posteriorMean
    rw [← key (fun i => (a * (e i).1 + b * (e' i).1, a * (e i).2 + b * (e' i).2)) e,
      ← key (fun i => (a * (e i).1 + b * (e' i).1, a * (e i).2 + b * (e' i).2)) e',
      ← smul_eq_mul, ← smul_eq_mul, ← dotProduct_smul, ← dotProduct_smul, ← mulVec_smul, ← mulVec_smul, ← dotProduct_add, ← mulVec_add]
    congr 2
    funext i
    simp [ht]
  refine ⟨lin _ fun _ => rfl, lin _ fun _ => rfl, ?_⟩
  unfold posteriorVar
  rw [← key e e', (gram_equiv (idx.map fun i => (r i, e i)) (idx.map fun i => (r i, e' i)) (finCongr (by simp)) (fun i => by simp)).2 l]

theorem kernel_form (data : List (Row × (ℝ × ℝ))) (l : Row) (w : Fin data.length → ℝ) (τ : ℝ) :
    0 ≤ τ ^ 2 * sigmaExpSq - 2 * τ * (gramVector data l ⬝ᵥ w) +
      w ⬝ᵥ (Matrix.of (fun i j => matern (data.get i).1 (data.get j).1) *ᵥ w) := by
  have h := (PSD.matern fun o : Option (Fin data.length) => o.elim l fun i => (data.get i).1).2
    (fun o => o.elim τ fun i => -w i)
  have e : qform (fun a b : Option (Fin data.length) => matern (a.elim l fun i => (data.get i).1)
      (b.elim l fun i => (data.get i).1)) (fun o => o.elim τ fun i => -w i) =
      τ ^ 2 * sigmaExpSq - 2 * τ * (gramVector data l ⬝ᵥ w) +
        w ⬝ᵥ (Matrix.of (fun i j => matern (data.get i).1 (data.get j).1) *ᵥ w) := by
    rw [← qform_eq]
    unfold qform dotProduct
    simp only [Fintype.sum_option, Option.elim, neg_mul_neg, matern_self]
    rw [Finset.sum_add_distrib]
    have h1 : ∑ i, -w i * τ * matern (data.get i).1 l = -τ * ∑ i, gramVector data l i * w i := by
      rw [Finset.mul_sum]
      exact Finset.sum_congr rfl fun i _ => by simp only [gramVector]; ring
    have h2 : ∑ i, τ * -w i * matern l (data.get i).1 = -τ * ∑ i, gramVector data l i * w i := by
      rw [← h1]; exact Finset.sum_congr rfl fun i _ => by rw [matern_comm]; ring
    rw [h1, h2]; ring
  rwa [e] at h

theorem matern_le (a b : Row) : matern a b ≤ sigmaExpSq := by
  rw [matern_eq]
  have : Real.exp (-‖a.scaled - b.scaled‖) ≤ 1 := Real.exp_le_one_iff.2 (by simp)
  nlinarith [sigmaExpSq_pos]

theorem matern_nonneg (a b : Row) : 0 ≤ matern a b := by
  rw [matern_eq]
  exact mul_nonneg sigmaExpSq_pos.le (Real.exp_pos _).le

theorem kernel_upper (data : List (Row × (ℝ × ℝ))) (w : Fin data.length → ℝ) :
    w ⬝ᵥ (Matrix.of (fun i j => matern (data.get i).1 (data.get j).1) *ᵥ w) ≤ data.length * sigmaExpSq * (w ⬝ᵥ w) := by
  have h1 : w ⬝ᵥ (Matrix.of (fun i j => matern (data.get i).1 (data.get j).1) *ᵥ w) ≤ sigmaExpSq * (∑ i, |w i|) ^ 2 := by
    rw [← qform_eq, sq, Finset.sum_mul_sum, Finset.mul_sum]
    unfold qform
    refine Finset.sum_le_sum fun i _ => ?_
    rw [Finset.mul_sum]
    refine Finset.sum_le_sum fun j _ => ?_
    calc w i * w j * matern (data.get i).1 (data.get j).1 ≤ |w i * w j| * matern (data.get i).1 (data.get j).1 :=
          mul_le_mul_of_nonneg_right (le_abs_self _) (matern_nonneg _ _)
      _ ≤ |w i * w j| * sigmaExpSq := mul_le_mul_of_nonneg_left (matern_le _ _) (abs_nonneg _)
      _ = sigmaExpSq * (|w i| * |w j|) := by rw [abs_mul]; ring
  have h2 : (∑ i, |w i|) ^ 2 ≤ data.length * (w ⬝ᵥ w) := by
    have := Finset.sum_mul_sq_le_sq_mul_sq Finset.univ (fun _ => (1 : ℝ)) fun i : Fin data.length => |w i|
    simpa only [one_mul, one_pow, Finset.sum_const, Finset.card_univ, Fintype.card_fin, nsmul_eq_mul, mul_one, sq_abs, dotProduct,
      ← sq] using this
  nlinarith [sigmaExpSq_pos]

/-- C129. Measuring never makes the estimator certain: with `n` observations the normalised uncertainty is at least that of `n`
observations made at the very place asked about, `0.05 / (3.6² n + 0.05)`, and exactly that if all were made there. -/
theorem C129_never_certain (data : List (Row × (ℝ × ℝ))) (l : Row) :
    0.05 / (3.6 ^ 2 * data.length + 0.05) ≤ posteriorVar data l / 3.6 ^ 2 ∧
    ((∀ d ∈ data, d.1 = l) → posteriorVar data l / 3.6 ^ 2 = 0.05 / (3.6 ^ 2 * data.length + 0.05)) := by
  have hs : (0 : ℝ) < sigmaNoiseSq := by norm_num [sigmaNoiseSq]
  have hσ := sigmaExpSq_pos
  have hn0 : (0 : ℝ) ≤ data.length := Nat.cast_nonneg _
  set n : ℝ := (data.length : ℝ) with hn
  have hden : 0 < sigmaExpSq * n + sigmaNoiseSq := by positivity
  have low : sigmaExpSq * (sigmaNoiseSq / (sigmaExpSq * n + sigmaNoiseSq)) ≤ posteriorVar data l := by
    obtain ⟨w, hw⟩ := posteriorVar_attained data l
    rw [hw, matern_self, gramMatrix_split, Matrix.add_mulVec, Matrix.smul_mulVec, Matrix.one_mulVec, dotProduct_add,
      dotProduct_smul, smul_eq_mul]
    set q := w ⬝ᵥ (Matrix.of (fun i j => matern (data.get i).1 (data.get j).1) *ᵥ w) with hq
    have hup : q ≤ n * sigmaExpSq * (w ⬝ᵥ w) := kernel_upper data w
    have hww : 0 ≤ w ⬝ᵥ w := by unfold dotProduct; exact Finset.sum_nonneg fun i _ => mul_self_nonneg _
    have hk := kernel_form data l w (sigmaExpSq * n / (sigmaExpSq * n + sigmaNoiseSq))
    rw [← hq] at hk
    rcases hn0.lt_or_eq with hpos | h0
    · set τ := sigmaExpSq * n / (sigmaExpSq * n + sigmaNoiseSq) with hτ
      have hτ0 : 0 < τ := by positivity
      have e1 : 1 - τ = sigmaNoiseSq / (sigmaExpSq * n + sigmaNoiseSq) := by rw [hτ]; field_simp; ring
      have e2 : (1 - τ) * (sigmaExpSq * n) = τ * sigmaNoiseSq := by rw [e1, hτ]; field_simp
      rw [← e1]
      -- τ times the claim
      have : τ * (sigmaExpSq * (1 - τ)) ≤ τ * (sigmaExpSq - 2 * (gramVector data l ⬝ᵥ w) + (q + sigmaNoiseSq * (w ⬝ᵥ w))) := by
        have h1 : (1 - τ) * q ≤ (1 - τ) * (n * sigmaExpSq * (w ⬝ᵥ w)) :=
          mul_le_mul_of_nonneg_left hup (by rw [e1]; positivity)
        have h2 : (1 - τ) * (n * sigmaExpSq * (w ⬝ᵥ w)) = τ * sigmaNoiseSq * (w ⬝ᵥ w) := by rw [← e2]; ring
        nlinarith
      exact le_of_mul_le_mul_left this hτ0
    · have hd : data = [] := List.length_eq_zero_iff.1 (by have := h0.symm; rw [hn] at this; exact_mod_cast this)
      subst hd
      have : gramVector [] l ⬝ᵥ w = 0 := by unfold dotProduct; exact Finset.sum_eq_zero fun i _ => i.elim0
      have hq0 : q = 0 := by rw [hq]; unfold dotProduct; exact Finset.sum_eq_zero fun i _ => i.elim0
      rw [this, hq0, ← h0]
      simp [hs.ne']
  have eσ : (3.6 : ℝ) ^ 2 = sigmaExpSq := rfl
  have es : (0.05 : ℝ) = sigmaNoiseSq := rfl
  rw [eσ, es]
  refine ⟨?_, fun hall => ?_⟩
  · rw [le_div_iff₀ hσ, mul_comm]; exact low
  · have hup := posteriorVar_le data l fun _ => sigmaExpSq / (sigmaExpSq * n + sigmaNoiseSq)
    have hg : ∀ i : Fin data.length, (data.get i).1 = l := fun i => hall _ (List.get_mem _ _)
    set c := sigmaExpSq / (sigmaExpSq * n + sigmaNoiseSq) with hc
    have e1 : gramVector data l ⬝ᵥ (fun _ => c) = n * (sigmaExpSq * c) := by
      unfold dotProduct gramVector
      simp only [hg, matern_self, Finset.sum_const, Finset.card_univ, Fintype.card_fin, nsmul_eq_mul]
      rfl
    have e2 : (fun _ : Fin data.length => c) ⬝ᵥ (gramMatrix data *ᵥ fun _ => c) = n * (c * (n * sigmaExpSq * c + sigmaNoiseSq * c)) := by
      unfold dotProduct mulVec dotProduct gramMatrix
      simp only [Matrix.of_apply, hg, matern_self, add_mul, Finset.sum_add_distrib, Finset.sum_const, Finset.card_univ,
        Fintype.card_fin, nsmul_eq_mul, ite_mul, zero_mul, Finset.sum_ite_eq, Finset.mem_univ, if_true]
      rw [← hn]; ring
    rw [e1, e2, matern_self] at hup
    have e3 : sigmaExpSq - 2 * (n * (sigmaExpSq * c)) + n * (c * (n * sigmaExpSq * c + sigmaNoiseSq * c)) =
        sigmaExpSq * (sigmaNoiseSq / (sigmaExpSq * n + sigmaNoiseSq)) := by
      rw [hc]; field_simp; ring
    rw [e3] at hup
    rw [div_eq_iff hσ.ne', mul_comm]
    exact le_antisymm hup low

/-- C129. One measurement moves the estimate everywhere towards what was measured, by 99.6 % of the error where it was made and
exponentially less with the distance, never too far; and takes away the corresponding part of the uncertainty. -/
theorem C129_single (d : Row × (ℝ × ℝ)) (target : ℝ × ℝ → ℝ) (l : Row) :
    let dist := Real.sqrt (((d.1.x - l.x) / 357000) ^ 2 + ((d.1.y - l.y) / 357000) ^ 2 +
      ((d.1.p - l.p) / 326) ^ 2 + ((d.1.t - l.t) / 34560) ^ 2)
    posteriorMean [d] target l = 1296 / 1301 * Real.exp (-dist) * target d.2 ∧
    posteriorVar [d] l / 3.6 ^ 2 = 1 - 1296 / 1301 * Real.exp (-2 * dist) := by
  intro dist
  have hA := gramMatrix_posDef [d]
  have hinv : ∀ v : Fin [d].length → ℝ, ∀ i, ((gramMatrix [d])⁻¹ *ᵥ v) i = v i / (sigmaExpSq + sigmaNoiseSq) := by
    intro v i
    have hAu : gramMatrix [d] *ᵥ ((gramMatrix [d])⁻¹ *ᵥ v) = v := by
      rw [Matrix.mulVec_mulVec, Matrix.mul_nonsing_inv _ ((Matrix.isUnit_iff_isUnit_det _).1 hA.isUnit), Matrix.one_mulVec]
    have h := congrFun hAu i
    obtain rfl : i = (0 : Fin 1) := Subsingleton.elim (α := Fin 1) _ _
    rw [eq_div_iff (by norm_num [sigmaExpSq, sigmaNoiseSq]), ← h]
    have hsum : (gramMatrix [d] *ᵥ ((gramMatrix [d])⁻¹ *ᵥ v)) (0 : Fin 1) =
        gramMatrix [d] (0 : Fin 1) (0 : Fin 1) * ((gramMatrix [d])⁻¹ *ᵥ v) (0 : Fin 1) := by
      show ∑ j : Fin 1, gramMatrix [d] (0 : Fin 1) j * ((gramMatrix [d])⁻¹ *ᵥ v) j = _
      rw [Fin.sum_univ_one]
    have : gramMatrix [d] (0 : Fin 1) (0 : Fin 1) = sigmaExpSq + sigmaNoiseSq := by
      have hm := matern_self d.1
      simp only [gramMatrix, Matrix.of_apply, List.get_eq_getElem, Fin.val_zero, List.getElem_cons_zero, hm, if_true]
    rw [this] at hsum
    rw [mul_comm]
    exact hsum.symm
  have hdot : ∀ v : Fin [d].length → ℝ, gramVector [d] l ⬝ᵥ ((gramMatrix [d])⁻¹ *ᵥ v) =
      matern d.1 l * (v (0 : Fin 1) / (sigmaExpSq + sigmaNoiseSq)) := by
    intro v
    unfold dotProduct
    simp only [hinv]
    erw [Fin.sum_univ_one]
    rfl
  have hm : matern d.1 l = 12.96 * Real.exp (-dist) := by
    unfold matern
    congr 1
    norm_num [sigmaExpSq]
  constructor
  · unfold posteriorMean
    rw [hdot, hm]
    simp only [List.get_eq_getElem, Fin.val_zero, List.getElem_cons_zero, sigmaExpSq, sigmaNoiseSq]
    ring
  · rw [(posteriorVar_bounds [d] l).1, hdot, matern_self]
    have : gramVector [d] l (0 : Fin 1) = matern d.1 l := rfl
    rw [this, hm, show -2 * dist = -dist + -dist by ring, Real.exp_add]
    simp only [sigmaExpSq, sigmaNoiseSq]
    ring

theorem inv_small (data : List (Row × (ℝ × ℝ))) (v : Fin data.length → ℝ) :
    sigmaNoiseSq ^ 2 * (((gramMatrix data)⁻¹ *ᵥ v) ⬝ᵥ ((gramMatrix data)⁻¹ *ᵥ v)) ≤ v ⬝ᵥ v := by
  have hA := gramMatrix_posDef data
  set u := (gramMatrix data)⁻¹ *ᵥ v with hu
  have hAu : gramMatrix data *ᵥ u = v := by
    rw [hu, Matrix.mulVec_mulVec, Matrix.mul_nonsing_inv _ ((Matrix.isUnit_iff_isUnit_det _).1 hA.isUnit), Matrix.one_mulVec]
  set K := Matrix.of (fun i j => matern (data.get i).1 (data.get j).1) with hK
  have hsplit : v = K *ᵥ u + sigmaNoiseSq • u := by
    rw [← hAu, gramMatrix_split, Matrix.add_mulVec, Matrix.smul_mulVec, Matrix.one_mulVec]
  have hq : 0 ≤ u ⬝ᵥ (K *ᵥ u) := by
    have := (PSD.matern fun i : Fin data.length => (data.get i).1).2 u
    rwa [qform_eq] at this
  have hz : 0 ≤ (K *ᵥ u) ⬝ᵥ (K *ᵥ u) := by unfold dotProduct; exact Finset.sum_nonneg fun i _ => mul_self_nonneg _
  have hs : (0 : ℝ) < sigmaNoiseSq := by norm_num [sigmaNoiseSq]
  rw [hsplit]
  simp only [dotProduct_add, add_dotProduct, dotProduct_smul, smul_dotProduct, smul_eq_mul]
  rw [dotProduct_comm (K *ᵥ u) u]
  nlinarith [mul_nonneg hs.le hq]

theorem cs_dot {n : ℕ} (a b : Fin n → ℝ) : (a ⬝ᵥ b) ^ 2 ≤ (a ⬝ᵥ a) * (b ⬝ᵥ b) := by
  have := Finset.sum_mul_sq_le_sq_mul_sq Finset.univ a b
  simpa only [dotProduct, sq] using this

/-- C129. The effect of measurements fades with the distance: if all `n` observations are at least `ρ` length scales away (357 km,
326 Pa, 9.6 hours), with errors of at most `Y`, the correction is at most `259.2 n Y exp(-ρ)`, and the normalised uncertainty is
within `259.2 n exp(-2ρ)` of 1. -/
theorem C129_fades (data : List (Row × (ℝ × ℝ))) (l : Row) (ρ Y : ℝ) (target : ℝ × ℝ → ℝ) (hY : ∀ d ∈ data, |target d.2| ≤ Y)
    (hρ : ∀ d ∈ data, ρ ≤ Real.sqrt (((d.1.x - l.x) / 357000) ^ 2 + ((d.1.y - l.y) / 357000) ^ 2 +
      ((d.1.p - l.p) / 326) ^ 2 + ((d.1.t - l.t) / 34560) ^ 2)) :
    |posteriorMean data target l| ≤ 259.2 * data.length * Y * Real.exp (-ρ) ∧
    1 - 259.2 * data.length * Real.exp (-2 * ρ) ≤ posteriorVar data l / 3.6 ^ 2 := by
  have hσ := sigmaExpSq_pos
  have hs : (0 : ℝ) < sigmaNoiseSq := by norm_num [sigmaNoiseSq]
  set k := gramVector data l with hk
  have hki : ∀ i, k i ^ 2 ≤ (sigmaExpSq * Real.exp (-ρ)) ^ 2 := fun i => by
    have h1 : k i ≤ sigmaExpSq * Real.exp (-ρ) := by
      simp only [hk, gramVector, matern]
      exact mul_le_mul_of_nonneg_left (Real.exp_le_exp.2 (neg_le_neg (hρ _ (List.get_mem _ _)))) hσ.le
    exact pow_le_pow_left₀ (matern_nonneg _ _) h1 2
  have hkk : k ⬝ᵥ k ≤ data.length * (sigmaExpSq * Real.exp (-ρ)) ^ 2 := by
    unfold dotProduct
    calc ∑ i, k i * k i ≤ ∑ _i : Fin data.length, (sigmaExpSq * Real.exp (-ρ)) ^ 2 :=
          Finset.sum_le_sum fun i _ => by rw [← sq]; exact hki i
      _ = _ := by simp
  have hkk0 : 0 ≤ k ⬝ᵥ k := by unfold dotProduct; exact Finset.sum_nonneg fun i _ => mul_self_nonneg _
  have bound : ∀ (y : Fin data.length → ℝ) (B : ℝ), 0 ≤ B → y ⬝ᵥ y ≤ data.length * B ^ 2 →
      sigmaNoiseSq * |k ⬝ᵥ ((gramMatrix data)⁻¹ *ᵥ y)| ≤ data.length * (sigmaExpSq * Real.exp (-ρ)) * B := by
    intro y B hB hy
    have h1 := cs_dot k ((gramMatrix data)⁻¹ *ᵥ y)
    have h2 := inv_small data y
    set u := (gramMatrix data)⁻¹ *ᵥ y
    have hn : (0 : ℝ) ≤ data.length := Nat.cast_nonneg _
    refine abs_le_of_sq_le_sq' ?_ (by positivity) |>.2
    rw [mul_pow, sq_abs]
    calc sigmaNoiseSq ^ 2 * (k ⬝ᵥ u) ^ 2 ≤ sigmaNoiseSq ^ 2 * ((k ⬝ᵥ k) * (u ⬝ᵥ u)) := mul_le_mul_of_nonneg_left h1 (by positivity)
      _ = (k ⬝ᵥ k) * (sigmaNoiseSq ^ 2 * (u ⬝ᵥ u)) := by ring
      _ ≤ (k ⬝ᵥ k) * (y ⬝ᵥ y) := mul_le_mul_of_nonneg_left h2 hkk0
      _ ≤ (data.length * (sigmaExpSq * Real.exp (-ρ)) ^ 2) * (data.length * B ^ 2) :=
          mul_le_mul hkk hy (by unfold dotProduct; exact Finset.sum_nonneg fun i _ => mul_self_nonneg _) (by positivity)
      _ = _ := by ring
  have e2 : sigmaExpSq / sigmaNoiseSq = 259.2 := by norm_num [sigmaExpSq, sigmaNoiseSq]
  constructor
  · by_cases hd : data = []
    · subst hd
      have : posteriorMean [] target l = 0 := by unfold posteriorMean dotProduct; exact Finset.sum_eq_zero fun i _ => i.elim0
      simp [this]
    · obtain ⟨d, hd⟩ := List.exists_mem_of_ne_nil _ hd
      have hY0 : 0 ≤ Y := (abs_nonneg _).trans (hY d hd)
      have := bound (fun i => target (data.get i).2) Y hY0 (by
        unfold dotProduct
        calc ∑ i : Fin data.length, target (data.get i).2 * target (data.get i).2 ≤ ∑ _i : Fin data.length, Y ^ 2 :=
              Finset.sum_le_sum fun i _ => by
                rw [← sq, ← sq_abs]; exact pow_le_pow_left₀ (abs_nonneg _) (hY _ (List.get_mem _ _)) 2
          _ = _ := by simp)
      rw [← e2]
      unfold posteriorMean
      rw [← hk]
      have e : sigmaExpSq / sigmaNoiseSq * data.length * Y * Real.exp (-ρ) =
          (data.length * (sigmaExpSq * Real.exp (-ρ)) * Y) / sigmaNoiseSq := by ring
      rw [e, le_div_iff₀ hs, mul_comm]
      exact this
  · have := bound k (sigmaExpSq * Real.exp (-ρ)) (by positivity) hkk
    have h1 := le_abs_self (k ⬝ᵥ ((gramMatrix data)⁻¹ *ᵥ k))
    rw [(posteriorVar_bounds data l).1, matern_self, ← hk]
    have eσ : (3.6 : ℝ) ^ 2 = sigmaExpSq := rfl
    rw [eσ, le_div_iff₀ hσ, ← e2]
    have e : (1 - sigmaExpSq / sigmaNoiseSq * data.length * Real.exp (-2 * ρ)) * sigmaExpSq =
        sigmaExpSq - (data.length * (sigmaExpSq * Real.exp (-ρ)) * (sigmaExpSq * Real.exp (-ρ))) / sigmaNoiseSq := by
      rw [show -2 * ρ = -ρ + -ρ by ring, Real.exp_add]
      field_simp
    rw [e]
    have h2 : |k ⬝ᵥ ((gramMatrix data)⁻¹ *ᵥ k)| ≤
        (data.length * (sigmaExpSq * Real.exp (-ρ)) * (sigmaExpSq * Real.exp (-ρ))) / sigmaNoiseSq := by
      rw [le_div_iff₀ hs, mul_comm]; exact this
    linarith

/-- C129, for queries. Two estimators whose observations are the same up to order answer every vertical batch alike. -/
theorem C129_query_order (two : Bool) (g g' : WindGP) (hd : g.data.Perm g'.data) (hf : g.forecast = g'.forecast) (x y : ℝ) (t : ℤ)
    (ps : List ℝ) : g.queryBatch (gpr two) (Spec.batch x y t ps) = g'.queryBatch (gpr two) (Spec.batch x y t ps) := by
  classical
  cases ps with
  | nil => rfl
  | cons p ps =>
    by_cases hne : g.data = []
    · have hne' : g'.data = [] := by rw [hne] at hd; exact List.nil_perm.1 hd
      rw [queryBatch_empty _ g hne, queryBatch_empty _ g' hne', hf]
    · have hne' : g'.data ≠ [] := fun h => hne (by rw [h] at hd; exact List.perm_nil.1 hd)
      rw [queryBatch_data _ g hne, queryBatch_data _ g' hne', hf]
      have hr : (Spec.recent g.data t).Perm (Spec.recent g'.data t) := hd.filter _
      by_cases hrn : Spec.recent g.data t = []
      · rw [hrn] at hr ⊢
        rw [List.nil_perm.1 hr]
      · have hrn' : Spec.recent g'.data t ≠ [] := fun h => hrn (by rw [h] at hr; exact List.perm_nil.1 hr)
        rw [gpr_ok two _ hrn, gpr_ok two _ hrn']
        simp only [(C129_order _ _ hr _ _).1, (C129_order _ _ hr (·.1) _).2]

/-- C129, for queries. Once something was observed, no answer is ever given with certainty: with `n` observations less than six
hours away every deviation is at least `0.05 / (3.6² n + 0.05)`. -/
theorem C129_query_uncertain (two : Bool) (g : WindGP) (hg : g.data ≠ []) (x y : ℝ) (t : ℤ) (ps : List ℝ) (ms : List (ℝ × ℝ))
    (ds : List ℝ) (h : g.queryBatch (gpr two) (Spec.batch x y t ps) = .ok (ms, ds)) :
    ∀ d ∈ ds, 0.05 / (3.6 ^ 2 * (Spec.recent g.data t).length + 0.05) ≤ d := by
  cases ps with
  | nil => cases h
  | cons p ps =>
    rw [queryBatch_data _ g hg] at h
    by_cases hr : Spec.recent g.data t = []
    · rw [hr] at h
      simp [gpr] at h
    · rw [gpr_ok two _ hr] at h
      simp only at h
      split at h
      · cases h
      · simp only [Except.ok.injEq, Prod.mk.injEq] at h
        rw [← h.2, deviations_gpr]
        intro d hd
        obtain ⟨l, -, rfl⟩ := List.mem_map.1 hd
        exact (C129_never_certain _ l).1

/-- Four measurements at one place leave 0.1 % of the uncertainty there. -/
example (l : Row) (e : ℝ × ℝ) : posteriorVar (List.replicate 4 (l, e)) l / 3.6 ^ 2 = 5 / 5189 := by
  rw [(C129_never_certain _ l).2 fun d hd => by rw [List.eq_of_mem_replicate hd]]
  norm_num

/-- One measurement of 10 m/s more than forecast, asked about 3260 Pa away: the correction is below 1 mm/s. -/
example : |posteriorMean [(⟨0, 0, 5000, 0⟩, (10, 0))] (·.1) ⟨0, 0, 8260, 0⟩| < 0.001 := by
  rw [(C129_single _ _ _).1]
  have : Real.sqrt (((0 - 0) / 357000) ^ 2 + ((0 - 0) / 357000) ^ 2 + ((5000 - 8260) / 326) ^ 2 + ((0 - 0) / 34560) ^ 2) = (10 : ℝ) := by
    rw [show ((0 - 0) / 357000) ^ 2 + ((0 - 0) / 357000) ^ 2 + ((5000 - 8260) / 326) ^ 2 + ((0 - 0) / 34560) ^ 2 = (10 : ℝ) ^ 2 by norm_num]
    exact Real.sqrt_sq (by norm_num)
  simp only [this]
  have h10 : (22026 : ℝ) < Real.exp 10 := by
    have h1 := Real.exp_one_gt_d9
    have : Real.exp 10 = Real.exp 1 ^ 10 := by rw [← Real.exp_nat_mul]; norm_num
    rw [this]
    calc (22026 : ℝ) < 2.7182818283 ^ 10 := by norm_num
      _ < _ := pow_lt_pow_left₀ h1 (by norm_num) (by norm_num)
  have h3 : Real.exp (-10) < 1 / 22026 := by
    rw [Real.exp_neg, ← one_div]
    exact one_div_lt_one_div_of_lt (by norm_num) h10
  rw [abs_of_nonneg (by positivity)]
  linarith

end BLE
