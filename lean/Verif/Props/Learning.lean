import Mathlib.Analysis.Calculus.Deriv.Slope
import Verif.Model.Networks
import Verif.Props.Features

/-!
# C107: the MLP agent's update (`agents/mlp_agent.py`, `agents/networks.py`, `agents/configs/mlp.gin`)
-/

namespace BLE

open InnerProductSpace

/-- The temporal-difference error of `(s, a, r, s', a')` under parameters `p`. -/
def Spec.tdError {P : Type} (value : P → List ℝ → ℤ → ℝ) (γ : ℝ) (p : P) (s : List ℝ) (a : ℤ) (r : ℝ) (s' : List ℝ)
    (a' : ℤ) : ℝ :=
  value p s a - (r + γ * value p s' a')

section general
variable {P : Type} [NormedAddCommGroup P] [InnerProductSpace ℝ P] [CompleteSpace P]

theorem loss_gradient (value : P → List ℝ → ℤ → ℝ) (γ : ℝ) (s : List ℝ) (a : ℤ) (r : ℝ) (s' : List ℝ) (a' : ℤ) (p g g' : P)
    (h : HasGradientAt (fun p => value p s a) g p) (h' : HasGradientAt (fun p => value p s' a') g' p) :
    HasGradientAt (sarsaLoss value γ s a r s' a') ((2 * Spec.tdError value γ p s a r s' a') • (g - γ • g')) p := by
  rw [hasGradientAt_iff_hasFDerivAt] at *
  have k := (h.sub ((h'.const_mul γ).const_add r)).pow 2
  refine k.congr_fderiv ?_
  ext v
  simp [Spec.tdError, inner_sub_left, inner_smul_left]

/-- C107 (any network, at parameters where it is differentiable). What a training step does: it moves the parameters
along the gradient of the value of the action taken *minus* `γ` times the gradient of the value of the next action. -/
theorem C107_update_partial (value : P → List ℝ → ℤ → ℝ) (η γ : ℝ) (s : List ℝ) (a : ℤ) (r : ℝ) (s' : List ℝ) (a' : ℤ)
    (p : P) (h : DifferentiableAt ℝ (fun p => value p s a) p) (h' : DifferentiableAt ℝ (fun p => value p s' a') p) :
    (sarsaTrain value η γ p () s a r s' a').1 = p - (2 * η * Spec.tdError value γ p s a r s' a') •
      (gradient (fun p => value p s a) p - γ • gradient (fun p => value p s' a') p) := by
  have k := loss_gradient value γ s a r s' a' p _ _ h.hasGradientAt h'.hasGradientAt
  unfold sarsaTrain
  simp only
  rw [k.gradient, smul_smul, neg_mul, neg_smul, ← sub_eq_add_neg]
  congr 2
  ring

/-- C107. The squared temporal-difference error does go down for every small enough learning rate, unless its gradient
vanishes. -/
theorem C107_small_rate (value : P → List ℝ → ℤ → ℝ) (γ : ℝ) (s : List ℝ) (a : ℤ) (r : ℝ) (s' : List ℝ) (a' : ℤ)
    (p : P) (h : DifferentiableAt ℝ (fun p => value p s a) p) (h' : DifferentiableAt ℝ (fun p => value p s' a') p)
    (h0 : Spec.tdError value γ p s a r s' a' ≠ 0)
    (hg : gradient (fun p => value p s a) p ≠ γ • gradient (fun p => value p s' a') p) :
    ∃ η0 > 0, ∀ η, 0 < η → η < η0 →
      |Spec.tdError value γ (sarsaTrain value η γ p () s a r s' a').1 s a r s' a'| < |Spec.tdError value γ p s a r s' a'| := by
  have k := loss_gradient value γ s a r s' a' p _ _ h.hasGradientAt h'.hasGradientAt
  set g := (2 * Spec.tdError value γ p s a r s' a') •
    (gradient (fun p => value p s a) p - γ • gradient (fun p => value p s' a') p) with hgdef
  have hg0 : g ≠ 0 := smul_ne_zero (mul_ne_zero two_ne_zero h0) (sub_ne_zero.2 hg)
  have hline : HasDerivAt (fun t : ℝ => p + (-t) • g) (-g) 0 := by
    have := ((hasDerivAt_id (0 : ℝ)).neg.smul_const g).const_add p
    simpa using this
  have kf : HasFDerivAt (sarsaLoss value γ s a r s' a') (toDual ℝ P g) (p + (-(0:ℝ)) • g) := by
    simpa using (hasGradientAt_iff_hasFDerivAt.1 k)
  have hφ := kf.comp_hasDerivAt (0 : ℝ) hline
  have hneg : (toDual ℝ P g) (-g) < 0 := by
    rw [toDual_apply_apply, inner_neg_right, neg_lt_zero]
    exact real_inner_self_pos.2 hg0
  have hs := (hasDerivAt_iff_tendsto_slope.1 hφ).eventually (gt_mem_nhds hneg)
  rw [eventually_nhdsWithin_iff, Metric.eventually_nhds_iff] at hs
  obtain ⟨η0, hη0, hs⟩ := hs
  refine ⟨η0, hη0, fun η hη hη' => ?_⟩
  have hlt := hs (y := η) (by rw [Real.dist_eq, sub_zero, abs_of_pos hη]; exact hη') (by simpa using hη.ne')
  rw [slope_def_field, sub_zero, div_lt_iff₀ hη, zero_mul, sub_neg] at hlt
  have e1 : (sarsaTrain value η γ p () s a r s' a').1 = p + (-η) • g := by
    unfold sarsaTrain; simp only; rw [k.gradient]
  rw [e1]
  simp only [Function.comp_apply, neg_zero, zero_smul, add_zero] at hlt
  exact sq_lt_sq.1 hlt

end general

/-! ## The stock network: one layer -/

/-- Entry of the observation that multiplies a parameter; 1 for the bias. -/
def Spec.input (d : ℕ) (obs : List ℝ) : Option (Fin d) → ℝ
  | some i => obs.getD i 0
  | none => 1

/-- Squared length of an observation together with the constant input of the bias. -/
def Spec.energy (d : ℕ) (obs : List ℝ) : ℝ := ∑ i : Fin d, obs.getD i 0 ^ 2 + 1

/-- Value of action `a` in a one-layer network: a weighted sum of the observation plus a bias. -/
def Spec.linearValue (d n : ℕ) (w : Option (Fin d) × Fin n → ℝ) (obs : List ℝ) (a : Fin n) : ℝ :=
  ∑ i : Fin d, obs.getD i 0 * w (some i, a) + w (none, a)

theorem value_linear (d hidden n : ℕ) (p : MlpParams d hidden 1 n) (obs : List ℝ) (a : Fin n) :
    pick (mlpNetwork d hidden 1 n p.ofLp obs) (a : ℕ) = Spec.linearValue d n p.ofLp obs a := by
  unfold pick
  rw [dif_pos ⟨by omega, by simpa using a.isLt⟩]
  rfl

/-- The gradient of the value of an action. -/
noncomputable def featureVec (d hidden n : ℕ) (obs : List ℝ) (a : Fin n) : MlpParams d hidden 1 n :=
  WithLp.toLp 2 (fun ij : Option (Fin d) × Fin n => if ij.2 = a then Spec.input d obs ij.1 else 0)

theorem value_inner (d hidden n : ℕ) (p : MlpParams d hidden 1 n) (obs : List ℝ) (a : Fin n) :
    pick (mlpNetwork d hidden 1 n p.ofLp obs) (a : ℕ) = inner ℝ (featureVec d hidden n obs a) p := by
  rw [value_linear]
  unfold Spec.linearValue
  rw [PiLp.inner_apply]
  show _ = ∑ ij : Option (Fin d) × Fin n, _
  rw [Fintype.sum_prod_type, Fintype.sum_option]
  have e : ∀ i : Option (Fin d), (∑ j : Fin n, inner ℝ ((featureVec d hidden n obs a).ofLp (i, j)) (p.ofLp (i, j))) =
      Spec.input d obs i * p.ofLp (i, a) := by
    intro i
    rw [Finset.sum_eq_single a]
    · simp [featureVec, mul_comm]
    · intro j _ hj; simp [featureVec, hj]
    · simp
  rw [e, Finset.sum_congr rfl fun i _ => e (some i)]
  simp only [Spec.input]
  ring

theorem value_gradient (d hidden n : ℕ) (p : MlpParams d hidden 1 n) (obs : List ℝ) (a : Fin n) :
    HasGradientAt (fun p : MlpParams d hidden 1 n => pick (mlpNetwork d hidden 1 n p.ofLp obs) (a : ℕ))
      (featureVec d hidden n obs a) p := by
  rw [hasGradientAt_iff_hasFDerivAt]
  have : (fun p : MlpParams d hidden 1 n => pick (mlpNetwork d hidden 1 n p.ofLp obs) (a : ℕ)) =
      fun p => toDual ℝ _ (featureVec d hidden n obs a) p := by
    funext p; rw [value_inner]; rfl
  rw [this]
  exact (toDual ℝ _ (featureVec d hidden n obs a)).hasFDerivAt

theorem greedy_spec {n : ℕ} (q : Fin n → ℝ) (h : 0 < n) :
    ∃ b : Fin n, greedy q = (b : ℕ) ∧ (∀ j, q j ≤ q b) ∧ ∀ j < b, q j < q b := by
  classical
  haveI : Nonempty (Fin n) := ⟨⟨0, h⟩⟩
  obtain ⟨m, -, hm⟩ := Finset.exists_max_image (Finset.univ : Finset (Fin n)) q ⟨⟨0, h⟩, Finset.mem_univ _⟩
  have hlt : (List.finRange n).findIdx (fun i => decide (∀ j, q j ≤ q i)) < (List.finRange n).length :=
    List.findIdx_lt_length_of_exists ⟨m, List.mem_finRange m, by simpa using fun j => hm j (Finset.mem_univ j)⟩
  have hlt' := hlt
  rw [List.length_finRange] at hlt'
  have hb := List.findIdx_getElem (w := hlt)
  simp only [List.getElem_finRange, decide_eq_true_eq] at hb
  refine ⟨⟨_, hlt'⟩, rfl, fun j => hb j, fun j hj => ?_⟩
  have hnot := List.not_of_lt_findIdx (Fin.lt_def.1 hj)
  simp only [List.getElem_finRange, decide_eq_false_iff_not] at hnot
  push Not at hnot
  obtain ⟨k, hk⟩ := hnot
  exact lt_of_lt_of_le hk (hb k)

theorem featureVec_diff (d hidden n : ℕ) (γ : ℝ) (o o' : List ℝ) (a b : Fin n) :
    inner ℝ (featureVec d hidden n o a - γ • featureVec d hidden n o' b)
      (featureVec d hidden n o a - γ • featureVec d hidden n o' b) =
    if a = b then ∑ i : Fin d, (o.getD i 0 - γ * o'.getD i 0) ^ 2 + (1 - γ) ^ 2
    else Spec.energy d o + γ ^ 2 * Spec.energy d o' := by
  rw [PiLp.inner_apply]
  have e0 : ∀ ij : Option (Fin d) × Fin n, (featureVec d hidden n o a - γ • featureVec d hidden n o' b).ofLp ij =
      (if ij.2 = a then Spec.input d o ij.1 else 0) - γ * (if ij.2 = b then Spec.input d o' ij.1 else 0) := fun ij => rfl
  show ∑ ij : Option (Fin d) × Fin n, _ = _
  simp only [e0]
  rw [Fintype.sum_prod_type]
  by_cases hab : a = b
  · subst hab
    rw [if_pos rfl]
    have e : ∀ i : Option (Fin d), (∑ j : Fin n, inner ℝ
        ((if j = a then Spec.input d o i else 0) - γ * (if j = a then Spec.input d o' i else 0))
        ((if j = a then Spec.input d o i else 0) - γ * (if j = a then Spec.input d o' i else 0))) =
        (Spec.input d o i - γ * Spec.input d o' i) ^ 2 := by
      intro i
      rw [Finset.sum_eq_single a]
      · rw [if_pos rfl, if_pos rfl, real_inner_self_eq_norm_sq, Real.norm_eq_abs, sq_abs]
      · intro j _ hj; simp [hj]
      · simp
    rw [Finset.sum_congr rfl fun i _ => e i, Fintype.sum_option]
    simp only [Spec.input, mul_one]
    ring
  · rw [if_neg hab]
    have e : ∀ i : Option (Fin d), (∑ j : Fin n, inner ℝ
        ((if j = a then Spec.input d o i else 0) - γ * (if j = b then Spec.input d o' i else 0))
        ((if j = a then Spec.input d o i else 0) - γ * (if j = b then Spec.input d o' i else 0))) =
        Spec.input d o i ^ 2 + γ ^ 2 * Spec.input d o' i ^ 2 := by
      intro i
      have split : ∀ j : Fin n, inner ℝ
          ((if j = a then Spec.input d o i else 0) - γ * (if j = b then Spec.input d o' i else 0))
          ((if j = a then Spec.input d o i else 0) - γ * (if j = b then Spec.input d o' i else 0)) =
          (if j = a then Spec.input d o i ^ 2 else 0) + (if j = b then γ ^ 2 * Spec.input d o' i ^ 2 else 0) := by
        intro j
        by_cases h1 : j = a
        · have h2 : j ≠ b := fun h => hab (h1 ▸ h)
          rw [real_inner_self_eq_norm_sq, Real.norm_eq_abs, sq_abs, if_pos h1, if_neg h2, if_pos h1, if_neg h2]; ring
        · by_cases h2 : j = b
          · rw [real_inner_self_eq_norm_sq, Real.norm_eq_abs, sq_abs, if_neg h1, if_pos h2, if_neg h1, if_pos h2]; ring
          · simp [h1, h2]
      rw [Finset.sum_congr rfl fun j _ => split j, Finset.sum_add_distrib]
      simp
    rw [Finset.sum_congr rfl fun i _ => e i, Fintype.sum_option, Finset.sum_add_distrib, ← Finset.mul_sum]
    simp only [Spec.input, Spec.energy]
    ring

/-- C107 (the stock one-layer network). One `step` of the agent in training mode: the next action is the first one of
largest value, the weights of the action taken move against the temporal-difference error in proportion to the old
observation, and those of the *next* action move with it in proportion to the new one; the temporal-difference error of
the transition is multiplied by `1 - 2 η G`. -/
theorem C107_stock (d hidden n : ℕ) (η γ : ℝ) (s s' : Mlp (MlpParams d hidden 1 n) Unit) (ht : s.train = true)
    (o o' : List ℝ) (a : Fin n) (hl : s.last = some (o, ((a : ℕ) : ℤ))) (r : ℝ) (act : ℤ)
    (h : (mlpAgentOf d hidden 1 n η γ).step s r o' = (s', .ok act)) :
    ∃ b : Fin n, act = (b : ℕ) ∧
      (∀ j, Spec.linearValue d n s.params.ofLp o' j ≤ Spec.linearValue d n s.params.ofLp o' b) ∧
      s'.last = some (o', ((b : ℕ) : ℤ)) ∧
      let δ : (Option (Fin d) × Fin n → ℝ) → ℝ :=
        fun w => Spec.linearValue d n w o a - (r + γ * Spec.linearValue d n w o' b)
      let G : ℝ := if a = b then ∑ i : Fin d, (o.getD i 0 - γ * o'.getD i 0) ^ 2 + (1 - γ) ^ 2
        else Spec.energy d o + γ ^ 2 * Spec.energy d o'
      (∀ (i : Option (Fin d)) (j : Fin n), s'.params.ofLp (i, j) = s.params.ofLp (i, j) -
        2 * η * δ s.params.ofLp * ((if j = a then Spec.input d o i else 0) - γ * (if j = b then Spec.input d o' i else 0))) ∧
      δ s'.params.ofLp = (1 - 2 * η * G) * δ s.params.ofLp := by
  obtain ⟨b, hb, hmax, -⟩ := greedy_spec (mlpNetwork d hidden 1 n s.params.ofLp o') a.pos
  simp only [mlpAgentOf, mlpAgent, ht, if_true, hl, Prod.mk.injEq, Except.ok.injEq] at h
  obtain ⟨hs, ha⟩ := h
  refine ⟨b, ha.symm.trans hb, hmax, by rw [← hs, hb], ?_⟩
  intro δ G
  have hp : s'.params = s.params - (2 * η * δ s.params.ofLp) •
      (featureVec d hidden n o a - γ • featureVec d hidden n o' b) := by
    rw [← hs, hb]
    have k := C107_update_partial (fun (p : MlpParams d hidden 1 n) obs a => pick (mlpNetwork d hidden 1 n p.ofLp obs) a) η γ
      o (a : ℕ) r o' (b : ℕ) s.params (value_gradient d hidden n s.params o a).differentiableAt
      (value_gradient d hidden n s.params o' b).differentiableAt
    rw [(value_gradient d hidden n s.params o a).gradient, (value_gradient d hidden n s.params o' b).gradient] at k
    simp only [Spec.tdError, value_linear] at k
    exact k
  constructor
  · intro i j
    rw [hp]
    rfl
  · have hδ : ∀ p : MlpParams d hidden 1 n, δ p.ofLp =
        inner ℝ (featureVec d hidden n o a - γ • featureVec d hidden n o' b) p - r := by
      intro p
      simp only [δ]
      rw [← value_linear d hidden, ← value_linear d hidden, value_inner, value_inner, inner_sub_left, inner_smul_left]
      simp only [conj_trivial]
      ring
    have hG : G = inner ℝ (featureVec d hidden n o a - γ • featureVec d hidden n o' b)
        (featureVec d hidden n o a - γ • featureVec d hidden n o' b) := (featureVec_diff d hidden n γ o o' a b).symm
    rw [hδ, hp, inner_sub_right, inner_smul_right, hG]
    have := hδ s.params
    rw [this]
    ring

/-- Every observation of the environment has squared length at least 360: of the 361 levels of the column 180 do not
exist, and each of those is encoded as (0, 1, 1). -/
theorem energy_ge (R : Regressor) (sun : Sun) (F : FeatState) (f : List ℝ) (h : F.features R sun = .ok f) :
    361 ≤ Spec.energy 1099 f := by
  obtain ⟨s, means, devs, r, level, -, -, -, hlev, -, hcol⟩ := C26_centred R sun F f h
  obtain ⟨l0, l1⟩ : 0 ≤ level ∧ level ≤ 180 := by
    obtain ⟨l, h1, h2, h3, -⟩ := C31_nearest s.pressure
    rw [h1] at hlev
    cases hlev
    constructor <;> omega
  let col : Fin 180 → ℕ := fun m => if (m : ℤ) < 180 - level then m else m + 181
  let ix : Fin 180 × Fin 2 → Fin 1099 := fun x => ⟨16 + 3 * col x.1 + 1 + x.2, by
    have := x.1.isLt; have := x.2.isLt; simp only [col]; split_ifs <;> omega⟩
  have hinj : Function.Injective ix := by
    rintro ⟨m, b⟩ ⟨m', b'⟩ e
    have e' : 16 + 3 * col m + 1 + (b : ℕ) = 16 + 3 * col m' + 1 + b' := congrArg Fin.val e
    have hb := b.isLt; have hb' := b'.isLt
    have e1 : col m = col m' := by omega
    have e2 : (b : ℕ) = b' := by omega
    have e3 : (m : ℕ) = m' := by
      have := m.isLt; have := m'.isLt
      simp only [col] at e1; split_ifs at e1 <;> omega
    rw [Prod.mk.injEq]
    exact ⟨Fin.ext e3, Fin.ext e2⟩
  have hone : ∀ x, f.getD (ix x) 0 = 1 := by
    rintro ⟨m, b⟩
    have hm := m.isLt
    have hj : col m < 361 := by simp only [col]; split_ifs <;> omega
    obtain ⟨-, g1, g2⟩ := (hcol (col m) hj).2 (by
      rintro ⟨k, k1, k2, -⟩
      simp only [col] at k1
      split_ifs at k1 <;> omega)
    fin_cases b
    · simp [ix, List.getD, g1]
    · show (f[16 + 3 * col m + 2]?).getD 0 = 1
      rw [g2]; rfl
  unfold Spec.energy
  have hsub : ∑ i ∈ Finset.univ.image ix, f.getD (i : ℕ) 0 ^ 2 ≤ ∑ i : Fin 1099, f.getD (i : ℕ) 0 ^ 2 :=
    Finset.sum_le_sum_of_subset_of_nonneg (Finset.subset_univ _) fun i _ _ => sq_nonneg _
  rw [Finset.sum_image fun x _ y _ e => hinj e, Finset.sum_congr rfl fun x _ => by rw [hone x]] at hsub
  rw [Finset.sum_const, Finset.card_univ, Fintype.card_prod, Fintype.card_fin, Fintype.card_fin] at hsub
  norm_num only [nsmul_eq_mul] at hsub
  linarith

/-- C107 is false of the code, first: the update is not SARSA's. SARSA treats the target as a constant and changes
only the weights of the action taken; here, whenever the next action differs and the error is not zero, the bias of
the next action changes as well. -/
theorem C107_not_sarsa (d hidden n : ℕ) (η γ : ℝ) (hη : η ≠ 0) (hγ : γ ≠ 0) (s s' : Mlp (MlpParams d hidden 1 n) Unit)
    (ht : s.train = true) (o o' : List ℝ) (a b : Fin n) (hl : s.last = some (o, ((a : ℕ) : ℤ))) (r : ℝ) (hab : a ≠ b)
    (h : (mlpAgentOf d hidden 1 n η γ).step s r o' = (s', .ok ((b : ℕ) : ℤ)))
    (hδ : Spec.linearValue d n s.params.ofLp o a ≠ r + γ * Spec.linearValue d n s.params.ofLp o' b) :
    s'.params.ofLp (none, b) ≠ s.params.ofLp (none, b) := by
  obtain ⟨b', hb', -, -, hw, -⟩ := C107_stock d hidden n η γ s s' ht o o' a hl r _ h
  have : b = b' := Fin.ext (by exact_mod_cast hb')
  subst this
  rw [hw none b, if_neg hab.symm, if_pos rfl]
  simp only [Spec.input, zero_sub, mul_one, mul_neg, sub_neg_eq_add]
  intro e
  have : 2 * η * (Spec.linearValue d n s.params.ofLp o a - (r + γ * Spec.linearValue d n s.params.ofLp o' b)) * γ = 0 := by
    linarith
  simp only [mul_eq_zero, OfNat.ofNat_ne_zero, hη, hγ, sub_eq_zero, hδ, or_self] at this

/-- C107 is false of the code, second: with the stock rates (0.001, discount 0.9) and observations of the environment,
every update in which the agent changes its action overshoots — the temporal-difference error changes sign, by a factor
of -0.3 or beyond. -/
theorem C107_overshoots (hidden n : ℕ) (s s' : Mlp (MlpParams 1099 hidden 1 n) Unit) (ht : s.train = true)
    (R R' : Regressor) (sun sun' : Sun) (F F' : FeatState) (o o' : List ℝ) (ho : F.features R sun = .ok o)
    (ho' : F'.features R' sun' = .ok o') (a b : Fin n) (hl : s.last = some (o, ((a : ℕ) : ℤ))) (r : ℝ) (hab : a ≠ b)
    (h : (mlpAgentOf 1099 hidden 1 n 0.001 0.9).step s r o' = (s', .ok ((b : ℕ) : ℤ))) :
    ∃ c : ℝ, c ≤ -0.3 ∧
      Spec.linearValue 1099 n s'.params.ofLp o a - (r + 0.9 * Spec.linearValue 1099 n s'.params.ofLp o' b) =
      c * (Spec.linearValue 1099 n s.params.ofLp o a - (r + 0.9 * Spec.linearValue 1099 n s.params.ofLp o' b)) := by
  obtain ⟨b', hb', -, -, -, hc⟩ := C107_stock 1099 hidden n 0.001 0.9 s s' ht o o' a hl r _ h
  have : b = b' := Fin.ext (by exact_mod_cast hb')
  subst this
  refine ⟨_, ?_, hc⟩
  rw [if_neg hab]
  have h1 := energy_ge R sun F o ho
  have h2 := energy_ge R' sun' F' o' ho'
  generalize Spec.energy 1099 o = x at *
  generalize Spec.energy 1099 o' = y at *
  norm_num
  linarith

/-- Such updates exist for every pair of observations (C102 provides observations): an agent that took action 0 and
now prefers action 1. -/
example (o o' : List ℝ) : ∃ (s s' : Mlp (MlpParams 1099 256 1 3) Unit), s.train = true ∧
    s.last = some (o, (((0 : Fin 3) : ℕ) : ℤ)) ∧
    (mlpAgentOf 1099 256 1 3 0.001 0.9).step s 1 o' = (s', .ok (((1 : Fin 3) : ℕ) : ℤ)) := by
  let p : MlpParams 1099 256 1 3 := WithLp.toLp 2 (fun ij : Option (Fin 1099) × Fin 3 => if ij = (none, 1) then 1 else 0)
  have hv : ∀ j : Fin 3, mlpNetwork 1099 256 1 3 p.ofLp o' j = if j = 1 then 1 else 0 := by
    intro j
    change Spec.linearValue 1099 3 p.ofLp o' j = _
    unfold Spec.linearValue
    have : ∀ i : Fin 1099, o'.getD i 0 * p.ofLp ((some i, j) : Option (Fin 1099) × Fin 3) = 0 := by
      intro i
      have : p.ofLp ((some i, j) : Option (Fin 1099) × Fin 3) = 0 := by
        show (if ((some i, j) : Option (Fin 1099) × Fin 3) = (none, 1) then (1 : ℝ) else 0) = 0
        simp
      rw [this, mul_zero]
    rw [Finset.sum_eq_zero fun i _ => this i, zero_add]
    show (if ((none, j) : Option (Fin 1099) × Fin 3) = (none, 1) then (1 : ℝ) else 0) = _
    simp
  obtain ⟨b, hb, hmax, -⟩ := greedy_spec (mlpNetwork 1099 256 1 3 p.ofLp o') (by norm_num)
  have hb1 : b = 1 := by
    by_contra hne
    have := hmax 1
    rw [hv, hv, if_pos rfl, if_neg hne] at this
    norm_num at this
  subst hb1
  have hstep : ∃ s', (mlpAgentOf 1099 256 1 3 0.001 0.9).step ⟨p, (), true, some (o, (((0 : Fin 3) : ℕ) : ℤ))⟩ 1 o' =
      (s', .ok (((1 : Fin 3) : ℕ) : ℤ)) := by
    simp only [mlpAgentOf, mlpAgent, if_true, hb]
    exact ⟨_, rfl⟩
  obtain ⟨s', hs'⟩ := hstep
  exact ⟨_, s', rfl, rfl, hs'⟩

/-- Two observations with one entry, two actions; all weights zero except the bias of action 1. -/
noncomputable def demoParams : MlpParams 1 256 1 2 := WithLp.toLp 2 (fun ij : Option (Fin 1) × Fin 2 => if ij = (none, 1) then 1 else 0)

/-- A step in which everything happens: the agent took action 0, now prefers action 1, and is rewarded with 1. -/
example : ∃ s', (mlpAgentOf 1 256 1 2 0.001 0.9).step ⟨demoParams, (), true, some ([1], (((0 : Fin 2) : ℕ) : ℤ))⟩ 1 [0] =
      (s', .ok (((1 : Fin 2) : ℕ) : ℤ)) ∧
    Spec.linearValue 1 2 demoParams.ofLp [1] 0 ≠ 1 + 0.9 * Spec.linearValue 1 2 demoParams.ofLp [0] 1 ∧
    s'.params.ofLp ((none, 1) : Option (Fin 1) × Fin 2) ≠ demoParams.ofLp ((none, 1) : Option (Fin 1) × Fin 2) := by
  have h0 : Spec.linearValue 1 2 demoParams.ofLp [1] 0 ≠ 1 + 0.9 * Spec.linearValue 1 2 demoParams.ofLp [0] 1 := by
    norm_num [Spec.linearValue, demoParams]
  obtain ⟨b, hb, hmax, -⟩ := greedy_spec (mlpNetwork 1 256 1 2 demoParams.ofLp [0]) (by norm_num)
  have hb1 : b = 1 := by
    have := hmax 1
    fin_cases b
    · exfalso
      change Spec.linearValue 1 2 demoParams.ofLp [0] 1 ≤ Spec.linearValue 1 2 demoParams.ofLp [0] 0 at this
      norm_num [Spec.linearValue, demoParams] at this
    · rfl
  subst hb1
  have hstep : ∃ s', (mlpAgentOf 1 256 1 2 0.001 0.9).step ⟨demoParams, (), true, some ([1], (((0 : Fin 2) : ℕ) : ℤ))⟩ 1 [0] =
      (s', .ok (((1 : Fin 2) : ℕ) : ℤ)) := by
    simp only [mlpAgentOf, mlpAgent, if_true, hb]
    exact ⟨_, rfl⟩
  obtain ⟨s', hs'⟩ := hstep
  exact ⟨s', hs', h0, C107_not_sarsa 1 256 2 0.001 0.9 (by norm_num) (by norm_num) _ s' rfl [1] [0] 0 1 rfl 1 (by decide)
    hs' h0⟩

end BLE
