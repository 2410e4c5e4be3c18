import Verif.Lemmas.Atmosphere2
import Verif.Model.Sampling
import Mathlib.Analysis.Complex.ExponentialBounds
import Mathlib.Analysis.SpecialFunctions.Pow.Continuity
import Mathlib.Analysis.SpecialFunctions.Log.Deriv

namespace BLE

/-- Gluing continuous pieces. -/
theorem glue_continuous (H : ℕ → ℝ) (F : ℕ → ℝ → ℝ) (n : ℕ)
    (hH : ∀ i < n, H i < H (i + 1))
    (hF : ∀ i < n, ∀ x, H i ≤ x → x ≤ H (i + 1) → ContinuousAt (F i) x)
    (hglue : ∀ i, i + 1 < n → F i (H (i + 1)) = F (i + 1) (H (i + 1)))
    {i : ℕ} (hi : i < n) {x : ℝ} (hx : H i ≤ x ∧ x < H (i + 1)) {ε : ℝ} (hε : 0 < ε) :
    ∃ δ > 0, ∀ j < n, ∀ y, H j ≤ y → y < H (j + 1) → |y - x| < δ → |F j y - F i x| < ε := by
  have hHm : ∀ m k, k + m ≤ n → H k ≤ H (k + m) := by
    intro m
    induction m with
    | zero => intro k _; exact le_refl _
    | succ m ih => intro k hk; exact (ih k (by omega)).trans (hH (k + m) (by omega)).le
  have hmono : ∀ a b, a ≤ b → b ≤ n → H a ≤ H b := by
    intro a b hab hb
    have := hHm (b - a) a (by omega)
    rwa [show a + (b - a) = b by omega] at this
  obtain ⟨δ1, hδ1, h1⟩ := Metric.continuousAt_iff.1 (hF i hi x hx.1 hx.2.le) ε hε
  simp only [Real.dist_eq] at h1
  rcases hx.1.lt_or_eq with hlt | heq
  · refine ⟨min δ1 (min (x - H i) (H (i + 1) - x)), lt_min hδ1 (lt_min (by linarith) (by linarith [hx.2])), ?_⟩
    intro j hj y hy1 hy2 hd
    simp only [lt_min_iff, abs_lt] at hd
    have hij : j = i := by
      rcases Nat.lt_trichotomy i j with h | h | h
      · have := hmono (i + 1) j (by omega) (by omega); linarith
      · exact h.symm
      · have := hmono (j + 1) i (by omega) (by omega); linarith
    subst hij
    exact h1 (abs_lt.2 hd.1)
  · cases i with
    | zero =>
      refine ⟨min δ1 (H 1 - x), lt_min hδ1 (by linarith [hx.2]), ?_⟩
      intro j hj y hy1 hy2 hd
      simp only [lt_min_iff, abs_lt] at hd
      have hij : j = 0 := by
        rcases Nat.eq_zero_or_pos j with h | h
        · exact h
        · have := hmono 1 j h (by omega); linarith
      subst hij
      exact h1 (abs_lt.2 hd.1)
    | succ k =>
      obtain ⟨δ2, hδ2, h2⟩ := Metric.continuousAt_iff.1
        (hF k (by omega) x (by rw [← heq]; exact (hH k (by omega)).le) heq.ge) ε hε
      simp only [Real.dist_eq] at h2
      refine ⟨min (min δ1 δ2) (min (H (k + 1 + 1) - x) (x - H k)),
        lt_min (lt_min hδ1 hδ2) (lt_min (by linarith [hx.2]) (by rw [← heq]; linarith [hH k (by omega)])), ?_⟩
      intro j hj y hy1 hy2 hd
      simp only [lt_min_iff] at hd
      have hd3 := abs_lt.1 hd.2.1
      have hd4 := abs_lt.1 hd.2.2
      have hij : j = k + 1 ∨ j = k := by
        rcases Nat.lt_trichotomy (k + 1) j with h | h | h
        · have := hmono (k + 1 + 1) j (by omega) (by omega); linarith
        · exact Or.inl h.symm
        · rcases Nat.lt_or_ge j k with h' | h'
          · have := hmono (j + 1) k (by omega) (by omega); linarith
          · exact Or.inr (by omega)
      rcases hij with rfl | rfl
      · exact h1 hd.1.1
      · rw [← heq, ← hglue j (by omega)]
        rw [heq]
        exact h2 hd.1.2

theorem layerT_continuous (α : ℝ) (i : ℕ) : Continuous (layerT α i) := by
  unfold layerT; fun_prop

theorem layerP_continuousAt {α : ℝ} (h0 : 0 ≤ α) (h1 : α ≤ 1) {i : ℕ} (hi : i < 7) {h : ℝ}
    (ha : hTrans i ≤ h) (hb : h ≤ hTrans (i + 1)) : ContinuousAt (layerP α i) h := by
  have hT := (layerT_pos h0 h1 hi ha hb).1
  have t0 := (tTrans_bounds h0 h1 (i := i) (by omega)).1
  have hc := (layerT_continuous α i).continuousAt (x := h)
  unfold layerP
  split_ifs with hl
  · unfold pConst
    refine continuousAt_const.mul (Real.continuous_exp.continuousAt.comp ?_)
    refine ContinuousAt.div ?_ (continuousAt_const.mul hc) (mul_pos airRs_pos (by linarith)).ne'
    fun_prop
  · unfold pLinear
    refine continuousAt_const.mul (ContinuousAt.rpow_const (hc.div_const _) (Or.inl ?_))
    exact (div_pos (by linarith) (by linarith)).ne'

theorem layerD_continuousAt {α : ℝ} (h0 : 0 ≤ α) (h1 : α ≤ 1) {i : ℕ} (hi : i < 7) {h : ℝ}
    (ha : hTrans i ≤ h) (hb : h ≤ hTrans (i + 1)) : ContinuousAt (layerD α i) h := by
  have hT := (layerT_pos h0 h1 hi ha hb).1
  unfold layerD
  exact (layerP_continuousAt h0 h1 hi ha hb).div
    (continuousAt_const.mul (layerT_continuous α i).continuousAt)
    (mul_pos airRs_pos (by linarith)).ne'

/-- Pressure at the altitude floor is above 11400 Pa, the sampling bound used without an atmosphere. -/
theorem floor_pressure {α : ℝ} (h0 : 0 ≤ α) (h1 : α ≤ 1) : 11400 < layerP α 0 15240 := by
  have hT := layerT_pos h0 h1 (i := 0) (h := 15240) (by norm_num) (by norm_num [hTrans]) (by norm_num [hTrans])
  have pp := pTrans_pos h0 h1 (i := 0) (by norm_num)
  have hP := layerP_pos h0 h1 (i := 0) (by norm_num) pp (show 0 < layerT α 0 15240 by linarith [hT.1])
  have hL : lapse α 0 < 0 := by
    norm_num [lapse, lapseLow, lapseHigh]; nlinarith
  have hL' := (lapse_bounds h0 h1 (i := 0) (by norm_num)).1
  rw [← Real.log_lt_log_iff (by norm_num) hP, log_layerP h0 h1 (by norm_num) (by linarith [hT.1])]
  rw [if_neg hL.ne]
  set u := -lapse α 0 * (15850 / 300) with hu
  have hxe : layerT α 0 15240 / tTrans α 0 = 1 - u := by
    unfold layerT; norm_num [tTrans, hTrans]; rw [hu]; ring
  rw [hxe]
  have hu0 : 0 < u := by rw [hu]; linarith
  have hu1 : u ≤ 0.3699 := by rw [hu]; linarith
  have hser := Real.abs_log_sub_add_sum_range_le (x := u) (by rw [abs_of_pos hu0]; linarith) 9
  rw [abs_of_pos hu0] at hser
  have hs := (abs_le.1 hser).1
  have hbound : -Real.log (1 - u) ≤ u * 1.2492 := by
    have hsum : ∑ i ∈ Finset.range 9, u ^ (i + 1) / ((i : ℝ) + 1) =
        u * (1 + u / 2 + u ^ 2 / 3 + u ^ 3 / 4 + u ^ 4 / 5 + u ^ 5 / 6 + u ^ 6 / 7 + u ^ 7 / 8 + u ^ 8 / 9) := by
      simp only [Finset.sum_range_succ, Finset.sum_range_zero]
      push_cast; ring
    have hpw : ∀ n : ℕ, u ^ n ≤ 0.3699 ^ n := fun n => pow_le_pow_left₀ hu0.le hu1 n
    have htail : u ^ (9 + 1) / (1 - u) ≤ u * 0.000208 := by
      rw [div_le_iff₀ (by linarith)]
      have h9 := hpw 9
      have : u ^ (9 + 1) = u * u ^ 9 := by ring
      rw [this]
      have h9' : u ^ 9 ≤ 0.000208 * (1 - u) := by
        refine h9.trans ?_
        norm_num; linarith
      nlinarith
    have hin : 1 + u / 2 + u ^ 2 / 3 + u ^ 3 / 4 + u ^ 4 / 5 + u ^ 5 / 6 + u ^ 6 / 7 + u ^ 7 / 8 + u ^ 8 / 9
        ≤ 1.2489 := by
      have := hpw 2; have := hpw 3; have := hpw 4; have := hpw 5; have := hpw 6; have := hpw 7; have := hpw 8
      norm_num at *
      linarith
    rw [hsum] at hs
    nlinarith
  have hq : Real.log (1 - u) / lapse α 0 ≤ 1.2492 * (15850 / 300) := by
    rw [div_le_iff_of_neg hL]
    rw [hu] at hbound ⊢; linarith
  have hg : gravity / airRs * (1.2492 * (15850 / 300)) < 106 / 47 := by norm_num [gravity, airRs, gasR, airM]
  have hg0 : 0 < gravity / airRs := div_pos gravity_pos airRs_pos
  have hp0 : pTrans α 0 = 108870.8213 := rfl
  have hfin : Real.log 11400 + 106 / 47 < Real.log 108870.8213 := by
    have : (106 / 47 : ℝ) < Real.log 9.55 := by
      rw [Real.lt_log_iff_exp_lt (by norm_num)]
      have e1 : Real.exp (106 / 47) ^ 47 = Real.exp 1 ^ 106 := by
        rw [← Real.exp_nat_mul, ← Real.exp_nat_mul]; norm_num
      have e2 : Real.exp 1 ^ 106 < (9.55 : ℝ) ^ 47 := by
        calc Real.exp 1 ^ 106 ≤ (2.7182818286 : ℝ) ^ 106 :=
              pow_le_pow_left₀ (Real.exp_pos _).le Real.exp_one_lt_d9.le _
          _ < _ := by norm_num
      rw [← e1] at e2
      exact lt_of_pow_lt_pow_left₀ 47 (by norm_num) e2
    have h2 : Real.log 11400 + Real.log 9.55 = Real.log (11400 * 9.55) :=
      (Real.log_mul (by norm_num) (by norm_num)).symm
    have h3 : Real.log (11400 * 9.55) < Real.log 108870.8213 := Real.log_lt_log (by norm_num) (by norm_num)
    linarith
  rw [hp0]
  have : gravity / airRs * (Real.log (1 - u) / lapse α 0) ≤ gravity / airRs * (1.2492 * (15850 / 300)) :=
    mul_le_mul_of_nonneg_left hq hg0.le
  linarith
/-- Pressure at the top of the modelled atmosphere is below 100 Pa. -/
theorem top_pressure {α : ℝ} (h0 : 0 ≤ α) (h1 : α ≤ 1) : pTrans α 7 < 100 := by
  refine lt_of_le_of_lt (pTrans_le_exp h0 h1 (le_refl 7)) ?_
  have h9 : (9 : ℝ) < gravity / airRs * ((hTrans 7 - hTrans 0) / 300) := by
    norm_num [gravity, airRs, gasR, airM, hTrans]
  have h2 : Real.exp (-(gravity / airRs) * ((hTrans 7 - hTrans 0) / 300)) ≤ Real.exp (-9) :=
    Real.exp_le_exp.2 (by linarith)
  have h3 : Real.exp (-9) ≤ 1 / 5000 := by
    rw [Real.exp_neg, ← one_div]
    apply one_div_le_one_div_of_le (by norm_num)
    have : Real.exp 9 = Real.exp 1 ^ 9 := by rw [← Real.exp_nat_mul]; norm_num
    rw [this]
    calc (5000 : ℝ) ≤ (2.7182818283 : ℝ) ^ 9 := by norm_num
      _ ≤ _ := pow_le_pow_left₀ (by norm_num) Real.exp_one_gt_d9.le _
  linarith

end BLE
