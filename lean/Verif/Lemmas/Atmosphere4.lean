import Verif.Lemmas.Atmosphere3
import Verif.Props.Atmosphere

/-!
# Upper bounds for the pressure from the midpoint rule
-/

namespace BLE

/-- `log (a / b) ≥ 2 (a - b) / (a + b)`. -/
theorem log_midpoint {a b : ℝ} (hb : 0 < b) (hab : b ≤ a) : 2 * (a - b) / (a + b) ≤ Real.log a - Real.log b := by
  have h := Real.le_log_one_add_of_nonneg (x := a / b - 1) (by rw [sub_nonneg, le_div_iff₀ hb]; linarith)
  rw [show 1 + (a / b - 1) = a / b by ring, Real.log_div (by linarith) hb.ne'] at h
  refine le_trans (le_of_eq ?_) h
  have e1 : a / b - 1 + 2 = (a + b) / b := by field_simp; ring
  have e2 : 2 * (a / b - 1) = 2 * (a - b) / b := by field_simp
  rw [e1, e2, div_div_div_cancel_right₀ hb.ne']

/-- Within a layer the pressure drops at least as fast as in isothermal air of the temperature midway. -/
theorem layerP_midpoint {α : ℝ} (h0 : 0 ≤ α) (h1 : α ≤ 1) {i : ℕ} (hi : i < 7) (h4 : i ≠ 4) {h h' : ℝ}
    (ha : hTrans i ≤ h) (hh : h ≤ h') (hb : h' ≤ hTrans (i + 1)) (T : ℝ)
    (hT : (layerT α i h + layerT α i h') / 2 ≤ T) :
    Real.log (layerP α i h') ≤ Real.log (layerP α i h) - gravity / airRs * ((h' - h) / T) := by
  have t1 := layerT_pos h0 h1 hi ha (by linarith)
  have t2 := layerT_pos h0 h1 hi (h := h') (by linarith) hb
  have l1 := log_layerP h0 h1 hi (h := h) (by linarith [t1.1])
  have l2 := log_layerP h0 h1 hi (h := h') (by linarith [t2.1])
  have hL := lapse_ne_zero h0 h1 hi h4
  rw [if_neg hL] at l1 l2
  have t0 : 0 < tTrans α i := by linarith [(tTrans_bounds h0 h1 (i := i) (by omega)).1]
  rw [Real.log_div (by linarith [t1.1]) t0.ne'] at l1
  rw [Real.log_div (by linarith [t2.1]) t0.ne'] at l2
  have hTe : layerT α i h' - layerT α i h = lapse α i * (h' - h) := by unfold layerT; ring
  have hg : 0 < gravity / airRs := div_pos gravity_pos airRs_pos
  have hTp : 0 < T := by linarith [t1.1, t2.1]
  have key : (h' - h) / T ≤ (Real.log (layerT α i h') - Real.log (tTrans α i)) / lapse α i -
      (Real.log (layerT α i h) - Real.log (tTrans α i)) / lapse α i := by
    rw [← sub_div]
    have hstep : (h' - h) / T ≤ 2 * (h' - h) / (layerT α i h + layerT α i h') := by
      rw [div_le_div_iff₀ hTp (by linarith [t1.1, t2.1])]
      nlinarith
    refine hstep.trans ?_
    rcases lt_or_gt_of_ne hL with hs | hs
    · rw [le_div_iff_of_neg hs]
      have := log_midpoint (a := layerT α i h) (b := layerT α i h') (by linarith [t2.1])
        (by nlinarith)
      have e : 2 * (h' - h) / (layerT α i h + layerT α i h') * lapse α i =
          -(2 * (layerT α i h - layerT α i h') / (layerT α i h + layerT α i h')) := by
        rw [show layerT α i h - layerT α i h' = -(lapse α i * (h' - h)) by linarith]; ring
      rw [e]; linarith
    · rw [le_div_iff₀ hs]
      have := log_midpoint (a := layerT α i h') (b := layerT α i h) (by linarith [t1.1])
        (by nlinarith)
      have e : 2 * (h' - h) / (layerT α i h + layerT α i h') * lapse α i =
          2 * (layerT α i h' - layerT α i h) / (layerT α i h' + layerT α i h) := by
        rw [hTe]; ring
      rw [e]; linarith
  rw [l1, l2]
  have := mul_le_mul_of_nonneg_left key hg.le
  linarith

/-- At 19,400 m the pressure is below 6,500 Pa, whatever the blend. -/
theorem pressure_19400 {α : ℝ} (h0 : 0 ≤ α) (h1 : α ≤ 1) : layerP α 1 19400 < 6500 := by
  have s1 := layerP_midpoint h0 h1 (i := 0) (by norm_num) (by norm_num) (h := -610) (h' := 8195)
    (by norm_num [hTrans]) (by norm_num) (by norm_num [hTrans]) 274.47
    (by norm_num [layerT, tTrans, hTrans, lapse, lapseLow, lapseHigh]; linarith)
  have s2 := layerP_midpoint h0 h1 (i := 0) (by norm_num) (by norm_num) (h := 8195) (h' := 17000)
    (by norm_num [hTrans]) (by norm_num) (by norm_num [hTrans]) 223.5
    (by norm_num [layerT, tTrans, hTrans, lapse, lapseLow, lapseHigh]; linarith)
  have s3 := layerP_midpoint h0 h1 (i := 1) (by norm_num) (by norm_num) (h := 17000) (h' := 19400)
    (by norm_num [hTrans]) (by norm_num) (by norm_num [hTrans]) 203.9
    (by norm_num [layerT, tTrans, hTrans, lapse, lapseLow, lapseHigh]; linarith)
  have e0 : layerP α 0 (-610) = 108870.8213 := layerP_start h0 h1 (i := 0) (by norm_num)
  have e1 : layerP α 1 17000 = layerP α 0 17000 := by
    have a : layerP α 1 17000 = pTrans α 1 := layerP_start h0 h1 (i := 1) (by norm_num)
    have b : layerP α 0 17000 = pTrans α 1 := layerP_end α 0
    rw [a, b]
  rw [e0] at s1
  rw [e1] at s3
  have hT := layerT_pos h0 h1 (i := 1) (h := 19400) (by norm_num) (by norm_num [hTrans]) (by norm_num [hTrans])
  have hP := layerP_pos h0 h1 (i := 1) (by norm_num) (pTrans_pos h0 h1 (by norm_num)) (h := 19400) (by linarith [hT.1])
  rw [← Real.log_lt_log_iff hP (by norm_num)]
  have hg : (0.034163 : ℝ) ≤ gravity / airRs := by norm_num [gravity, airRs, gasR, airM]
  have hsum : (2.84 : ℝ) ≤ gravity / airRs * ((8195 - -610) / 274.47) + gravity / airRs * ((17000 - 8195) / 223.5) +
      gravity / airRs * ((19400 - 17000) / 203.9) := by
    rw [← mul_add, ← mul_add]
    refine le_trans ?_ (mul_le_mul_of_nonneg_right hg (by norm_num))
    norm_num
  have hfin : Real.log 108870.8213 < Real.log 6500 + 2.84 := by
    have : Real.log 16.75 < 2.84 := by
      rw [Real.log_lt_iff_lt_exp (by norm_num)]
      have e1 : Real.exp 2.84 ^ 25 = Real.exp 1 ^ 71 := by
        rw [← Real.exp_nat_mul, ← Real.exp_nat_mul]; norm_num
      have e2 : (16.75 : ℝ) ^ 25 < Real.exp 1 ^ 71 := by
        calc (16.75 : ℝ) ^ 25 < (2.7182818283 : ℝ) ^ 71 := by norm_num
          _ ≤ _ := pow_le_pow_left₀ (by norm_num) Real.exp_one_gt_d9.le _
      rw [← e1] at e2
      exact lt_of_pow_lt_pow_left₀ 25 (Real.exp_pos _).le e2
    have h2 : Real.log 6500 + Real.log 16.75 = Real.log (6500 * 16.75) :=
      (Real.log_mul (by norm_num) (by norm_num)).symm
    have h3 : Real.log 108870.8213 < Real.log (6500 * 16.75) := Real.log_lt_log (by norm_num) (by norm_num)
    linarith
  linarith

/-- At the altitude floor the pressure is below 13,000 Pa. -/
theorem floor_pressure_le {α : ℝ} (h0 : 0 ≤ α) (h1 : α ≤ 1) : layerP α 0 15240 < 13000 := by
  have s1 := layerP_midpoint h0 h1 (i := 0) (by norm_num) (by norm_num) (h := -610) (h' := 15240)
    (by norm_num [hTrans]) (by norm_num) (by norm_num [hTrans]) 254.04
    (by norm_num [layerT, tTrans, hTrans, lapse, lapseLow, lapseHigh]; linarith)
  have e0 : layerP α 0 (-610) = 108870.8213 := layerP_start h0 h1 (i := 0) (by norm_num)
  rw [e0] at s1
  have hT := layerT_pos h0 h1 (i := 0) (h := 15240) (by norm_num) (by norm_num [hTrans]) (by norm_num [hTrans])
  have hP := layerP_pos h0 h1 (i := 0) (by norm_num) (pTrans_pos h0 h1 (by norm_num)) (h := 15240) (by linarith [hT.1])
  rw [← Real.log_lt_log_iff hP (by norm_num)]
  have hg : (2.13 : ℝ) ≤ gravity / airRs * ((15240 - -610) / 254.04) := by norm_num [gravity, airRs, gasR, airM]
  have hfin : Real.log 108870.8213 < Real.log 13000 + 2.13 := by
    have : Real.log 8.375 < 2.13 := by
      rw [Real.log_lt_iff_lt_exp (by norm_num)]
      have e1 : Real.exp 2.13 ^ 100 = Real.exp 1 ^ 213 := by
        rw [← Real.exp_nat_mul, ← Real.exp_nat_mul]; norm_num
      have e2 : (8.375 : ℝ) ^ 100 < Real.exp 1 ^ 213 := by
        calc (8.375 : ℝ) ^ 100 < (2.7182818283 : ℝ) ^ 213 := by norm_num
          _ ≤ _ := pow_le_pow_left₀ (by norm_num) Real.exp_one_gt_d9.le _
      rw [← e1] at e2
      exact lt_of_pow_lt_pow_left₀ 100 (Real.exp_pos _).le e2
    have h2 : Real.log 13000 + Real.log 8.375 = Real.log (13000 * 8.375) :=
      (Real.log_mul (by norm_num) (by norm_num)).symm
    have h3 : Real.log 108870.8213 < Real.log (13000 * 8.375) := Real.log_lt_log (by norm_num) (by norm_num)
    linarith
  linarith

/-- Between 50,000 ft and 6,500 Pa the air is at most 210 K warm and 13,000 Pa dense. -/
theorem start_air {α p : ℝ} {v : AtmVals} (h0 : 0 ≤ α) (h1 : α ≤ 1) (hv : atPressure α p = .ok v)
    (hp : 6500 ≤ p) (hh : 15240 ≤ v.height) : v.temperature ≤ 210 ∧ p < 13000 := by
  obtain ⟨e, r⟩ := C43_pressure_roundtrip α h0 h1 p v hv
  have hat := atHeight_eq (α := α) (h := 15240) (i := 0) (by norm_num) (by norm_num [hTrans]) (by norm_num [hTrans])
  have hat2 := atHeight_eq (α := α) (h := 19400) (i := 1) (by norm_num) (by norm_num [hTrans]) (by norm_num [hTrans])
  have hhi : v.height ≤ 19400 := by
    by_contra hc
    have := (C44_higher_is_thinner α h0 h1 _ _ _ _ hat2 r (not_le.1 hc)).1
    simp only at this
    linarith [pressure_19400 h0 h1]
  constructor
  · rcases lt_or_ge v.height 17000 with hc | hc
    · have hat := atHeight_eq (α := α) (h := v.height) (i := 0) (by norm_num) (by norm_num [hTrans]; linarith)
        (by norm_num [hTrans]; exact hc)
      rw [hat] at r
      injection r with r
      rw [← r]
      norm_num [layerT, tTrans, lapse, lapseLow, lapseHigh, hTrans]
      nlinarith
    · have hat := atHeight_eq (α := α) (h := v.height) (i := 1) (by norm_num) (by norm_num [hTrans]; exact hc)
        (by norm_num [hTrans]; linarith)
      rw [hat] at r
      injection r with r
      rw [← r]
      norm_num [layerT, tTrans, lapse, lapseLow, lapseHigh, hTrans]
      nlinarith
  · rcases eq_or_lt_of_le hh with hc | hc
    · rw [← hc, hat] at r
      injection r with r
      rw [← e, ← r]
      exact floor_pressure_le h0 h1
    · have := (C44_higher_is_thinner α h0 h1 _ _ _ _ hat r hc).1
      simp only at this
      linarith [floor_pressure_le h0 h1]

end BLE
