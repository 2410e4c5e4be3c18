import Verif.Model.Atmosphere
import Mathlib.Tactic.Linarith
import Mathlib.Tactic.NormNum
import Mathlib.Tactic.Ring
import Mathlib.Tactic.FieldSimp
import Mathlib.Tactic.Positivity
import Mathlib.Tactic.IntervalCases
import Mathlib.Data.List.Range

namespace BLE

theorem gravity_pos : 0 < gravity := by norm_num [gravity]
theorem airRs_pos : 0 < airRs := by norm_num [airRs, gasR, airM]

theorem lapse_four (α : ℝ) : lapse α 4 = 0 := by simp [lapse, lapseLow, lapseHigh]

/-- Temperatures at the layer boundaries are positive for every blend. -/
theorem tTrans_bounds {α : ℝ} (h0 : 0 ≤ α) (h1 : α ≤ 1) {i : ℕ} (hi : i ≤ 7) :
    100 < tTrans α i ∧ tTrans α i ≤ 300 := by
  interval_cases i <;> norm_num [tTrans, lapse, lapseLow, lapseHigh, hTrans] <;>
    (try constructor) <;> nlinarith

theorem lapse_ne_zero {α : ℝ} (h0 : 0 ≤ α) (h1 : α ≤ 1) {i : ℕ} (hi : i < 7) (h4 : i ≠ 4) :
    lapse α i ≠ 0 := by
  interval_cases i <;> norm_num [lapse, lapseLow, lapseHigh] at * <;> intro h <;> linarith

/-- Lapse rates are bounded well below the auto-convective rate. -/
theorem lapse_bounds {α : ℝ} (h0 : 0 ≤ α) (h1 : α ≤ 1) {i : ℕ} (hi : i < 7) :
    -0.007 ≤ lapse α i ∧ lapse α i ≤ 0.006 := by
  interval_cases i <;> norm_num [lapse, lapseLow, lapseHigh] <;> constructor <;> linarith

theorem hTrans_lt {i : ℕ} (hi : i < 7) : hTrans i < hTrans (i + 1) := by
  interval_cases i <;> norm_num [hTrans]

theorem layerT_end (α : ℝ) (i : ℕ) : layerT α i (hTrans (i + 1)) = tTrans α (i + 1) := rfl
theorem layerT_start (α : ℝ) (i : ℕ) : layerT α i (hTrans i) = tTrans α i := by simp [layerT]

theorem layerP_end (α : ℝ) (i : ℕ) : layerP α i (hTrans (i + 1)) = pTrans α (i + 1) := by
  simp only [layerP, layerT_end, pTrans]

/-- The temperature inside a layer lies between its boundary temperatures, hence is positive. -/
theorem layerT_pos {α : ℝ} (h0 : 0 ≤ α) (h1 : α ≤ 1) {i : ℕ} (hi : i < 7) {h : ℝ}
    (ha : hTrans i ≤ h) (hb : h ≤ hTrans (i + 1)) : 100 < layerT α i h ∧ layerT α i h ≤ 300 := by
  have t0 := tTrans_bounds h0 h1 (i := i) (by omega)
  have t1 := tTrans_bounds h0 h1 (i := i + 1) (by omega)
  have e : tTrans α (i + 1) = tTrans α i + lapse α i * (hTrans (i + 1) - hTrans i) := rfl
  have hl := hTrans_lt hi
  unfold layerT
  rcases le_total 0 (lapse α i) with hs | hs
  · constructor
    · nlinarith [mul_nonneg hs (sub_nonneg.2 ha)]
    · nlinarith [mul_nonneg hs (sub_nonneg.2 hb)]
  · constructor
    · nlinarith [mul_nonneg (neg_nonneg.2 hs) (sub_nonneg.2 hb)]
    · nlinarith [mul_nonneg (neg_nonneg.2 hs) (sub_nonneg.2 ha)]

theorem layerP_start {α : ℝ} (h0 : 0 ≤ α) (h1 : α ≤ 1) {i : ℕ} (hi : i < 7) :
    layerP α i (hTrans i) = pTrans α i := by
  have t0 := (tTrans_bounds h0 h1 (i := i) (by omega)).1
  unfold layerP
  split_ifs
  · simp [pConst]
  · rw [layerT_start, div_self (by linarith)]; simp [pLinear]

theorem layerP_pos {α : ℝ} (h0 : 0 ≤ α) (h1 : α ≤ 1) {i : ℕ} (hi : i < 7) {h : ℝ}
    (hp : 0 < pTrans α i) (hT : 0 < layerT α i h) : 0 < layerP α i h := by
  have t0 := (tTrans_bounds h0 h1 (i := i) (by omega)).1
  unfold layerP
  split_ifs
  · exact mul_pos hp (Real.exp_pos _)
  · exact mul_pos hp (Real.rpow_pos_of_pos (div_pos hT (by linarith)) _)

theorem pTrans_pos {α : ℝ} (h0 : 0 ≤ α) (h1 : α ≤ 1) {i : ℕ} (hi : i ≤ 7) : 0 < pTrans α i := by
  induction i with
  | zero => norm_num [pTrans]
  | succ i ih =>
    rw [← layerP_end]
    apply layerP_pos h0 h1 (by omega) (ih (by omega))
    rw [layerT_end]
    linarith [(tTrans_bounds h0 h1 hi).1]

/-- Logarithm of the pressure in a layer; the workhorse for monotonicity. -/
theorem log_layerP {α : ℝ} (h0 : 0 ≤ α) (h1 : α ≤ 1) {i : ℕ} (hi : i < 7) {h : ℝ}
    (hT : 0 < layerT α i h) :
    Real.log (layerP α i h) = Real.log (pTrans α i) -
      (gravity / airRs) * (if lapse α i = 0 then (h - hTrans i) / tTrans α i
        else Real.log (layerT α i h / tTrans α i) / lapse α i) := by
  have t0 := (tTrans_bounds h0 h1 (i := i) (by omega)).1
  have pp := pTrans_pos h0 h1 (i := i) (by omega)
  have hR := airRs_pos
  unfold layerP
  split_ifs with hl
  · have : layerT α i h = tTrans α i := by simp [layerT, hl]
    rw [pConst, Real.log_mul pp.ne' (Real.exp_pos _).ne', Real.log_exp, this]
    field_simp
    ring
  · have hpos : 0 < layerT α i h / tTrans α i := div_pos hT (by linarith)
    rw [pLinear, Real.log_mul pp.ne' (Real.rpow_pos_of_pos hpos _).ne', Real.log_rpow hpos]
    field_simp
    ring

theorem layerP_strictAnti {α : ℝ} (h0 : 0 ≤ α) (h1 : α ≤ 1) {i : ℕ} (hi : i < 7) {h h' : ℝ}
    (hT : 0 < layerT α i h) (hT' : 0 < layerT α i h') (hh : h < h') : layerP α i h' < layerP α i h := by
  have t0 := (tTrans_bounds h0 h1 (i := i) (by omega)).1
  have pp := pTrans_pos h0 h1 (i := i) (by omega)
  rw [← Real.log_lt_log_iff (layerP_pos h0 h1 hi pp hT') (layerP_pos h0 h1 hi pp hT),
    log_layerP h0 h1 hi hT, log_layerP h0 h1 hi hT']
  have hg : 0 < gravity / airRs := div_pos gravity_pos airRs_pos
  apply sub_lt_sub_left
  apply mul_lt_mul_of_pos_left _ hg
  split_ifs with hl
  · apply div_lt_div_of_pos_right _ (by linarith); linarith
  · have hlog : layerT α i h' = layerT α i h + lapse α i * (h' - h) := by unfold layerT; ring
    rcases lt_or_gt_of_ne hl with hn | hp
    · rw [div_lt_div_right_of_neg hn]
      apply Real.log_lt_log (div_pos hT' (by linarith))
      apply div_lt_div_of_pos_right _ (by linarith)
      nlinarith
    · apply div_lt_div_of_pos_right _ hp
      apply Real.log_lt_log (div_pos hT (by linarith))
      apply div_lt_div_of_pos_right _ (by linarith)
      nlinarith

theorem pTrans_lt {α : ℝ} (h0 : 0 ≤ α) (h1 : α ≤ 1) {i : ℕ} (hi : i < 7) :
    pTrans α (i + 1) < pTrans α i := by
  rw [← layerP_end, ← layerP_start h0 h1 hi]
  apply layerP_strictAnti h0 h1 hi
  · rw [layerT_start]; linarith [(tTrans_bounds h0 h1 (i := i) (by omega)).1]
  · rw [layerT_end]; linarith [(tTrans_bounds h0 h1 (i := i + 1) (by omega)).1]
  · exact hTrans_lt hi

/-- Within a layer, the height formula inverts the pressure formula. -/
theorem layerH_layerP {α : ℝ} (h0 : 0 ≤ α) (h1 : α ≤ 1) {i : ℕ} (hi : i < 7) {h : ℝ}
    (hT : 0 < layerT α i h) : layerH α i (layerP α i h) = h := by
  have t0 := (tTrans_bounds h0 h1 (i := i) (by omega)).1
  have pp := pTrans_pos h0 h1 (i := i) (by omega)
  have hR := airRs_pos
  have hg := gravity_pos
  unfold layerH layerP
  split_ifs with hl
  · have : layerT α i h = tTrans α i := by simp [layerT, hl]
    rw [pConst, mul_div_cancel_left₀ _ pp.ne', Real.log_exp, this]
    field_simp
    ring
  · have hpos : 0 < layerT α i h / tTrans α i := div_pos hT (by linarith)
    rw [pLinear, mul_div_cancel_left₀ _ pp.ne', ← Real.rpow_mul hpos.le]
    have : -gravity / (airRs * lapse α i) * (-airRs * lapse α i / gravity) = 1 := by
      field_simp
    rw [this, Real.rpow_one]
    unfold layerT
    field_simp
    ring

theorem layerT_layerH {α : ℝ} (h0 : 0 ≤ α) (h1 : α ≤ 1) {i : ℕ} (hi : i < 7) {p : ℝ} (hp : 0 < p) :
    0 < layerT α i (layerH α i p) := by
  have t0 := (tTrans_bounds h0 h1 (i := i) (by omega)).1
  have pp := pTrans_pos h0 h1 (i := i) (by omega)
  unfold layerT layerH
  split_ifs with hl
  · rw [hl]; linarith
  · have : tTrans α i + lapse α i * (((p / pTrans α i) ^ (-airRs * lapse α i / gravity) - 1) *
        tTrans α i / lapse α i + hTrans i - hTrans i) =
        (p / pTrans α i) ^ (-airRs * lapse α i / gravity) * tTrans α i := by
      field_simp; ring
    rw [this]
    exact mul_pos (Real.rpow_pos_of_pos (div_pos hp pp) _) (by linarith)

theorem layerP_layerH {α : ℝ} (h0 : 0 ≤ α) (h1 : α ≤ 1) {i : ℕ} (hi : i < 7) {p : ℝ} (hp : 0 < p) :
    layerP α i (layerH α i p) = p := by
  have t0 := (tTrans_bounds h0 h1 (i := i) (by omega)).1
  have pp := pTrans_pos h0 h1 (i := i) (by omega)
  have hR := airRs_pos
  have hg := gravity_pos
  by_cases hl : lapse α i = 0
  · unfold layerP layerH layerT
    simp only [hl, if_true]
    rw [pConst]
    have : -(gravity * (-airRs * tTrans α i / gravity * Real.log (p / pTrans α i) + hTrans i - hTrans i)) /
        (airRs * (tTrans α i + 0 * (-airRs * tTrans α i / gravity * Real.log (p / pTrans α i) + hTrans i - hTrans i)))
        = Real.log (p / pTrans α i) := by
      field_simp; ring
    rw [this, Real.exp_log (div_pos hp pp)]
    field_simp
  · have hT : layerT α i (layerH α i p) / tTrans α i = (p / pTrans α i) ^ (-airRs * lapse α i / gravity) := by
      unfold layerT layerH
      simp only [hl, if_false]
      field_simp; ring
    unfold layerP
    rw [if_neg hl, hT, pLinear, ← Real.rpow_mul (div_pos hp pp).le]
    have : -airRs * lapse α i / gravity * (-gravity / (airRs * lapse α i)) = 1 := by field_simp
    rw [this, Real.rpow_one]
    field_simp

/-- First-match search over an increasing sequence of boundaries. -/
theorem find_layer_of_bounds (f : ℕ → ℝ) (n : ℕ) (x : ℝ) (hlo : f 0 ≤ x) (hhi : x < f n) :
    ∃ i < n, (List.range n).find? (fun i => decide (x < f (i + 1))) = some i ∧ f i ≤ x ∧ x < f (i + 1) := by
  classical
  have hex : ∃ k, x < f k := ⟨n, hhi⟩
  obtain ⟨k, hk, hmin⟩ : ∃ k, x < f k ∧ ∀ j < k, ¬ x < f j :=
    ⟨Nat.find hex, Nat.find_spec hex, fun j hj => Nat.find_min hex hj⟩
  rcases k with _ | i
  · exact absurd hk (not_lt.2 hlo)
  · have hin : i < n := by
      by_contra hc
      exact hmin n (by omega) hhi
    refine ⟨i, hin, ?_, not_lt.1 (hmin i (by omega)), hk⟩
    rw [List.find?_range_eq_some]
    refine ⟨by simpa using hk, by simpa using hin, fun j hj => ?_⟩
    simpa using hmin (j + 1) (by omega)

theorem find_layer_eq (f : ℕ → ℝ) (n : ℕ) (x : ℝ) (i : ℕ) (hi : i < n)
    (hmono : ∀ j < n, f j < f (j + 1)) (hlo : f i ≤ x) (hhi : x < f (i + 1)) :
    (List.range n).find? (fun i => decide (x < f (i + 1))) = some i := by
  rw [List.find?_range_eq_some]
  refine ⟨by simpa using hhi, by simpa using hi, fun j hj => ?_⟩
  have : f (j + 1) ≤ f i := by
    have : ∀ m, j + 1 + m ≤ i → f (j + 1) ≤ f (j + 1 + m) := by
      intro m
      induction m with
      | zero => intro _; exact le_refl _
      | succ m ih => intro hm; exact (ih (by omega)).trans (hmono (j + 1 + m) (by omega)).le
    have h := this (i - (j + 1)) (by omega)
    rwa [show j + 1 + (i - (j + 1)) = i by omega] at h
  simp; linarith

/-- Unfolding of `atHeight` in the layer containing the height. -/
theorem atHeight_ok {α h : ℝ} {v : AtmVals} (hv : atHeight α h = .ok v) :
    ∃ i < 7, hTrans i ≤ h ∧ h < hTrans (i + 1) ∧
      v = { height := h, temperature := layerT α i h, pressure := layerP α i h,
            density := layerP α i h / (airRs * layerT α i h) } := by
  unfold atHeight at hv
  split_ifs at hv with c1 c2
  simp only [not_not, ge_iff_le, gt_iff_lt] at c1 c2
  obtain ⟨i, hi, hf, hlo, hhi⟩ := find_layer_of_bounds hTrans 7 h c1 c2
  rw [hf] at hv
  refine ⟨i, hi, hlo, hhi, ?_⟩
  simpa using hv.symm

theorem atHeight_eq {α h : ℝ} {i : ℕ} (hi : i < 7) (hlo : hTrans i ≤ h) (hhi : h < hTrans (i + 1)) :
    atHeight α h = .ok
      { height := h, temperature := layerT α i h, pressure := layerP α i h,
        density := layerP α i h / (airRs * layerT α i h) } := by
  have hf := find_layer_eq hTrans 7 h i hi (fun j hj => hTrans_lt hj) hlo hhi
  have c1 : hTrans 0 ≤ h := by
    refine le_trans ?_ hlo
    interval_cases i <;> norm_num [hTrans]
  have c2 : h < hTrans 7 := by
    refine lt_of_lt_of_le hhi ?_
    interval_cases i <;> norm_num [hTrans]
  unfold atHeight
  rw [if_neg (by push Not; exact c1), if_neg (by push Not; exact c2), hf]

theorem pTrans_antitone {α : ℝ} (h0 : 0 ≤ α) (h1 : α ≤ 1) {i j : ℕ} (hij : i ≤ j) (hj : j ≤ 7) :
    pTrans α j ≤ pTrans α i := by
  induction j with
  | zero => rw [Nat.le_zero.1 hij]
  | succ j ih =>
    rcases Nat.lt_or_ge i (j + 1) with h | h
    · exact (pTrans_lt h0 h1 (by omega)).le.trans (ih (by omega) (by omega))
    · rw [show i = j + 1 by omega]

theorem atPressure_ok {α p : ℝ} {v : AtmVals} (hv : atPressure α p = .ok v) :
    ∃ i < 7, pTrans α (i + 1) < p ∧ p ≤ pTrans α i ∧
      v = { height := layerH α i p, temperature := layerT α i (layerH α i p), pressure := p,
            density := p / (airRs * layerT α i (layerH α i p)) } := by
  unfold atPressure at hv
  split_ifs at hv with c1 c2
  simp only [not_not, ge_iff_le, gt_iff_lt] at c1 c2
  obtain ⟨i, hi, hf, hlo, hhi⟩ := find_layer_of_bounds (fun k => - pTrans α k) 7 (-p) (by simpa using c2)
    (by simpa using c1)
  have hf' : (List.range 7).find? (fun i => decide (p > pTrans α (i + 1))) = some i := by
    rw [← hf]; congr 1; funext k; simp
  rw [hf'] at hv
  refine ⟨i, hi, by simpa using hhi, by simpa using hlo, ?_⟩
  simpa using hv.symm

theorem atPressure_eq {α p : ℝ} (h0 : 0 ≤ α) (h1 : α ≤ 1) {i : ℕ} (hi : i < 7)
    (hlo : pTrans α (i + 1) < p) (hhi : p ≤ pTrans α i) :
    atPressure α p = .ok
      { height := layerH α i p, temperature := layerT α i (layerH α i p), pressure := p,
        density := p / (airRs * layerT α i (layerH α i p)) } := by
  have hf := find_layer_eq (fun k => - pTrans α k) 7 (-p) i hi
    (fun j hj => by simpa using pTrans_lt h0 h1 hj) (by simpa using hhi) (by simpa using hlo)
  have hf' : (List.range 7).find? (fun i => decide (p > pTrans α (i + 1))) = some i := by
    rw [← hf]; congr 1; funext k; simp
  have c1 : pTrans α 7 < p := lt_of_le_of_lt (pTrans_antitone h0 h1 (by omega) (le_refl 7)) hlo
  have c2 : p ≤ pTrans α 0 := hhi.trans (pTrans_antitone h0 h1 (by omega) (by omega))
  unfold atPressure
  rw [if_neg (by push Not; exact c1), if_neg (by push Not; exact c2), hf']

end BLE
