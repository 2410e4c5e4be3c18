import Verif.Lemmas.Atmosphere
import Verif.Lemmas.Safety

namespace BLE

/-- Density (up to the constant `1/R`) at a height of layer `i`. -/
noncomputable def layerD (α : ℝ) (i : ℕ) (h : ℝ) : ℝ := layerP α i h / (airRs * layerT α i h)

theorem layerD_strictAnti {α : ℝ} (h0 : 0 ≤ α) (h1 : α ≤ 1) {i : ℕ} (hi : i < 7) {h h' : ℝ}
    (ha : hTrans i ≤ h) (hb : h' ≤ hTrans (i + 1)) (hh : h < h') : layerD α i h' < layerD α i h := by
  have t0 := (tTrans_bounds h0 h1 (i := i) (by omega)).1
  have pp := pTrans_pos h0 h1 (i := i) (by omega)
  have hT := (layerT_pos h0 h1 hi (h := h) ha (by linarith)).1
  have hT' := (layerT_pos h0 h1 hi (h := h') (by linarith) hb).1
  have hP := layerP_pos h0 h1 hi (h := h) pp (by linarith)
  have hP' := layerP_pos h0 h1 hi (h := h') pp (by linarith)
  have hR := airRs_pos
  unfold layerD
  have q : 0 < airRs * layerT α i h := by positivity
  have q' : 0 < airRs * layerT α i h' := mul_pos hR (by linarith)
  rw [← Real.log_lt_log_iff (div_pos hP' q') (div_pos hP q), Real.log_div hP'.ne' q'.ne',
    Real.log_div hP.ne' q.ne', Real.log_mul hR.ne' (by linarith), Real.log_mul hR.ne' (by linarith),
    log_layerP h0 h1 hi (by linarith), log_layerP h0 h1 hi (by linarith)]
  have hg : 0.03 < gravity / airRs := by norm_num [gravity, airRs, gasR, airM]
  split_ifs with hl
  · have e : layerT α i h = tTrans α i := by simp [layerT, hl]
    have e' : layerT α i h' = tTrans α i := by simp [layerT, hl]
    rw [e, e']
    have : (h - hTrans i) / tTrans α i < (h' - hTrans i) / tTrans α i :=
      div_lt_div_of_pos_right (by linarith) (by linarith)
    nlinarith
  · rw [Real.log_div (by linarith) (by linarith), Real.log_div (by linarith) (by linarith)]
    have hlog : layerT α i h' = layerT α i h + lapse α i * (h' - h) := by unfold layerT; ring
    set a := Real.log (layerT α i h)
    set b := Real.log (layerT α i h')
    set c := Real.log (tTrans α i)
    have hlb := lapse_bounds h0 h1 hi
    have key : gravity / airRs * ((a - c) / lapse α i) - gravity / airRs * ((b - c) / lapse α i)
        < b - a := by
      have e : gravity / airRs * ((a - c) / lapse α i) - gravity / airRs * ((b - c) / lapse α i)
        = (gravity / airRs) * ((a - b) / lapse α i) := by field_simp; ring
      rw [e]
      rcases lt_or_gt_of_ne hl with hn | hp
      · have hba : b < a := Real.log_lt_log (by linarith) (by rw [hlog]; nlinarith)
        have h3 : 0 < (a - b) / 0.007 := div_pos (by linarith) (by norm_num)
        have h4 : (a - b) = (a - b) / 0.007 * 0.007 := by field_simp
        have h2 : (a - b) / lapse α i ≤ - ((a - b) / 0.007) := by
          rw [div_le_iff_of_neg hn]
          nlinarith [mul_nonneg h3.le (show 0 ≤ lapse α i + 0.007 by linarith [hlb.1])]
        set X := (a - b) / lapse α i
        set Y := (a - b) / 0.007
        have : (gravity / airRs - 0.03) * X < 0 := mul_neg_of_pos_of_neg (by linarith) (by linarith)
        nlinarith
      · have hba : a < b := Real.log_lt_log (by linarith) (by rw [hlog]; nlinarith)
        have : (a - b) / lapse α i < 0 := div_neg_of_neg_of_pos (by linarith) hp
        nlinarith
    linarith

theorem layerD_end {α : ℝ} (h0 : 0 ≤ α) (h1 : α ≤ 1) {i : ℕ} (hi : i + 1 < 7) :
    layerD α i (hTrans (i + 1)) = layerD α (i + 1) (hTrans (i + 1)) := by
  unfold layerD
  rw [layerP_end, layerT_end, layerP_start h0 h1 hi, layerT_start]

/-- Gluing strictly decreasing pieces. -/
theorem glue_strictAnti (H : ℕ → ℝ) (F : ℕ → ℝ → ℝ) (n : ℕ)
    (hH : ∀ i < n, H i < H (i + 1))
    (hF : ∀ i < n, ∀ x y, H i ≤ x → y ≤ H (i + 1) → x < y → F i y < F i x)
    (hglue : ∀ i, i + 1 < n → F i (H (i + 1)) = F (i + 1) (H (i + 1)))
    {i j : ℕ} (hi : i < n) (hj : j < n) {x y : ℝ} (hx : H i ≤ x ∧ x < H (i + 1))
    (hy : H j ≤ y ∧ y < H (j + 1)) (hxy : x < y) : F j y < F i x := by
  -- boundary values decrease
  have hb : ∀ m k, k + m < n → F (k + m) (H (k + m)) ≤ F k (H k) := by
    intro m
    induction m with
    | zero => intro k _; exact le_refl _
    | succ m ih =>
      intro k hk
      have h1 := ih k (by omega)
      have h2 := hF (k + m) (by omega) _ _ (le_refl _) (le_refl _) (hH (k + m) (by omega))
      have h3 := hglue (k + m) (by omega)
      rw [show k + (m + 1) = k + m + 1 by omega, ← h3]
      linarith
  have hHm : ∀ m k, k + m < n → H k ≤ H (k + m) := by
    intro m
    induction m with
    | zero => intro k _; exact le_refl _
    | succ m ih => intro k hk; exact (ih k (by omega)).trans (hH (k + m) (by omega)).le
  rcases Nat.lt_trichotomy i j with h | h | h
  · have e1 := hF i hi x (H (i + 1)) hx.1 (le_refl _) hx.2
    rw [hglue i (by omega)] at e1
    have e2 := hb (j - (i + 1)) (i + 1) (by omega)
    rw [show i + 1 + (j - (i + 1)) = j by omega] at e2
    rcases hy.1.lt_or_eq with hlt | heq
    · have e3 := hF j hj (H j) y (le_refl _) hy.2.le hlt
      linarith
    · rw [← heq]; linarith
  · subst h
    exact hF i hi x y hx.1 hy.2.le hxy
  · have := hHm (i - (j + 1)) (j + 1) (by omega)
    rw [show j + 1 + (i - (j + 1)) = i by omega] at this
    linarith [hx.1, hy.2]

/-- Temperature ratio bound: the pressure ratio across part of a layer is at most the isothermal one
at 300 K. -/
theorem layerP_le_exp {α : ℝ} (h0 : 0 ≤ α) (h1 : α ≤ 1) {i : ℕ} (hi : i < 7) {h : ℝ}
    (ha : hTrans i ≤ h) (hb : h ≤ hTrans (i + 1)) :
    layerP α i h ≤ pTrans α i * Real.exp (-(gravity / airRs) * ((h - hTrans i) / 300)) := by
  have t0 := tTrans_bounds h0 h1 (i := i) (by omega)
  have pp := pTrans_pos h0 h1 (i := i) (by omega)
  have hT := layerT_pos h0 h1 hi ha hb
  have hP := layerP_pos h0 h1 hi (h := h) pp (by linarith [hT.1])
  have hg : 0 < gravity / airRs := div_pos gravity_pos airRs_pos
  rw [← Real.log_le_log_iff hP (by positivity), Real.log_mul pp.ne' (Real.exp_pos _).ne', Real.log_exp,
    log_layerP h0 h1 hi (by linarith [hT.1])]
  have key : (h - hTrans i) / 300 ≤ (if lapse α i = 0 then (h - hTrans i) / tTrans α i
        else Real.log (layerT α i h / tTrans α i) / lapse α i) := by
    split_ifs with hl
    · apply div_le_div_of_nonneg_left <;> linarith [t0.1]
    · have hd : layerT α i h = tTrans α i + lapse α i * (h - hTrans i) := rfl
      have r : 0 < layerT α i h / tTrans α i := div_pos (by linarith [hT.1]) (by linarith [t0.1])
      rcases lt_or_gt_of_ne hl with hn | hp
      · have := Real.log_le_sub_one_of_pos r
        have e : layerT α i h / tTrans α i - 1 = lapse α i * ((h - hTrans i) / tTrans α i) := by
          rw [hd]; field_simp [show tTrans α i ≠ 0 by linarith [t0.1]]; ring
        rw [e] at this
        have h3 : (h - hTrans i) / tTrans α i ≤ Real.log (layerT α i h / tTrans α i) / lapse α i := by
          rw [le_div_iff_of_neg hn]; linarith
        refine le_trans ?_ h3
        apply div_le_div_of_nonneg_left <;> linarith [t0.1]
      · have := Real.one_sub_inv_le_log_of_pos r
        have e : 1 - (layerT α i h / tTrans α i)⁻¹ = lapse α i * ((h - hTrans i) / layerT α i h) := by
          rw [inv_div]
          have : layerT α i h ≠ 0 := by linarith [hT.1]
          rw [eq_comm, mul_div_assoc', div_eq_iff this, sub_mul, div_mul_cancel₀ _ this, hd]; ring
        rw [e] at this
        have h3 : (h - hTrans i) / layerT α i h ≤ Real.log (layerT α i h / tTrans α i) / lapse α i := by
          rw [le_div_iff₀ hp]; linarith
        refine le_trans ?_ h3
        apply div_le_div_of_nonneg_left <;> linarith [hT.1]
  nlinarith

theorem pTrans_le_exp {α : ℝ} (h0 : 0 ≤ α) (h1 : α ≤ 1) {i : ℕ} (hi : i ≤ 7) :
    pTrans α i ≤ 108870.8213 * Real.exp (-(gravity / airRs) * ((hTrans i - hTrans 0) / 300)) := by
  induction i with
  | zero => simp [pTrans]
  | succ i ih =>
    rw [← layerP_end]
    refine (layerP_le_exp h0 h1 (by omega) (hTrans_lt (by omega)).le (le_refl _)).trans ?_
    have := ih (by omega)
    refine (mul_le_mul_of_nonneg_right this (Real.exp_pos _).le).trans ?_
    rw [mul_assoc, ← Real.exp_add]
    apply le_of_eq
    congr 2
    ring

end BLE
