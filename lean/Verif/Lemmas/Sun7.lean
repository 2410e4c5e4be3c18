import Verif.Lemmas.Sun6

/-!
# Sunrise and sunset are never a full day apart (continued): the hour angle
-/

namespace BLE

/-- Hour angle gained in `k` search steps of three minutes. -/
theorem sunPhi_ticks (lng : ℝ) {σ : ℝ} {k : ℝ} (hk0 : 0 ≤ k) (hk : k ≤ 106) (h : InEra σ) (h' : InEra (σ + 180 * k)) :
    0.01308 * k ≤ sunPhi lng (σ + 180 * k) - sunPhi lng σ ∧ sunPhi lng (σ + 180 * k) - sunPhi lng σ ≤ 0.0131 * k := by
  have r := sunPhi_rate lng h'.1 h'.2 h.1 h.2
  rw [show σ + 180 * k - σ = 180 * k by ring, abs_of_nonneg (a := 180 * k) (by positivity)] at r
  obtain ⟨a, b⟩ := abs_le.1 r
  have h1 := Real.pi_gt_d4
  have h2 := Real.pi_lt_d4
  rw [show 2 * Real.pi * (180 * k / 86400) = Real.pi * k / 240 by ring] at a b
  constructor
  · norm_num at *; nlinarith
  · norm_num at *; nlinarith

theorem day_phase (lng : ℝ) {σ : ℝ} (h : InEra σ) (h' : InEra (σ + 86400)) :
    |Real.cos (sunPhi lng (σ + 86400)) - Real.cos (sunPhi lng σ)| ≤ 0.004 ∧
    |Real.sin (sunPhi lng (σ + 86400)) - Real.sin (sunPhi lng σ)| ≤ 0.004 := by
  have r := sunPhi_rate lng h'.1 h'.2 h.1 h.2
  rw [show σ + 86400 - σ = 86400 by ring, abs_of_pos (by norm_num : (0 : ℝ) < 86400),
    show 2 * Real.pi * ((86400 : ℝ) / 86400) = 2 * Real.pi by ring] at r
  have c := Real.abs_cos_sub_cos_le (sunPhi lng (σ + 86400) - 2 * Real.pi) (sunPhi lng σ)
  have s := Real.abs_sin_sub_sin_le (sunPhi lng (σ + 86400) - 2 * Real.pi) (sunPhi lng σ)
  rw [Real.cos_sub_two_pi] at c
  rw [Real.sin_sub_two_pi] at s
  rw [show sunPhi lng (σ + 86400) - 2 * Real.pi - sunPhi lng σ =
    sunPhi lng (σ + 86400) - sunPhi lng σ - 2 * Real.pi by ring] at c s
  constructor
  · refine c.trans (r.trans ?_); norm_num
  · refine s.trans (r.trans ?_); norm_num

end BLE
