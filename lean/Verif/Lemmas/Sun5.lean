import Verif.Lemmas.Sun4
import Verif.Props.EpisodeStart

/-!
# Rising, sinking and six-hourly samples of the code's own sun
-/

namespace BLE

theorem sunPhi_near (lng : ℝ) {σ τ : ℝ} (h : InEra σ) (h' : InEra τ) (hd : |σ - τ| ≤ 172800) :
    |sunPhi lng σ - (sunPhi lng τ + 2 * Real.pi * ((σ - τ) / 86400))| ≤ 0.007 := by
  have r := sunPhi_rate lng h.1 h.2 h'.1 h'.2
  rw [show sunPhi lng σ - (sunPhi lng τ + 2 * Real.pi * ((σ - τ) / 86400)) =
    sunPhi lng σ - sunPhi lng τ - 2 * Real.pi * ((σ - τ) / 86400) by ring]
  norm_num at *; linarith

/-- Hour angle a multiple of six hours later. -/
theorem cos_quarter (lng : ℝ) {σ : ℝ} (k : ℕ) (hk : k ≤ 4) (h : InEra σ) (h' : InEra (σ + 21600 * k)) :
    |Real.cos (sunPhi lng (σ + 21600 * k)) - Real.cos (sunPhi lng σ + k * (Real.pi / 2))| ≤ 0.004 := by
  have r := sunPhi_rate lng h'.1 h'.2 h.1 h.2
  refine (Real.abs_cos_sub_cos_le _ _).trans ?_
  have hk' : (k : ℝ) ≤ 4 := by exact_mod_cast hk
  have hk0 : (0 : ℝ) ≤ k := Nat.cast_nonneg k
  rw [show sunPhi lng (σ + 21600 * k) - (sunPhi lng σ + k * (Real.pi / 2)) =
    sunPhi lng (σ + 21600 * k) - sunPhi lng σ - 2 * Real.pi * ((σ + 21600 * k - σ) / 86400) by ring]
  refine r.trans ?_
  rw [show σ + 21600 * (k : ℝ) - σ = 21600 * k by ring, abs_of_nonneg (by positivity)]
  norm_num; linarith

theorem second_step (lng : ℝ) {σ : ℝ} (h : InEra σ) (h' : InEra (σ + 1)) :
    7.26e-5 ≤ sunPhi lng (σ + 1) - sunPhi lng σ ∧ sunPhi lng (σ + 1) - sunPhi lng σ ≤ 7.28e-5 := by
  have r := sunPhi_rate lng h'.1 h'.2 h.1 h.2
  rw [show σ + 1 - σ = 1 by ring, abs_one] at r
  obtain ⟨a, b⟩ := abs_le.1 r
  have h1 := Real.pi_gt_d4
  have h2 := Real.pi_lt_d4
  constructor <;> norm_num at * <;> linarith

theorem cos_drop {a h : ℝ} (hh : 7.26e-5 ≤ h) (hh' : h ≤ 7.28e-5) :
    |Real.cos a - Real.cos (a + h) - Real.sin a * h| ≤ 4e-9 := by
  have hp : 0 < h := by norm_num at *; linarith
  have c1 := Real.one_sub_sq_div_two_le_cos (x := h)
  have c2 := Real.cos_le_one h
  have s1 := Real.sin_gt_sub_cube hp
  have s2 := Real.sin_le hp.le
  have q : h ^ 2 ≤ 7.28e-5 ^ 2 := pow_le_pow_left₀ hp.le hh' 2
  have q3 : h ^ 3 ≤ 7.28e-5 ^ 3 := pow_le_pow_left₀ hp.le hh' 3
  rw [Real.cos_add, show Real.cos a - (Real.cos a * Real.cos h - Real.sin a * Real.sin h) - Real.sin a * h =
    Real.cos a * (1 - Real.cos h) + Real.sin a * (Real.sin h - h) by ring]
  refine (abs_add_le _ _).trans ?_
  rw [abs_mul, abs_mul]
  have b1 : |1 - Real.cos h| ≤ 2.7e-9 := by
    rw [abs_of_nonneg (by linarith)]; norm_num at *; linarith
  have b2 : |Real.sin h - h| ≤ 1e-12 := by
    rw [abs_of_nonpos (by linarith)]; norm_num at *; linarith
  have k1 := mul_le_mul (Real.abs_cos_le_one a) b1 (abs_nonneg _) zero_le_one
  have k2 := mul_le_mul (Real.abs_sin_le_one a) b2 (abs_nonneg _) zero_le_one
  norm_num at *; linarith

theorem sunX_below {l : LatLng} (hl : Tropical l) {σ : ℝ} (h : InEra σ) (hc : -0.981 ≤ Real.cos (sunPhi l.lng σ)) :
    sunX l σ ≤ 0.99 := by
  obtain ⟨a, -⟩ := sunQP l h
  obtain ⟨p0, -⟩ := sunP_range hl h
  rw [sunX_eq]
  have := mul_le_mul_of_nonneg_left hc (by norm_num at *; linarith : 0 ≤ sunP l σ)
  norm_num at *; linarith

theorem cos_of_sin {a : ℝ} (h : 0.2 ≤ |Real.sin a|) : -0.98 ≤ Real.cos a := by
  have h1 := Real.sin_sq_add_cos_sq a
  rw [← sq_abs (Real.sin a)] at h1
  have h2 : 0.2 ^ 2 ≤ |Real.sin a| ^ 2 := pow_le_pow_left₀ (by norm_num) h 2
  by_contra hc
  rw [not_le] at hc
  have h3 : 0.96 < Real.cos a ^ 2 := by norm_num at hc ⊢; nlinarith
  rw [sq_abs] at h1
  norm_num at h2 h3
  linarith

/-- While the hour angle says morning, the sun rises from one second to the next. -/
theorem morning_rises {l : LatLng} (hl : Tropical l) {σ : ℝ} (h : InEra σ) (h' : InEra (σ + 1))
    (hs : 0.2 ≤ Real.sin (sunPhi l.lng σ)) : sunEl l σ < sunEl l (σ + 1) := by
  obtain ⟨d0, d1⟩ := second_step l.lng h h'
  have hdrop := cos_drop (a := sunPhi l.lng σ) d0 d1
  rw [add_sub_cancel] at hdrop
  have hx := sunX_diff hl h' h
  rw [show σ + 1 - σ = 1 by ring, abs_one] at hx
  obtain ⟨p0, p1⟩ := sunP_range hl h
  have c0 := cos_of_sin (a := sunPhi l.lng σ) (hs.trans (le_abs_self _))
  have hlip := Real.abs_cos_sub_cos_le (sunPhi l.lng (σ + 1)) (sunPhi l.lng σ)
  rw [abs_of_nonneg (by norm_num at *; linarith : 0 ≤ sunPhi l.lng (σ + 1) - sunPhi l.lng σ)] at hlip
  obtain ⟨r0, r1⟩ := sunX_range l hl h
  unfold sunEl
  apply elevation_lt r0
  · obtain ⟨x0, x1⟩ := abs_le.1 hx
    obtain ⟨e0, e1⟩ := abs_le.1 hdrop
    have m : 0.2 * 7.26e-5 ≤ Real.sin (sunPhi l.lng σ) * (sunPhi l.lng (σ + 1) - sunPhi l.lng σ) :=
      mul_le_mul hs d0 (by norm_num) (by norm_num at *; linarith)
    have m2 : 1.45e-5 ≤ Real.cos (sunPhi l.lng σ) - Real.cos (sunPhi l.lng (σ + 1)) := by norm_num at *; linarith
    have m3 := mul_le_mul p0 m2 (by norm_num) (by norm_num at *; linarith)
    norm_num at *; linarith
  · apply sunX_below hl h'
    obtain ⟨e0, e1⟩ := abs_le.1 hlip
    norm_num at *; linarith

/-- While the hour angle says afternoon, the sun sinks from one second to the next. -/
theorem afternoon_sinks {l : LatLng} (hl : Tropical l) {σ : ℝ} (h : InEra σ) (h' : InEra (σ + 1))
    (hs : Real.sin (sunPhi l.lng σ) ≤ -0.2) : sunEl l (σ + 1) < sunEl l σ := by
  obtain ⟨d0, d1⟩ := second_step l.lng h h'
  have hdrop := cos_drop (a := sunPhi l.lng σ) d0 d1
  rw [add_sub_cancel] at hdrop
  have hx := sunX_diff hl h' h
  rw [show σ + 1 - σ = 1 by ring, abs_one] at hx
  obtain ⟨p0, p1⟩ := sunP_range hl h
  have c0 := cos_of_sin (a := sunPhi l.lng σ) (by rw [abs_of_nonpos (by norm_num at *; linarith)]; norm_num at *; linarith)
  obtain ⟨r0, r1⟩ := sunX_range l hl h'
  unfold sunEl
  apply elevation_lt r0
  · obtain ⟨x0, x1⟩ := abs_le.1 hx
    obtain ⟨e0, e1⟩ := abs_le.1 hdrop
    have m : 0.2 * 7.26e-5 ≤ -Real.sin (sunPhi l.lng σ) * (sunPhi l.lng (σ + 1) - sunPhi l.lng σ) :=
      mul_le_mul (by linarith) d0 (by norm_num) (by norm_num at *; linarith)
    have m2 : 1.45e-5 ≤ -(Real.cos (sunPhi l.lng σ) - Real.cos (sunPhi l.lng (σ + 1))) := by norm_num at *; linarith
    have m3 := mul_le_mul p0 m2 (by norm_num) (by norm_num at *; linarith)
    norm_num at *; linarith
  · exact sunX_below hl h (by norm_num at *; linarith)

/-! ## Noon and midnight half days -/

theorem quarter_values (a : ℝ) :
    Real.cos (a + (0 : ℕ) * (Real.pi / 2)) = Real.cos a ∧ Real.cos (a + (1 : ℕ) * (Real.pi / 2)) = -Real.sin a ∧
    Real.cos (a + (2 : ℕ) * (Real.pi / 2)) = -Real.cos a ∧ Real.cos (a + (3 : ℕ) * (Real.pi / 2)) = Real.sin a ∧
    Real.cos (a + (4 : ℕ) * (Real.pi / 2)) = Real.cos a := by
  refine ⟨by simp, ?_, ?_, ?_, ?_⟩
  · rw [show a + ((1 : ℕ) : ℝ) * (Real.pi / 2) = a + Real.pi / 2 by push_cast; ring, Real.cos_add_pi_div_two]
  · rw [show a + ((2 : ℕ) : ℝ) * (Real.pi / 2) = a + Real.pi by push_cast; ring, Real.cos_add_pi]
  · rw [show a + ((3 : ℕ) : ℝ) * (Real.pi / 2) = a + Real.pi / 2 + Real.pi by push_cast; ring, Real.cos_add_pi,
      Real.cos_add_pi_div_two, neg_neg]
  · rw [show a + ((4 : ℕ) : ℝ) * (Real.pi / 2) = a + 2 * Real.pi by push_cast; ring, Real.cos_add_two_pi]

theorem dominant (a : ℝ) : 0.705 ≤ Real.cos a ∨ Real.cos a ≤ -0.705 ∨ 0.705 ≤ Real.sin a ∨ Real.sin a ≤ -0.705 := by
  have := Real.sin_sq_add_cos_sq a
  by_contra hc
  push Not at hc
  obtain ⟨h1, h2, h3, h4⟩ := hc
  have k1 : Real.cos a ^ 2 < 0.4971 := by norm_num at h1 h2 ⊢; nlinarith
  have k2 : Real.sin a ^ 2 < 0.4971 := by norm_num at h3 h4 ⊢; nlinarith
  norm_num at k1 k2
  linarith

end BLE
