import Verif.Lemmas.Sun7

/-!
# The daily course of the sun up to 50° from the equator

The bounds of `Sun4`, `Sun5` and `Sun7` again, with the amplitude of the daily oscillation down to 0.586 and its mean up
to 0.3153. Everything is compared at one place, so that the mean cancels.
-/

namespace BLE

/-- Within 50° of the equator. -/
def Midlat (l : LatLng) : Prop := |l.lat| ≤ Real.pi / 4 + Real.pi / 36

theorem midlat_trig {l : LatLng} (hl : Midlat l) : |Real.sin l.lat| ≤ 0.769 ∧ 0.6426 ≤ Real.cos l.lat := by
  have hpi := Real.pi_pos
  have p1 := Real.pi_gt_d4
  have p2 := Real.pi_lt_d4
  unfold Midlat at hl
  have d0 : 0 < Real.pi / 36 := by positivity
  have d1 : Real.pi / 36 ≤ 0.08727 := by norm_num at *; linarith
  have sd := Real.sin_le d0.le
  have sd0 := Real.sin_nonneg_of_nonneg_of_le_pi d0.le (by linarith)
  have cd := Real.one_sub_sq_div_two_le_cos (x := Real.pi / 36)
  have cd1 := Real.cos_le_one (Real.pi / 36)
  have q : (Real.pi / 36) ^ 2 ≤ 0.08727 ^ 2 := pow_le_pow_left₀ d0.le d1 2
  have cd0 : 0.99619 ≤ Real.cos (Real.pi / 36) := by norm_num at *; linarith
  have r1 : Real.sqrt 2 ≤ 1.41422 := by rw [Real.sqrt_le_iff]; norm_num
  have r0 : 1.41421 ≤ Real.sqrt 2 := by apply Real.le_sqrt_of_sq_le; norm_num
  constructor
  · have : |Real.sin l.lat| = Real.sin |l.lat| := by
      rw [Real.abs_sin_eq_sin_abs_of_abs_le_pi (by linarith)]
    rw [this]
    refine (Real.sin_le_sin_of_le_of_le_pi_div_two (by linarith [abs_nonneg l.lat]) (by linarith) hl).trans ?_
    rw [Real.sin_add, Real.sin_pi_div_four, Real.cos_pi_div_four]
    have m1 : Real.sqrt 2 / 2 * Real.cos (Real.pi / 36) ≤ 0.70711 * 1 :=
      mul_le_mul (by norm_num at *; linarith) cd1 (by norm_num at *; linarith) (by norm_num)
    have m2 : Real.sqrt 2 / 2 * Real.sin (Real.pi / 36) ≤ 0.70711 * 0.08727 :=
      mul_le_mul (by norm_num at *; linarith) (sd.trans d1) sd0 (by norm_num)
    norm_num at *; linarith
  · have c : Real.cos (Real.pi / 4 + Real.pi / 36) ≤ Real.cos |l.lat| := by
      apply Real.cos_le_cos_of_nonneg_of_le_pi (abs_nonneg _) (by linarith) hl
    rw [Real.cos_abs] at c
    refine le_trans ?_ c
    rw [Real.cos_add, Real.sin_pi_div_four, Real.cos_pi_div_four]
    have m := mul_le_mul (show 0.7071 ≤ Real.sqrt 2 / 2 by norm_num at *; linarith)
      (show 0.9089 ≤ Real.cos (Real.pi / 36) - Real.sin (Real.pi / 36) by norm_num at *; linarith) (by norm_num) (by positivity)
    norm_num at *; linarith

theorem midP_range {l : LatLng} (hl : Midlat l) {σ : ℝ} (h : InEra σ) : 0.586 ≤ sunP l σ ∧ sunP l σ ≤ 1 := by
  obtain ⟨-, c⟩ := midlat_trig hl
  obtain ⟨q0, q1, -⟩ := sunS_sqrt h
  unfold sunP
  constructor
  · have := mul_le_mul c q0 (by norm_num) (by norm_num at *; linarith)
    norm_num at *; linarith
  · exact mul_le_one₀ (Real.cos_le_one _) (Real.sqrt_nonneg _) q1

theorem midQ_bound {l : LatLng} (hl : Midlat l) {σ : ℝ} (h : InEra σ) : |Real.sin l.lat * sunS σ| ≤ 0.3153 := by
  obtain ⟨s, -⟩ := midlat_trig hl
  have hs := sunS_bound h.1 h.2
  rw [abs_mul]
  have := mul_le_mul s hs (abs_nonneg _) (by norm_num)
  norm_num at *; linarith

theorem midX_range (l : LatLng) {σ : ℝ} (hl : Midlat l) (h : InEra σ) : -1 ≤ sunX l σ ∧ sunX l σ ≤ 1 := by
  obtain ⟨a, b⟩ := sunQP l h
  obtain ⟨p0, -⟩ := midP_range hl h
  have c1 := Real.cos_le_one (sunPhi l.lng σ)
  have c0 := Real.neg_one_le_cos (sunPhi l.lng σ)
  rw [sunX_eq]
  constructor <;> norm_num at p0 ⊢ <;> nlinarith

/-- Change of `sunX`: that of the hour angle, up to the slow change of the declination. -/
theorem midX_diff {l : LatLng} (hl : Midlat l) {σ τ : ℝ} (h : InEra σ) (h' : InEra τ) :
    |sunX l σ - sunX l τ - sunP l τ * (Real.cos (sunPhi l.lng τ) - Real.cos (sunPhi l.lng σ))| ≤ 1.25e-7 * |σ - τ| := by
  obtain ⟨s, c⟩ := midlat_trig hl
  obtain ⟨a0, a1, a2⟩ := sunS_sqrt h
  obtain ⟨b0, b1, b2⟩ := sunS_sqrt h'
  have rate := sunS_rate h.1 h.2 h'.1 h'.2
  have s1 := sunS_bound h.1 h.2
  have s2 := sunS_bound h'.1 h'.2
  have hq : |Real.sqrt (1 - sunS σ ^ 2) - Real.sqrt (1 - sunS τ ^ 2)| ≤ 0.45 * |sunS σ - sunS τ| := by
    generalize Real.sqrt (1 - sunS σ ^ 2) = a at *
    generalize Real.sqrt (1 - sunS τ ^ 2) = b at *
    have e : (a - b) * (a + b) = -((sunS σ - sunS τ) * (sunS σ + sunS τ)) := by linear_combination a2 - b2
    have e' : |a - b| * (a + b) = |sunS σ - sunS τ| * |sunS σ + sunS τ| := by
      rw [← abs_of_nonneg (show 0 ≤ a + b by norm_num at a0 b0; linarith), ← abs_mul, ← abs_mul, e, abs_neg]
    have hsum : |sunS σ + sunS τ| ≤ 0.82 := (abs_add_le _ _).trans (by norm_num at s1 s2 ⊢; linarith)
    have n1 := abs_nonneg (sunS σ - sunS τ)
    have n2 := abs_nonneg (a - b)
    have m1 := mul_le_mul_of_nonneg_left hsum n1
    have m2 := mul_le_mul_of_nonneg_left (show 1.824 ≤ a + b by norm_num at a0 b0 ⊢; linarith) n2
    norm_num at m1 m2 ⊢
    linarith
  have e : sunX l σ - sunX l τ - sunP l τ * (Real.cos (sunPhi l.lng τ) - Real.cos (sunPhi l.lng σ)) =
      Real.sin l.lat * (sunS σ - sunS τ) -
      Real.cos l.lat * (Real.sqrt (1 - sunS σ ^ 2) - Real.sqrt (1 - sunS τ ^ 2)) * Real.cos (sunPhi l.lng σ) := by
    unfold sunX sunP; ring
  rw [e]
  refine (abs_sub _ _).trans ?_
  rw [abs_mul, abs_mul, abs_mul]
  have n1 := abs_nonneg (sunS σ - sunS τ)
  have t1 := mul_le_mul_of_nonneg_right s n1
  have t2 : |Real.cos l.lat| * |Real.sqrt (1 - sunS σ ^ 2) - Real.sqrt (1 - sunS τ ^ 2)| * |Real.cos (sunPhi l.lng σ)| ≤
      |Real.sqrt (1 - sunS σ ^ 2) - Real.sqrt (1 - sunS τ ^ 2)| := by
    have k1 := Real.abs_cos_le_one l.lat
    have k2 := Real.abs_cos_le_one (sunPhi l.lng σ)
    have n := abs_nonneg (Real.sqrt (1 - sunS σ ^ 2) - Real.sqrt (1 - sunS τ ^ 2))
    calc _ ≤ 1 * |Real.sqrt (1 - sunS σ ^ 2) - Real.sqrt (1 - sunS τ ^ 2)| * 1 := by gcongr
      _ = _ := by ring
  norm_num at t1 hq rate ⊢
  linarith [abs_nonneg (σ - τ)]

/-! ## Elevations at one place -/

/-- Finer than `elevation_lt`. -/
theorem elevation_lt_fine {a b : ℝ} (h0 : -1 ≤ a) (hd : a + 7e-6 ≤ b) (h1 : b ≤ 0.99) :
    apparent (degrees (Real.arcsin a)) < apparent (degrees (Real.arcsin b)) := by
  have hab : a ≤ b := by norm_num at *; linarith
  have c := arcsin_expand h0 hab (by norm_num at *; linarith)
  obtain ⟨d0, -⟩ := degrees_bounds (a := Real.arcsin b - Real.arcsin a) (by linarith)
  rw [← degrees_sub] at d0
  obtain ⟨r0, r1⟩ := degrees_arcsin_range a
  have h84 := arcsin_below h1
  have m := apparent_mono r0 (by norm_num at *; linarith) h84
  norm_num at *; linarith

/-- The hour angle closer to noon by a margin is the higher sun. -/
theorem mid_lt {l : LatLng} (hl : Midlat l) {σ τ D g : ℝ} (h : InEra σ) (h' : InEra τ) (hD : |σ - τ| ≤ D)
    (hg : 1.25e-7 * D + 1e-4 ≤ 0.586 * g) (hc : Real.cos (sunPhi l.lng σ) + g ≤ Real.cos (sunPhi l.lng τ)) :
    sunEl l τ < sunEl l σ := by
  obtain ⟨r0, r1⟩ := midX_range l hl h
  obtain ⟨q0, q1⟩ := midX_range l hl h'
  have hd := (abs_le.1 (midX_diff hl h h')).1
  obtain ⟨p0, p1⟩ := midP_range hl h'
  have g0 : 0 ≤ g := by have := (abs_nonneg _).trans hD; norm_num at hg; linarith
  have m := mul_le_mul p0 (show g ≤ Real.cos (sunPhi l.lng τ) - Real.cos (sunPhi l.lng σ) by linarith) g0
    (by norm_num at p0; linarith)
  unfold sunEl
  refine elevation_lt_all q0 ?_ r1
  norm_num at hd hg m ⊢; linarith

/-- Day and night are more than 30° apart. -/
theorem mid_gap {l : LatLng} (hl : Midlat l) {σ τ : ℝ} (h : InEra σ) (h' : InEra τ) (hD : |σ - τ| ≤ 86400)
    (hc : Real.cos (sunPhi l.lng σ) ≤ -0.7) (hc' : 0.7 ≤ Real.cos (sunPhi l.lng τ)) :
    30 < sunEl l σ - sunEl l τ := by
  obtain ⟨r0, r1⟩ := midX_range l hl h
  obtain ⟨q0, q1⟩ := midX_range l hl h'
  have hd := (abs_le.1 (midX_diff hl h h')).1
  obtain ⟨p0, p1⟩ := midP_range hl h'
  have m := mul_le_mul p0 (show 1.4 ≤ Real.cos (sunPhi l.lng τ) - Real.cos (sunPhi l.lng σ) by norm_num at *; linarith)
    (by norm_num) (by norm_num at p0; linarith)
  have hx : 0.8 ≤ sunX l σ - sunX l τ := by norm_num at hd m ⊢; linarith
  have e := arcsin_expand q0 (show sunX l τ ≤ sunX l σ by norm_num at hx; linarith) r1
  obtain ⟨d0, -⟩ := degrees_bounds (a := Real.arcsin (sunX l σ) - Real.arcsin (sunX l τ)) (by norm_num at hx; linarith)
  rw [← degrees_sub] at d0
  obtain ⟨n0, n1⟩ := degrees_arcsin_range (sunX l σ)
  obtain ⟨n2, n3⟩ := degrees_arcsin_range (sunX l τ)
  have k1 := (apparent_near n0 n1).1
  have k2 := (apparent_near n2 n3).2
  unfold sunEl
  norm_num at *; linarith

theorem midX_below {l : LatLng} (hl : Midlat l) {σ : ℝ} (h : InEra σ) (hc : -0.981 ≤ Real.cos (sunPhi l.lng σ)) :
    sunX l σ ≤ 0.99 := by
  obtain ⟨a, -⟩ := sunQP l h
  obtain ⟨p0, -⟩ := midP_range hl h
  rw [sunX_eq]
  have := mul_le_mul_of_nonneg_left hc (by norm_num at *; linarith : 0 ≤ sunP l σ)
  norm_num at *; linarith

theorem mid_rises {l : LatLng} (hl : Midlat l) {σ : ℝ} (h : InEra σ) (h' : InEra (σ + 1))
    (hs : 0.2 ≤ Real.sin (sunPhi l.lng σ)) : sunEl l σ < sunEl l (σ + 1) := by
  obtain ⟨d0, d1⟩ := second_step l.lng h h'
  have hdrop := cos_drop (a := sunPhi l.lng σ) d0 d1
  rw [add_sub_cancel] at hdrop
  have hx := midX_diff hl h' h
  rw [show σ + 1 - σ = 1 by ring, abs_one] at hx
  obtain ⟨p0, p1⟩ := midP_range hl h
  have c0 := cos_of_sin (a := sunPhi l.lng σ) (hs.trans (le_abs_self _))
  have hlip := Real.abs_cos_sub_cos_le (sunPhi l.lng (σ + 1)) (sunPhi l.lng σ)
  rw [abs_of_nonneg (by norm_num at *; linarith : 0 ≤ sunPhi l.lng (σ + 1) - sunPhi l.lng σ)] at hlip
  obtain ⟨r0, r1⟩ := midX_range l hl h
  unfold sunEl
  apply elevation_lt_fine r0
  · obtain ⟨x0, x1⟩ := abs_le.1 hx
    obtain ⟨e0, e1⟩ := abs_le.1 hdrop
    have m : 0.2 * 7.26e-5 ≤ Real.sin (sunPhi l.lng σ) * (sunPhi l.lng (σ + 1) - sunPhi l.lng σ) :=
      mul_le_mul hs d0 (by norm_num) (by norm_num at *; linarith)
    have m2 : 1.45e-5 ≤ Real.cos (sunPhi l.lng σ) - Real.cos (sunPhi l.lng (σ + 1)) := by norm_num at *; linarith
    have m3 := mul_le_mul p0 m2 (by norm_num) (by norm_num at *; linarith)
    norm_num at *; linarith
  · apply midX_below hl h'
    obtain ⟨e0, e1⟩ := abs_le.1 hlip
    norm_num at *; linarith

theorem mid_sinks {l : LatLng} (hl : Midlat l) {σ : ℝ} (h : InEra σ) (h' : InEra (σ + 1))
    (hs : Real.sin (sunPhi l.lng σ) ≤ -0.2) : sunEl l (σ + 1) < sunEl l σ := by
  obtain ⟨d0, d1⟩ := second_step l.lng h h'
  have hdrop := cos_drop (a := sunPhi l.lng σ) d0 d1
  rw [add_sub_cancel] at hdrop
  have hx := midX_diff hl h' h
  rw [show σ + 1 - σ = 1 by ring, abs_one] at hx
  obtain ⟨p0, p1⟩ := midP_range hl h
  have c0 := cos_of_sin (a := sunPhi l.lng σ) (by rw [abs_of_nonpos (by norm_num at *; linarith)]; norm_num at *; linarith)
  obtain ⟨r0, r1⟩ := midX_range l hl h'
  unfold sunEl
  apply elevation_lt_fine r0
  · obtain ⟨x0, x1⟩ := abs_le.1 hx
    obtain ⟨e0, e1⟩ := abs_le.1 hdrop
    have m : 0.2 * 7.26e-5 ≤ -Real.sin (sunPhi l.lng σ) * (sunPhi l.lng (σ + 1) - sunPhi l.lng σ) :=
      mul_le_mul (by linarith) d0 (by norm_num) (by norm_num at *; linarith)
    have m2 : 1.45e-5 ≤ -(Real.cos (sunPhi l.lng σ) - Real.cos (sunPhi l.lng (σ + 1))) := by norm_num at *; linarith
    have m3 := mul_le_mul p0 m2 (by norm_num) (by norm_num at *; linarith)
    norm_num at *; linarith
  · exact midX_below hl h (by norm_num at *; linarith)

/-! ## Noon and midnight half days -/

/-- From any second of the morning on, one of the three samples of the coming half day is in the day and one of the
following half day in the night. -/
theorem mid_morning_contrast (lng : ℝ) {σ : ℝ} (h : InEra σ) (h' : InEra (σ + 86400)) (hs : -0.2 < Real.sin (sunPhi lng σ)) :
    ∃ i ∈ [0, 1, 2], ∃ j ∈ [0, 1, 2], Real.cos (sunPhi lng (σ + 21600 * (i : ℕ))) ≤ -0.7 ∧
      0.7 ≤ Real.cos (sunPhi lng (σ + 21600 * ((2 + j : ℕ) : ℝ))) := by
  have hera : ∀ k : ℕ, k ≤ 4 → InEra (σ + 21600 * (k : ℝ)) := by
    intro k hk
    have hk' : (k : ℝ) ≤ 4 := by exact_mod_cast hk
    exact ⟨by have := h.1; positivity, by have := h'.2; linarith⟩
  obtain ⟨v0, v1, v2, v3, v4⟩ := quarter_values (sunPhi lng σ)
  have c0 := abs_le.1 (cos_quarter lng 0 (by norm_num) h (hera 0 (by norm_num)))
  have c1 := abs_le.1 (cos_quarter lng 1 (by norm_num) h (hera 1 (by norm_num)))
  have c2 := abs_le.1 (cos_quarter lng 2 (by norm_num) h (hera 2 (by norm_num)))
  have c3 := abs_le.1 (cos_quarter lng 3 (by norm_num) h (hera 3 (by norm_num)))
  have c4 := abs_le.1 (cos_quarter lng 4 (by norm_num) h (hera 4 (by norm_num)))
  rw [v0] at c0; rw [v1] at c1; rw [v2] at c2; rw [v3] at c3; rw [v4] at c4
  rcases dominant (sunPhi lng σ) with d | d | d | d
  · exact ⟨2, by simp, 2, by simp, by norm_num at c2 d ⊢; linarith [c2.2], by norm_num at c4 d ⊢; linarith [c4.1]⟩
  · exact ⟨0, by simp, 0, by simp, by have := c0.2; norm_num at d this ⊢; linarith, by norm_num at c2 d ⊢; linarith [c2.1]⟩
  · exact ⟨1, by simp, 1, by simp, by norm_num at c1 d ⊢; linarith [c1.2], by norm_num at c3 d ⊢; linarith [c3.1]⟩
  · exfalso; norm_num at d hs; linarith

/-- The same from any second of the afternoon on, with the half days exchanged. -/
theorem mid_afternoon_contrast (lng : ℝ) {σ : ℝ} (h : InEra σ) (h' : InEra (σ + 86400)) (hs : Real.sin (sunPhi lng σ) < 0.2) :
    ∃ i ∈ [0, 1, 2], ∃ j ∈ [0, 1, 2], Real.cos (sunPhi lng (σ + 21600 * ((2 + i : ℕ) : ℝ))) ≤ -0.7 ∧
      0.7 ≤ Real.cos (sunPhi lng (σ + 21600 * (j : ℕ))) := by
  have hera : ∀ k : ℕ, k ≤ 4 → InEra (σ + 21600 * (k : ℝ)) := by
    intro k hk
    have hk' : (k : ℝ) ≤ 4 := by exact_mod_cast hk
    exact ⟨by have := h.1; positivity, by have := h'.2; linarith⟩
  obtain ⟨v0, v1, v2, v3, v4⟩ := quarter_values (sunPhi lng σ)
  have c0 := abs_le.1 (cos_quarter lng 0 (by norm_num) h (hera 0 (by norm_num)))
  have c1 := abs_le.1 (cos_quarter lng 1 (by norm_num) h (hera 1 (by norm_num)))
  have c2 := abs_le.1 (cos_quarter lng 2 (by norm_num) h (hera 2 (by norm_num)))
  have c3 := abs_le.1 (cos_quarter lng 3 (by norm_num) h (hera 3 (by norm_num)))
  have c4 := abs_le.1 (cos_quarter lng 4 (by norm_num) h (hera 4 (by norm_num)))
  rw [v0] at c0; rw [v1] at c1; rw [v2] at c2; rw [v3] at c3; rw [v4] at c4
  rcases dominant (sunPhi lng σ) with d | d | d | d
  · exact ⟨0, by simp, 0, by simp, by norm_num at c2 d ⊢; linarith [c2.2], by have := c0.1; norm_num at d this ⊢; linarith⟩
  · exact ⟨2, by simp, 2, by simp, by norm_num at c4 d ⊢; linarith [c4.2], by norm_num at c2 d ⊢; linarith [c2.1]⟩
  · exfalso; norm_num at d hs; linarith
  · exact ⟨1, by simp, 1, by simp, by norm_num at c3 d ⊢; linarith [c3.2], by norm_num at c1 d ⊢; linarith [c1.1]⟩

/-! ## Continuity -/

theorem midEl_close {l : LatLng} (hl : Midlat l) {σ τ : ℝ} (h : InEra σ) (h' : InEra τ)
    (hc : |Real.cos (sunPhi l.lng τ) - Real.cos (sunPhi l.lng σ)| + 1.25e-7 * |σ - τ| < 0.0199) :
    |sunEl l σ - sunEl l τ| < 15 := by
  obtain ⟨r0, r1⟩ := midX_range l hl h
  obtain ⟨q0, q1⟩ := midX_range l hl h'
  refine elevation_close r0 r1 q0 q1 (lt_of_le_of_lt ?_ hc)
  have hx := midX_diff hl h h'
  obtain ⟨p0, p1⟩ := midP_range hl h'
  have e := abs_add_le (sunX l σ - sunX l τ - sunP l τ * (Real.cos (sunPhi l.lng τ) - Real.cos (sunPhi l.lng σ)))
    (sunP l τ * (Real.cos (sunPhi l.lng τ) - Real.cos (sunPhi l.lng σ)))
  rw [sub_add_cancel, abs_mul, abs_of_nonneg (by norm_num at *; linarith : 0 ≤ sunP l τ)] at e
  have := mul_le_mul_of_nonneg_right p1 (abs_nonneg (Real.cos (sunPhi l.lng τ) - Real.cos (sunPhi l.lng σ)))
  linarith

theorem midEl_minutes {l : LatLng} (hl : Midlat l) {σ τ : ℝ} (h : InEra σ) (h' : InEra τ) (hd : |σ - τ| ≤ 180) :
    |sunEl l σ - sunEl l τ| < 15 := by
  apply midEl_close hl h h'
  have r := sunPhi_rate l.lng h'.1 h'.2 h.1 h.2
  rw [abs_sub_comm σ τ] at *
  have c := Real.abs_cos_sub_cos_le (sunPhi l.lng τ) (sunPhi l.lng σ)
  have e := abs_add_le (sunPhi l.lng τ - sunPhi l.lng σ - 2 * Real.pi * ((τ - σ) / 86400)) (2 * Real.pi * ((τ - σ) / 86400))
  rw [sub_add_cancel, show 2 * Real.pi * ((τ - σ) / 86400) = (Real.pi / 43200) * (τ - σ) by ring, abs_mul,
    abs_of_pos (by positivity : 0 < Real.pi / 43200)] at e
  rw [show 2 * Real.pi * ((τ - σ) / 86400) = (Real.pi / 43200) * (τ - σ) by ring] at r
  have h2 := Real.pi_lt_d2
  have hpi := Real.pi_pos
  have m : Real.pi / 43200 * |τ - σ| ≤ 3.15 / 43200 * 180 := by
    apply mul_le_mul _ hd (abs_nonneg _) (by norm_num)
    gcongr
  norm_num at *; linarith

theorem midEl_daily {l : LatLng} (hl : Midlat l) {σ : ℝ} (h : InEra σ) (h' : InEra (σ + 86400)) :
    |sunEl l (σ + 86400) - sunEl l σ| < 15 := by
  apply midEl_close hl h' h
  have q := cos_quarter l.lng 4 (by norm_num) h (by norm_num; exact h')
  rw [(quarter_values _).2.2.2.2] at q
  rw [abs_sub_comm, show σ + 86400 - σ = 86400 by ring, abs_of_pos (by norm_num : (0 : ℝ) < 86400)]
  norm_num at *; linarith

/-- The sun of the code's own ephemeris has an ordinary day at every instant from 1970 to 2096 and every place within
50° of the equator. -/
theorem midSun_ordinary (cal : Calendar) (hcal : Spec.Gregorian cal) (l : LatLng) (hl : Midlat l) (t : ℤ) (h0 : 0 ≤ t)
    (h1 : t < 3999000000 * 1000000) : Spec.OrdinaryDay (fun t => (realSun cal l t).el) t := by
  have el : ∀ s : ℤ, t ≤ s → s ≤ t + 48 * 3600 * 1000000 →
      (realSun cal l s).el = sunEl l ((s / 1000000 : ℤ) : ℝ) ∧ InEra ((s / 1000000 : ℤ) : ℝ) := by
    intro s a b
    refine ⟨realSun_el cal hcal l s (by omega) (by omega), ?_, ?_⟩
    · have : (0 : ℤ) ≤ s / 1000000 := by omega
      exact_mod_cast this
    · have : s / 1000000 ≤ (4000000000 : ℤ) := by omega
      exact_mod_cast this
  have add : ∀ (s k : ℤ), (((s + k * 1000000) / 1000000 : ℤ) : ℝ) = ((s / 1000000 : ℤ) : ℝ) + k := by
    intro s k
    rw [Int.add_mul_ediv_right _ _ (by norm_num)]; push_cast; ring
  refine ⟨?_, ?_, ?_⟩
  · intro s s' a b a' b' hd
    simp only
    obtain ⟨e1, i1⟩ := el s a b
    obtain ⟨e2, i2⟩ := el s' a' b'
    rw [e1, e2]
    apply midEl_minutes hl i1 i2
    have : |s / 1000000 - s' / 1000000| ≤ (180 : ℤ) := by
      rw [abs_lt] at hd; rw [abs_le]; omega
    exact_mod_cast this
  · intro s a b
    simp only
    obtain ⟨e1, i1⟩ := el s a (by omega)
    obtain ⟨e2, i2⟩ := el (s + 24 * 3600 * 1000000) (by omega) (by omega)
    rw [e1, e2]
    rw [add s (24 * 3600)] at i2 ⊢
    norm_num at i2 ⊢
    exact midEl_daily hl i1 i2
  · obtain ⟨e0, i0⟩ := el t le_rfl (by omega)
    obtain ⟨e1, i1⟩ := el (t + 1000000) (by omega) (by omega)
    obtain ⟨e4, i4⟩ := el (t + 86400 * 1000000) (by omega) (by omega)
    have a1 := add t 1
    rw [one_mul] at a1
    rw [a1] at e1 i1
    rw [add t 86400] at i4
    push_cast at e1 i1 i4
    have hq : ∀ k : ℤ, 0 ≤ k → k ≤ 4 →
        (realSun cal l (t + k * 6 * 3600 * 1000000)).el = sunEl l (((t / 1000000 : ℤ) : ℝ) + 21600 * k) := by
      intro k hk0 hk1
      rw [(el (t + k * 6 * 3600 * 1000000) (by omega) (by omega)).1]
      have := add t (k * 6 * 3600)
      rw [this]
      congr 1; push_cast; ring
    have hera : ∀ k : ℕ, k ≤ 4 → InEra (((t / 1000000 : ℤ) : ℝ) + 21600 * (k : ℝ)) := by
      intro k hk
      have hk' : (k : ℝ) ≤ 4 := by exact_mod_cast hk
      exact ⟨by have := i0.1; positivity, by have := i4.2; linarith⟩
    by_cases hc : (realSun cal l (t + 1000000)).el < (realSun cal l t).el
    · have hs : Real.sin (sunPhi l.lng ((t / 1000000 : ℤ) : ℝ)) < 0.2 := by
        by_contra hn
        have := mid_rises hl i0 i1 (not_lt.1 hn)
        rw [e0, e1] at hc; linarith
      obtain ⟨i, hi, j, hj, hh, hlo⟩ := mid_afternoon_contrast l.lng i0 i4 hs
      simp only [List.mem_cons, List.not_mem_nil, or_false] at hi hj
      have gap := mid_gap hl (hera (2 + i) (by omega)) (hera j (by omega)) (by
        have : ((2 + i : ℕ) : ℝ) ≤ 4 := by exact_mod_cast (by omega : 2 + i ≤ 4)
        have : (2 : ℝ) ≤ ((2 + i : ℕ) : ℝ) := by exact_mod_cast (by omega : 2 ≤ 2 + i)
        have : (j : ℝ) ≤ 2 := by exact_mod_cast (by omega : j ≤ 2)
        have : (0 : ℝ) ≤ j := Nat.cast_nonneg j
        rw [abs_le]; constructor <;> linarith) hh hlo
      refine ⟨(i : ℤ), ?_, (j : ℤ), ?_, ?_⟩
      · simp only [List.mem_cons, List.not_mem_nil, or_false]; omega
      · simp only [List.mem_cons, List.not_mem_nil, or_false]; omega
      · rw [if_pos hc]
        simp only
        rw [hq (2 + i) (by omega) (by omega), hq j (by omega) (by omega)]
        push_cast at gap ⊢
        linarith
    · have hs : -0.2 < Real.sin (sunPhi l.lng ((t / 1000000 : ℤ) : ℝ)) := by
        by_contra hn
        have := mid_sinks hl i0 i1 (not_lt.1 hn)
        rw [e0, e1] at hc; exact hc this
      obtain ⟨i, hi, j, hj, hh, hlo⟩ := mid_morning_contrast l.lng i0 i4 hs
      simp only [List.mem_cons, List.not_mem_nil, or_false] at hi hj
      have gap := mid_gap hl (hera i (by omega)) (hera (2 + j) (by omega)) (by
        have : ((2 + j : ℕ) : ℝ) ≤ 4 := by exact_mod_cast (by omega : 2 + j ≤ 4)
        have : (2 : ℝ) ≤ ((2 + j : ℕ) : ℝ) := by exact_mod_cast (by omega : 2 ≤ 2 + j)
        have : (i : ℝ) ≤ 2 := by exact_mod_cast (by omega : i ≤ 2)
        have : (0 : ℝ) ≤ i := Nat.cast_nonneg i
        rw [abs_le]; constructor <;> linarith) hh hlo
      refine ⟨(i : ℤ), ?_, (j : ℤ), ?_, ?_⟩
      · simp only [List.mem_cons, List.not_mem_nil, or_false]; omega
      · simp only [List.mem_cons, List.not_mem_nil, or_false]; omega
      · rw [if_neg hc]
        simp only
        rw [hq (2 + j) (by omega) (by omega), hq i (by omega) (by omega)]
        push_cast at gap ⊢
        linarith

/-! ## Close to a culmination -/

/-- Close to the lower culmination: low sun, not before it by much, and not yet rising. -/
theorem close_midnight {a b : ℝ} (h0 : 0.1308 ≤ a - b) (h1 : a - b ≤ 0.262)
    (hle : Real.cos b - Real.cos a ≤ 9.5e-4) : Real.sin a ≤ 0.14 := by
  have hpi := Real.pi_gt_three
  have e := Real.cos_sub_cos b a
  set α := (a - b) / 2 with hα
  have h0' : 0.0654 ≤ α := by rw [hα]; norm_num at *; linarith
  have h1' : α ≤ 0.131 := by rw [hα]; norm_num at *; linarith
  rw [show (b + a) / 2 = a - α by rw [hα]; ring, show (b - a) / 2 = -α by rw [hα]; ring, Real.sin_neg] at e
  clear_value α
  have ap : 0 < α := by norm_num at *; linarith
  have s0 : 0.0653 ≤ Real.sin α := by
    have m := Real.sin_le_sin_of_le_of_le_pi_div_two (x := 0.0654) (y := α) (by linarith) (by norm_num at *; linarith) h0'
    have := Real.sin_gt_sub_cube (x := 0.0654) (by norm_num)
    norm_num at *; linarith
  have s1 : Real.sin α ≤ 0.131 := (Real.sin_le ap.le).trans h1'
  have c0 : 0.9914 ≤ Real.cos α := by
    have := Real.one_sub_sq_div_two_le_cos (x := α)
    have q : α ^ 2 ≤ 0.131 ^ 2 := pow_le_pow_left₀ ap.le h1' 2
    norm_num at *; linarith
  have k : Real.sin (a - α) ≤ 0.0073 := by
    by_contra hn
    rw [not_le] at hn
    have := mul_lt_mul_of_pos_of_nonneg' (a := 0.0073) (b := Real.sin (a - α)) (c := 0.0653) (d := Real.sin α) hn s0
      (by norm_num) (by norm_num at *; linarith)
    norm_num at *; linarith
  rw [Real.sin_sub] at k
  have c1 := Real.cos_le_one a
  by_contra hn
  rw [not_le] at hn
  have m1 := mul_le_mul hn.le c0 (by norm_num) (by norm_num at *; linarith)
  have m2 := mul_le_mul c1 s1 (by norm_num at *; linarith) zero_le_one
  norm_num at *; linarith

theorem cos_ge_of_sin {a : ℝ} (hc : 0 < Real.cos a) (h0 : -0.2 ≤ Real.sin a) (h1 : Real.sin a ≤ 0.2) : 0.979 ≤ Real.cos a := by
  have sq := Real.sin_sq_add_cos_sq a
  have q : Real.sin a ^ 2 ≤ 0.04 := by norm_num at *; nlinarith
  by_contra hn
  rw [not_le] at hn
  have : Real.cos a ^ 2 < 0.979 ^ 2 := pow_lt_pow_left₀ hn hc.le (by norm_num)
  norm_num at q this; linarith

/-- One and three quarters to three and a half hours after midnight. -/
theorem hours_after_midnight {a θ : ℝ} (hc : 0.979 ≤ Real.cos a) (hs0 : -0.2 ≤ Real.sin a) (hs1 : Real.sin a ≤ 0.145)
    (h0 : 0.4578 ≤ θ) (h1 : θ ≤ 0.917) :
    0.447 ≤ Real.cos (a + θ) ∧ Real.cos (a + θ) + 0.01 ≤ Real.cos a := by
  have hpi := Real.pi_gt_three
  have tp : 0 < θ := by norm_num at *; linarith
  have t0 : 0.579 ≤ Real.cos θ := by
    have := Real.one_sub_sq_div_two_le_cos (x := θ)
    have q : θ ^ 2 ≤ 0.917 ^ 2 := pow_le_pow_left₀ tp.le h1 2
    norm_num at *; linarith
  have t1 : Real.cos θ ≤ 0.8976 := by
    have m := Real.cos_le_cos_of_nonneg_of_le_pi (x := 0.4578) (y := θ) (by norm_num) (by norm_num at *; linarith) h0
    have b := (abs_le.1 (Real.cos_bound (x := 0.4578) (by rw [abs_of_pos (by norm_num)]; norm_num))).2
    rw [abs_of_pos (by norm_num : (0 : ℝ) < 0.4578)] at b
    norm_num at *; linarith
  have sq := Real.sin_sq_add_cos_sq θ
  have sn : 0 ≤ Real.sin θ := Real.sin_nonneg_of_nonneg_of_le_pi tp.le (by norm_num at *; linarith)
  rw [Real.cos_add]
  generalize Real.cos θ = c at *
  generalize Real.sin θ = s at *
  have c1 := Real.cos_le_one a
  constructor
  · have sl : s ≤ 0.816 := by
      by_contra hn
      rw [not_le] at hn
      have q1 : 0.816 ^ 2 < s ^ 2 := pow_lt_pow_left₀ hn (by norm_num) (by norm_num)
      have q2 : 0.579 ^ 2 ≤ c ^ 2 := pow_le_pow_left₀ (by norm_num) t0 2
      norm_num at q1 q2; linarith
    have m1 : 0.979 * 0.579 ≤ Real.cos a * c := mul_le_mul hc t0 (by norm_num) (by norm_num at *; linarith)
    have m3 : Real.sin a * s ≤ 0.145 * s := mul_le_mul_of_nonneg_right hs1 sn
    norm_num at *; linarith
  · have su : s ≤ 4.32 * (1 - c) := by
      by_contra hn
      rw [not_le] at hn
      have u0 : 0.1024 ≤ 1 - c := by norm_num at *; linarith
      have q1 : (4.32 * (1 - c)) ^ 2 < s ^ 2 := pow_lt_pow_left₀ hn (by norm_num at *; linarith) (by norm_num)
      have e : s ^ 2 = (1 - c) * (2 - (1 - c)) := by linear_combination sq
      rw [e] at q1
      generalize 1 - c = u at *
      norm_num at q1 u0; nlinarith
    have m1 : 0.979 * (1 - c) ≤ Real.cos a * (1 - c) := mul_le_mul_of_nonneg_right hc (by norm_num at *; linarith)
    have m4 : -0.2 * s ≤ Real.sin a * s := mul_le_mul_of_nonneg_right hs0 sn
    norm_num at *; linarith

/-- Up to one and three quarters of an hour after midnight. -/
theorem soon_after_midnight {a θ : ℝ} (hc : 0.979 ≤ Real.cos a) (hs1 : Real.sin a ≤ 0.145)
    (h0 : 0 ≤ θ) (h1 : θ ≤ 0.459) : 0.5 ≤ Real.cos (a + θ) := by
  have t0 : 0.89 ≤ Real.cos θ := by
    have := Real.one_sub_sq_div_two_le_cos (x := θ)
    have q : θ ^ 2 ≤ 0.459 ^ 2 := pow_le_pow_left₀ h0 h1 2
    norm_num at *; linarith
  have sn : 0 ≤ Real.sin θ := Real.sin_nonneg_of_nonneg_of_le_pi h0 (by have := Real.pi_gt_three; norm_num at *; linarith)
  have sl := (Real.sin_le h0).trans h1
  rw [Real.cos_add]
  have m1 : 0.979 * 0.89 ≤ Real.cos a * Real.cos θ := mul_le_mul hc t0 (by norm_num) (by norm_num at *; linarith)
  have m3 : Real.sin a * Real.sin θ ≤ 0.145 * Real.sin θ := mul_le_mul_of_nonneg_right hs1 sn
  norm_num at *; linarith

/-- If `t` counts as morning and the midnight search of the next half day ends at `t + 24 h`, then `t` is close to
midnight. -/
theorem mid_phase_midnight {l : LatLng} (hl : Midlat l) {σ : ℝ} (h : InEra σ) (h' : InEra (σ + 86400))
    (hs : -0.2 < Real.sin (sunPhi l.lng σ)) {x : ℝ} (x0 : 0 ≤ x) (x1 : x ≤ 86400)
    (hx : 0.7 ≤ Real.cos (sunPhi l.lng (σ + x))) (hlo : sunEl l (σ + 86400) ≤ sunEl l (σ + x)) {d : ℝ} (d0 : 10 ≤ d) (d1 : d ≤ 20)
    (hd : sunEl l (σ + 86400) ≤ sunEl l (σ + 86400 - 180 * d)) :
    0.979 ≤ Real.cos (sunPhi l.lng σ) ∧ Real.sin (sunPhi l.lng σ) ≤ 0.145 := by
  have hb : InEra (σ + 86400 - 180 * d) := ⟨by have := h.1; linarith, by have := h'.2; linarith⟩
  have hxe : InEra (σ + x) := ⟨by have := h.1; linarith, by have := h'.2; linarith⟩
  have tick := sunPhi_ticks l.lng (σ := σ + 86400 - 180 * d) (k := d) (by linarith) (by linarith) hb (by rw [sub_add_cancel]; exact h')
  rw [sub_add_cancel] at tick
  obtain ⟨k0, k1⟩ := tick
  obtain ⟨⟨dc0, dc1⟩, ds0, ds1⟩ := And.imp abs_le.1 abs_le.1 (day_phase l.lng h h')
  have hcpos : 0.67 < Real.cos (sunPhi l.lng (σ + 86400)) := by
    by_contra hn
    rw [not_lt] at hn
    have := mid_lt hl (σ := σ + 86400) (τ := σ + x) (D := 86400) (g := 0.03) h' hxe
      (by rw [abs_le]; constructor <;> linarith) (by norm_num) (by norm_num at *; linarith)
    linarith
  have hle : Real.cos (sunPhi l.lng (σ + 86400 - 180 * d)) - Real.cos (sunPhi l.lng (σ + 86400)) ≤ 9.5e-4 := by
    by_contra hn
    rw [not_le] at hn
    have := mid_lt hl (σ := σ + 86400) (τ := σ + 86400 - 180 * d) (D := 3600) (g := 9.5e-4) h' hb
      (by rw [abs_le]; constructor <;> linarith) (by norm_num) (by linarith)
    linarith
  have b := close_midnight (by norm_num at *; linarith) (by norm_num at *; linarith) hle
  have s1 : Real.sin (sunPhi l.lng σ) ≤ 0.145 := by norm_num at *; linarith
  exact ⟨cos_ge_of_sin (by norm_num at *; linarith) hs.le (by norm_num at *; linarith), s1⟩

/-- The same for the afternoon and the noon search. -/
theorem mid_phase_noon {l : LatLng} (hl : Midlat l) {σ : ℝ} (h : InEra σ) (h' : InEra (σ + 86400))
    (hs : Real.sin (sunPhi l.lng σ) < 0.2) {x : ℝ} (x0 : 0 ≤ x) (x1 : x ≤ 86400)
    (hx : Real.cos (sunPhi l.lng (σ + x)) ≤ -0.7) (hhi : sunEl l (σ + x) ≤ sunEl l (σ + 86400)) {d : ℝ} (d0 : 10 ≤ d) (d1 : d ≤ 20)
    (hd : sunEl l (σ + 86400 - 180 * d) ≤ sunEl l (σ + 86400)) :
    Real.cos (sunPhi l.lng σ) ≤ -0.979 ∧ -0.145 ≤ Real.sin (sunPhi l.lng σ) := by
  have hb : InEra (σ + 86400 - 180 * d) := ⟨by have := h.1; linarith, by have := h'.2; linarith⟩
  have hxe : InEra (σ + x) := ⟨by have := h.1; linarith, by have := h'.2; linarith⟩
  have tick := sunPhi_ticks l.lng (σ := σ + 86400 - 180 * d) (k := d) (by linarith) (by linarith) hb (by rw [sub_add_cancel]; exact h')
  rw [sub_add_cancel] at tick
  obtain ⟨k0, k1⟩ := tick
  obtain ⟨⟨dc0, dc1⟩, ds0, ds1⟩ := And.imp abs_le.1 abs_le.1 (day_phase l.lng h h')
  have hcneg : Real.cos (sunPhi l.lng (σ + 86400)) < -0.67 := by
    by_contra hn
    rw [not_lt] at hn
    have := mid_lt hl (σ := σ + x) (τ := σ + 86400) (D := 86400) (g := 0.03) hxe h'
      (by rw [abs_le]; constructor <;> linarith) (by norm_num) (by norm_num at *; linarith)
    linarith
  have hle : Real.cos (sunPhi l.lng (σ + 86400)) - Real.cos (sunPhi l.lng (σ + 86400 - 180 * d)) ≤ 9.5e-4 := by
    by_contra hn
    rw [not_le] at hn
    have := mid_lt hl (σ := σ + 86400 - 180 * d) (τ := σ + 86400) (D := 3600) (g := 9.5e-4) hb h'
      (by rw [abs_le]; constructor <;> linarith) (by norm_num) (by linarith)
    linarith
  have b := close_midnight (a := sunPhi l.lng (σ + 86400) + Real.pi) (b := sunPhi l.lng (σ + 86400 - 180 * d) + Real.pi)
    (by norm_num at *; linarith) (by norm_num at *; linarith)
    (by rw [Real.cos_add_pi, Real.cos_add_pi]; norm_num at *; linarith)
  rw [Real.sin_add_pi] at b
  have s1 : -0.145 ≤ Real.sin (sunPhi l.lng σ) := by norm_num at *; linarith
  have c := cos_ge_of_sin (a := sunPhi l.lng σ + Real.pi) (by rw [Real.cos_add_pi]; norm_num at *; linarith)
    (by rw [Real.sin_add_pi]; linarith) (by rw [Real.sin_add_pi]; norm_num at *; linarith)
  rw [Real.cos_add_pi] at c
  exact ⟨by linarith, s1⟩

/-! ## Back to the elevations -/

/-- Below 5° refraction lifts by at most 0.6°. -/
theorem apparent_low {e : ℝ} (h0 : -90 ≤ e) (h1 : e ≤ 5) : apparent e ≤ e + 0.6 := by
  unfold apparent
  rcases le_or_gt e (-0.575) with a | a
  · rw [refraction_one a]
    have g := refr1_mono h0 a le_rfl
    have j := refr1_low
    have e2 : refr2 (-0.575) ≤ 2070 := by unfold refr2; norm_num
    norm_num at *; linarith
  · rw [refraction_two a h1]
    have : refr2 e ≤ 2160 := by
      have e2 : refr2 e = 1735 - e * (518.2 - e * (103.4 - e * (12.79 - 0.711 * e))) := by unfold refr2; ring
      rw [e2]
      rcases le_or_gt e 0 with b | b
      · have q1 : e * (12.79 - 0.711 * e) ≤ 0 := by norm_num at *; nlinarith
        have q2 : -8 ≤ e * (12.79 - 0.711 * e) := by norm_num at *; nlinarith
        generalize e * (12.79 - 0.711 * e) = w at *
        have q3 : -65 ≤ e * (103.4 - w) := by norm_num at *; nlinarith
        generalize e * (103.4 - w) = v at *
        norm_num at *; nlinarith
      · have q1 : 0 ≤ e * (12.79 - 0.711 * e) := by norm_num at *; nlinarith
        generalize e * (12.79 - 0.711 * e) = w at *
        have q3 : e * (103.4 - w) ≤ 518 := by norm_num at *; nlinarith
        generalize e * (103.4 - w) = v at *
        norm_num at *; nlinarith
    norm_num at *; linarith

theorem el_low_of_X {l : LatLng} {σ : ℝ} : (sunX l σ ≤ 0.0599 → sunEl l σ ≤ 4.04) ∧ (-0.0599 ≤ sunX l σ → -3.54 ≤ sunEl l σ) := by
  obtain ⟨q0, q1⟩ := degrees_arcsin_range (sunX l σ)
  have n0 := (apparent_near q0 q1).1
  have d := (degrees_bounds (a := 0.06) (by norm_num)).2
  have s3 := Real.sin_gt_sub_cube (x := 0.06) (by norm_num)
  have hpi := Real.pi_gt_three
  have hpi0 := Real.pi_pos
  constructor
  · intro h
    have : Real.arcsin (sunX l σ) ≤ 0.06 := by
      rw [Real.arcsin_le_iff_le_sin' ⟨by linarith, by norm_num at *; linarith⟩]
      norm_num at *; linarith
    have hd : degrees (Real.arcsin (sunX l σ)) ≤ degrees 0.06 := by unfold degrees; gcongr
    have n1 := apparent_low q0 (by norm_num at *; linarith)
    unfold sunEl
    norm_num at *; linarith
  · intro h
    have : -0.06 ≤ Real.arcsin (sunX l σ) := by
      rw [Real.le_arcsin_iff_sin_le' ⟨by norm_num at *; linarith, by linarith⟩]
      rw [Real.sin_neg]
      norm_num at *; linarith
    have hd : degrees (-0.06) ≤ degrees (Real.arcsin (sunX l σ)) := by unfold degrees; gcongr
    rw [show degrees (-0.06) = -degrees 0.06 by unfold degrees; ring] at hd
    unfold sunEl
    norm_num at *; linarith

theorem el_deep_of_X {l : LatLng} {σ : ℝ} (h : sunX l σ ≤ -0.258) (h1 : -1 ≤ sunX l σ) : sunEl l σ ≤ -14 := by
  have e := arcsin_expand (a := sunX l σ) (b := 0) h1 (by norm_num at *; linarith) (by norm_num)
  rw [Real.arcsin_zero] at e
  obtain ⟨d0, -⟩ := degrees_bounds (a := -Real.arcsin (sunX l σ)) (by norm_num at *; linarith)
  rw [show degrees (-Real.arcsin (sunX l σ)) = -degrees (Real.arcsin (sunX l σ)) by unfold degrees; ring] at d0
  obtain ⟨q0, q1⟩ := degrees_arcsin_range (sunX l σ)
  have n1 := apparent_low q0 (by norm_num at *; linarith)
  unfold sunEl
  norm_num at *; linarith

/-- From midnight on: night for more than an hour and a half, then closer to the sun level. -/
theorem mid_after_midnight {l : LatLng} (hl : Midlat l) {σ : ℝ} (h : InEra σ) (h' : InEra (σ + 86400))
    (hc : 0.979 ≤ Real.cos (sunPhi l.lng σ)) (hs0 : -0.2 < Real.sin (sunPhi l.lng σ)) (hs1 : Real.sin (sunPhi l.lng σ) ≤ 0.145) :
    (∀ j : ℝ, 0 ≤ j → j ≤ 35 → 0.5 ≤ Real.cos (sunPhi l.lng (σ + 180 * j))) ∧
    ∀ k : ℝ, 35 ≤ k → k ≤ 70 → |sunEl l (σ + 180 * k) - minSolarEl| < |sunEl l σ - minSolarEl| := by
  have era : ∀ k : ℝ, 0 ≤ k → k ≤ 70 → InEra (σ + 180 * k) := by
    intro k hk0 hk
    exact ⟨by have := h.1; positivity, by have := h'.2; linarith⟩
  have cosk : ∀ k : ℝ, Real.cos (sunPhi l.lng (σ + 180 * k)) =
      Real.cos (sunPhi l.lng σ + (sunPhi l.lng (σ + 180 * k) - sunPhi l.lng σ)) := by
    intro k; congr 1; ring
  constructor
  · intro j hj0 hj
    have e := era j hj0 (by linarith)
    obtain ⟨k0, k1⟩ := sunPhi_ticks l.lng hj0 (by linarith) h e
    rw [cosk j]
    exact soon_after_midnight hc hs1 (by norm_num at *; linarith) (by norm_num at *; linarith)
  · intro k hk0 hk1
    have e := era k (by linarith) hk1
    obtain ⟨t0, t1⟩ := sunPhi_ticks l.lng (k := k) (by linarith) (by linarith) h e
    obtain ⟨c0, c1⟩ := hours_after_midnight hc hs0.le hs1
      (show 0.4578 ≤ sunPhi l.lng (σ + 180 * k) - sunPhi l.lng σ by norm_num at *; linarith) (by norm_num at *; linarith)
    rw [← cosk k] at c0 c1
    have hlt := mid_lt hl (σ := σ + 180 * k) (τ := σ) (D := 12600) (g := 0.01) e h
      (by rw [abs_le]; constructor <;> linarith) (by norm_num) (by linarith)
    obtain ⟨p0, p1⟩ := midP_range hl e
    obtain ⟨P0, P1⟩ := midP_range hl h
    have hq := abs_le.1 (midQ_bound hl e)
    have hq0 := abs_le.1 (midQ_bound hl h)
    obtain ⟨R0, R1⟩ := midX_range l hl h
    have hxt : sunX l σ ≤ -0.258 := by
      rw [sunX_eq]
      have := mul_le_mul P0 hc (by norm_num) (by norm_num at P0; linarith)
      norm_num at this hq0 ⊢; linarith
    have hxk : sunX l (σ + 180 * k) ≤ 0.0599 := by
      rw [sunX_eq]
      have := mul_le_mul p0 c0 (by norm_num) (by norm_num at p0; linarith)
      norm_num at this hq ⊢; linarith
    have el1 := el_deep_of_X hxt R0
    have el2 := el_low_of_X.1 hxk
    have em : minSolarEl = -4.242 := rfl
    rw [em]
    rw [abs_lt, abs_of_nonpos (by norm_num at el1 ⊢; linarith)]
    constructor <;> norm_num at el1 el2 ⊢ <;> linarith

/-- From noon on: day for more than an hour and a half, then closer to the sun level. -/
theorem mid_after_noon {l : LatLng} (hl : Midlat l) {σ : ℝ} (h : InEra σ) (h' : InEra (σ + 86400))
    (hc : Real.cos (sunPhi l.lng σ) ≤ -0.979) (hs0 : Real.sin (sunPhi l.lng σ) < 0.2) (hs1 : -0.145 ≤ Real.sin (sunPhi l.lng σ)) :
    (∀ j : ℝ, 0 ≤ j → j ≤ 35 → Real.cos (sunPhi l.lng (σ + 180 * j)) ≤ -0.5) ∧
    ∀ k : ℝ, 35 ≤ k → k ≤ 70 → |sunEl l (σ + 180 * k) - minSolarEl| < |sunEl l σ - minSolarEl| := by
  have era : ∀ k : ℝ, 0 ≤ k → k ≤ 70 → InEra (σ + 180 * k) := by
    intro k hk0 hk
    exact ⟨by have := h.1; positivity, by have := h'.2; linarith⟩
  have hc' : 0.979 ≤ Real.cos (sunPhi l.lng σ + Real.pi) := by rw [Real.cos_add_pi]; linarith
  have hs0' : -0.2 ≤ Real.sin (sunPhi l.lng σ + Real.pi) := by rw [Real.sin_add_pi]; linarith
  have hs1' : Real.sin (sunPhi l.lng σ + Real.pi) ≤ 0.145 := by rw [Real.sin_add_pi]; linarith
  have cosk : ∀ k : ℝ, Real.cos (sunPhi l.lng (σ + 180 * k)) =
      -Real.cos (sunPhi l.lng σ + Real.pi + (sunPhi l.lng (σ + 180 * k) - sunPhi l.lng σ)) := by
    intro k
    rw [show sunPhi l.lng σ + Real.pi + (sunPhi l.lng (σ + 180 * k) - sunPhi l.lng σ) =
      sunPhi l.lng (σ + 180 * k) + Real.pi by ring, Real.cos_add_pi, neg_neg]
  constructor
  · intro j hj0 hj
    have e := era j hj0 (by linarith)
    obtain ⟨k0, k1⟩ := sunPhi_ticks l.lng hj0 (by linarith) h e
    rw [cosk j]
    have := soon_after_midnight hc' hs1' (θ := sunPhi l.lng (σ + 180 * j) - sunPhi l.lng σ) (by norm_num at *; linarith)
      (by norm_num at *; linarith)
    linarith
  · intro k hk0 hk1
    have e := era k (by linarith) hk1
    obtain ⟨t0, t1⟩ := sunPhi_ticks l.lng (k := k) (by linarith) (by linarith) h e
    obtain ⟨c0, c1⟩ := hours_after_midnight hc' hs0' hs1'
      (show 0.4578 ≤ sunPhi l.lng (σ + 180 * k) - sunPhi l.lng σ by norm_num at *; linarith) (by norm_num at *; linarith)
    have ck := cosk k
    rw [Real.cos_add_pi] at c1
    have hlt := mid_lt hl (σ := σ) (τ := σ + 180 * k) (D := 12600) (g := 0.01) h e
      (by rw [abs_le]; constructor <;> linarith) (by norm_num) (by rw [ck]; linarith)
    obtain ⟨p0, p1⟩ := midP_range hl e
    have hq := abs_le.1 (midQ_bound hl e)
    have hxk : -0.0599 ≤ sunX l (σ + 180 * k) := by
      rw [sunX_eq, ck]
      have := mul_le_mul p0 c0 (by norm_num) (by norm_num at p0; linarith)
      norm_num at this hq ⊢; linarith
    have el2 := el_low_of_X.2 hxk
    have em : minSolarEl = -4.242 := rfl
    rw [em]
    rw [abs_of_nonneg (by norm_num at el2 ⊢; linarith), abs_of_nonneg (by norm_num at el2 ⊢; linarith)]
    linarith

end BLE
