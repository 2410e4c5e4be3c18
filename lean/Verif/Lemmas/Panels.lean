import Verif.Props.DayPower

/-!
# Power of the solar panels at every pressure a flight can reach
-/

namespace BLE

/-- Cosine of a number of degrees, twice through the double angle. -/
theorem cos_deg_fine {x b : ℝ} (hb : |x| ≤ b) (hb1 : b ≤ 90) :
    2 * (2 * (1 - (0.01746 * b) ^ 2 / 32) ^ 2 - 1) ^ 2 - 1 ≤ Real.cos (radians x) := by
  have hb0 : 0 ≤ b := (abs_nonneg x).trans hb
  have q : |x / 4| ≤ b / 4 := by rw [abs_div]; norm_num; linarith
  have c1 := cos_deg_ge q
  have e1 : Real.cos (radians (x / 2)) = 2 * Real.cos (radians (x / 4)) ^ 2 - 1 := by
    rw [← Real.cos_two_mul]; congr 1; unfold radians; ring
  have e2 : Real.cos (radians x) = 2 * Real.cos (radians (x / 2)) ^ 2 - 1 := by
    rw [← Real.cos_two_mul]; congr 1; unfold radians; ring
  have hsq : (0.01746 * b) ^ 2 ≤ 2.47 := by
    have : (0.01746 * b) ^ 2 ≤ (0.01746 * 90) ^ 2 := pow_le_pow_left₀ (by positivity) (by norm_num; linarith) 2
    norm_num at *; linarith
  rw [show 1 - (0.01746 * (b / 4)) ^ 2 / 2 = 1 - (0.01746 * b) ^ 2 / 32 by ring] at c1
  rw [e2, e1]
  generalize (0.01746 * b) ^ 2 = z at *
  generalize Real.cos (radians (x / 4)) = c at *
  have hc : 0.92 ≤ 1 - z / 32 := by norm_num at *; linarith
  have s1 : (1 - z / 32) ^ 2 ≤ c ^ 2 := pow_le_pow_left₀ (by norm_num at *; linarith) c1 2
  have s0 : 0.92 ^ 2 ≤ (1 - z / 32) ^ 2 := pow_le_pow_left₀ (by norm_num) hc 2
  have s2 : (2 * (1 - z / 32) ^ 2 - 1) ^ 2 ≤ (2 * c ^ 2 - 1) ^ 2 :=
    pow_le_pow_left₀ (by norm_num at *; linarith) (by linarith) 2
  linarith

/-- Sine of a number of degrees through the complement. -/
theorem sin_deg_fine {x b : ℝ} (h0 : 0 ≤ x) (h1 : x ≤ 90) (hb : 90 - x ≤ b) (hb1 : b ≤ 90) :
    2 * (2 * (1 - (0.01746 * b) ^ 2 / 32) ^ 2 - 1) ^ 2 - 1 ≤ Real.sin (radians x) := by
  have hpi := Real.pi_pos
  have := cos_deg_fine (x := 90 - x) (b := b) (by rw [abs_of_nonneg (by linarith)]; exact hb) hb1
  rwa [show radians (90 - x) = Real.pi / 2 - radians x by unfold radians; ring, Real.cos_pi_div_two_sub] at this

/-- Light reaching 36500 Pa with the sun at least at `el0`, whose sine is at least `q`. -/
theorem attenuation_deep {el0 el p a q M : ℝ} (h0 : 0 ≤ el0) (h1 : el0 ≤ 90) (hq0 : 0 ≤ q)
    (hq : q ≤ Real.sin (radians el0)) (hM : 0 ≤ M) (hM1 : M ≤ 8) (hMq : 1229 ≤ M ^ 2 + 1228 * q * M) (hel : el0 ≤ el)
    (hp : p ≤ 36500) (h : attenuation el p = .ok a) :
    0.5 * ((1 - 0.0814 * M / 16) ^ 16 + (1 - 0.11897 * M / 16) ^ 16) ≤ a := by
  have at1 : ∃ b, attenuation el0 36500 = .ok b ∧
      0.5 * ((1 - 0.0814 * M / 16) ^ 16 + (1 - 0.11897 * M / 16) ^ 16) ≤ b := by
    unfold attenuation
    rw [if_neg (by push Not; constructor <;> linarith), if_neg (by norm_num), if_neg (by norm_num [minSolarEl]; linarith)]
    refine ⟨_, rfl, ?_⟩
    generalize Real.sin (radians el0) = r at *
    have hqr : q * M ≤ r * M := mul_le_mul_of_nonneg_right hq hM
    have hsq : Real.sqrt (1229 + 614 * r * (614 * r)) ≤ 614 * r + M := by
      rw [Real.sqrt_le_left (by linarith)]
      nlinarith
    have hge : 614 * r ≤ Real.sqrt (1229 + 614 * r * (614 * r)) := by
      refine Real.le_sqrt_of_sq_le ?_
      nlinarith
    have hm : 0.34764 * (36500 / 101325) * (Real.sqrt (1229 + 614 * r * (614 * r)) - 614 * r) ≤ 0.12523 * M := by
      refine mul_le_mul (by norm_num) (by linarith) (by linarith) (by norm_num)
    generalize 0.34764 * (36500 / 101325) * (Real.sqrt (1229 + 614 * r * (614 * r)) - 614 * r) = m at *
    have e1 := Real.one_sub_div_pow_le_exp_neg (n := 16) (t := 0.0814 * M) (by norm_num at *; linarith)
    have e2 := Real.one_sub_div_pow_le_exp_neg (n := 16) (t := 0.11897 * M) (by norm_num at *; linarith)
    have f1 : Real.exp (-(0.0814 * M)) ≤ Real.exp (-0.65 * m) := by
      rw [Real.exp_le_exp]; norm_num at *; linarith
    have f2 : Real.exp (-(0.11897 * M)) ≤ Real.exp (-0.95 * m) := by
      rw [Real.exp_le_exp]; norm_num at *; linarith
    push_cast at e1 e2
    linarith
  obtain ⟨b, hb, hb'⟩ := at1
  exact hb'.trans (C51_attenuation_monotone hb h hel hp)

/-- The panels are not shaded with the sun below 33.5 degrees. -/
theorem shadow_angle_fine {h : ℝ} (h0 : 2.7 ≤ h) (h1 : h ≤ 3.5) :
    33.5 < degrees (atan2 (Real.sqrt (h * (10.41603 + h))) 8.69275) := by
  have hpi := Real.pi_pos
  have hpi4 := Real.pi_lt_d4
  have hpi3 := Real.pi_gt_d4
  have hy : 0 ≤ h * (10.41603 + h) := by norm_num at *; nlinarith
  have y0 : 35.41 ≤ h * (10.41603 + h) := by norm_num at *; nlinarith
  have hsq := Real.sq_sqrt hy
  have hnn := Real.sqrt_nonneg (h * (10.41603 + h))
  generalize Real.sqrt (h * (10.41603 + h)) = y at *
  have hn : ‖(⟨8.69275, y⟩ : ℂ)‖ = Real.sqrt (8.69275 ^ 2 + y ^ 2) := by
    rw [Complex.norm_def, Complex.normSq_mk]; congr 1; ring
  have hr0 : 0 ≤ 8.69275 ^ 2 + y ^ 2 := by positivity
  have hrs := Real.sq_sqrt hr0
  have hrp : 0 < Real.sqrt (8.69275 ^ 2 + y ^ 2) := Real.sqrt_pos.2 (by norm_num; positivity)
  have e : atan2 y 8.69275 = Real.arcsin (y / Real.sqrt (8.69275 ^ 2 + y ^ 2)) := by
    unfold atan2
    rw [Complex.arg_of_re_nonneg (by norm_num), hn]
  rw [e]
  generalize Real.sqrt (8.69275 ^ 2 + y ^ 2) = r at *
  have hsin : Real.sin (33.5 * (Real.pi / 180)) ≤ 0.56 := by
    have x0 : 0.5846 ≤ 33.5 * (Real.pi / 180) := by norm_num at *; linarith
    have x1 : 33.5 * (Real.pi / 180) ≤ 0.5847 := by norm_num at *; linarith
    generalize 33.5 * (Real.pi / 180) = x at *
    have hx : |x| ≤ 1 := abs_le.2 ⟨by norm_num at *; linarith, by norm_num at *; linarith⟩
    have hb := (abs_le.1 (Real.sin_bound hx)).2
    rw [abs_of_nonneg (by norm_num at *; linarith)] at hb
    have c3 : 0.5846 ^ 3 ≤ x ^ 3 := pow_le_pow_left₀ (by norm_num) x0 3
    have c4 : x ^ 5 ≤ 0.5847 ^ 5 := pow_le_pow_left₀ (by norm_num at *; linarith) x1 5
    norm_num at *
    linarith
  have a : 33.5 * (Real.pi / 180) < Real.arcsin (y / r) := by
    rw [Real.lt_arcsin_iff_sin_lt' ⟨by norm_num at *; linarith, by norm_num at *; linarith⟩]
    refine hsin.trans_lt ?_
    rw [lt_div_iff₀ hrp]
    apply lt_of_pow_lt_pow_left₀ 2 (by positivity)
    rw [mul_pow, hrs, hsq]; norm_num at *; linarith
  unfold degrees
  have : 33.5 * (Real.pi / 180) * (180 / Real.pi) < Real.arcsin (y / r) * (180 / Real.pi) := by gcongr
  rw [show 33.5 * (Real.pi / 180) * (180 / Real.pi) = 33.5 by field_simp] at this; exact this

/-- Power in a range of elevations with the panels shaded. -/
theorem panels_slice {el p a w q1 q2 c1 c2 : ℝ} (hw : 92.232 * (a * (4 * c1 + 2 * c2)) ≥ w) (ha : attenuation el p = .ok a)
    (a0 : 0 ≤ a) (b1 : |el - 35| ≤ q1) (b2 : |el - 65| ≤ q2) (hq1 : q1 ≤ 90) (hq2 : q2 ≤ 90)
    (k1 : c1 ≤ 2 * (2 * (1 - (0.01746 * q1) ^ 2 / 32) ^ 2 - 1) ^ 2 - 1)
    (k2 : c2 ≤ 2 * (2 * (1 - (0.01746 * q2) ^ 2 / 32) ^ 2 - 1) ^ 2 - 1) (n1 : 0 ≤ c1) (n2 : 0 ≤ c2) :
    ∃ z, solarPower el p = .ok z ∧ w ≤ z := by
  unfold solarPower
  rw [ha]
  refine ⟨_, rfl, ?_⟩
  have d1 := k1.trans (cos_deg_fine b1 hq1)
  have d2 := k2.trans (cos_deg_fine b2 hq2)
  have hs := balloonShadow_ge el 3.3
  have ht := balloonShadow_ge el 2.7
  generalize Real.cos (radians (el - 35)) = x at *
  generalize Real.cos (radians (el - 65)) = y at *
  generalize balloonShadow el 3.3 = s at *
  generalize balloonShadow el 2.7 = t at *
  have m1 : c1 * 0.4392 ≤ x * s := mul_le_mul d1 hs (by norm_num) (by linarith)
  have m2 : c2 * 0.4392 ≤ y * t := mul_le_mul d2 ht (by norm_num) (by linarith)
  have : a * (0.4392 * (4 * c1 + 2 * c2)) ≤ a * (4 * x * s + 2 * y * t) :=
    mul_le_mul_of_nonneg_left (by linarith) a0
  norm_num at *
  linarith

/-- With the sun between 7.5° and 68° the panels deliver at least 435 W at every pressure up to 365 hPa. -/
theorem panels_shoulder (el p : ℝ) (h0 : 7.5 ≤ el) (h1 : el ≤ 68) (hp0 : 0 ≤ p) (hp : p ≤ 36500) :
    ∃ w, solarPower el p = .ok w ∧ 435 ≤ w := by
  have hpi4 := Real.pi_lt_d4
  have hpi3 := Real.pi_gt_d4
  norm_num at h0
  obtain ⟨a, ha, a0, a1, -, -⟩ := (C51_attenuation el p).2 (by linarith) (by linarith) hp0 (by linarith)
  rcases le_or_gt el 33.5 with g | g
  · have hq : 0.1303 ≤ Real.sin (radians 7.5) := by
      have x0 : 0.13089 ≤ radians 7.5 := by unfold radians; norm_num at *; linarith
      have x1 : radians 7.5 ≤ 0.131 := by unfold radians; norm_num at *; linarith
      have := Real.sin_gt_sub_cube (x := radians 7.5) (by norm_num at *; linarith)
      generalize radians 7.5 = x at *
      have : x ^ 3 ≤ 0.131 ^ 3 := pow_le_pow_left₀ (by norm_num at *; linarith) x1 3
      norm_num at *
      linarith
    have la := attenuation_deep (el0 := 7.5) (by norm_num) (by norm_num) (by norm_num) hq (M := 7.345) (by norm_num)
      (by norm_num) (by norm_num) (by norm_num; linarith) hp ha
    have c1 := cos_deg_fine (x := el - 35) (b := 27.5) (by rw [abs_le]; constructor <;> norm_num at * <;> linarith) (by norm_num)
    have c2 := cos_deg_fine (x := el - 65) (b := 57.5) (by rw [abs_le]; constructor <;> norm_num at * <;> linarith) (by norm_num)
    have q1 := shadow_angle_fine (h := 3.3) (by norm_num) (by norm_num)
    have q2 := shadow_angle_fine (h := 2.7) (by norm_num) (by norm_num)
    unfold solarPower
    rw [ha]
    refine ⟨_, rfl, ?_⟩
    unfold balloonShadow
    simp only
    rw [if_neg (by linarith), if_neg (by linarith)]
    generalize Real.cos (radians (el - 35)) = x at *
    generalize Real.cos (radians (el - 65)) = y at *
    have hx : (0.88 : ℝ) ≤ x := by norm_num at *; linarith
    have hy : (0.52 : ℝ) ≤ y := by norm_num at *; linarith
    have la : (0.47 : ℝ) ≤ a := by norm_num at *; linarith
    have : (0.47 * 4.56 : ℝ) ≤ a * (4 * x * 1 + 2 * y * 1) := mul_le_mul la (by norm_num at *; linarith) (by norm_num) a0
    norm_num at *
    linarith
  rcases le_or_gt el 37 with g1 | g1
  · have la := attenuation_deep (el0 := 33.5) (q := 0.549) (by norm_num) (by norm_num) (by norm_num)
      (le_trans (by norm_num) (sin_deg_fine (b := 56.5) (by norm_num) (by norm_num) (by norm_num) (by norm_num)))
      (M := 1.82) (by norm_num) (by norm_num) (by norm_num) g.le hp ha
    refine panels_slice (q1 := 2) (q2 := 31.5) (c1 := 0.999) (c2 := 0.85) ?_ ha a0
      (by rw [abs_le]; constructor <;> norm_num at * <;> linarith) (by rw [abs_le]; constructor <;> norm_num at * <;> linarith)
      (by norm_num) (by norm_num) (by norm_num) (by norm_num) (by norm_num) (by norm_num)
    norm_num at *; linarith
  rcases le_or_gt el 50 with g2 | g2
  · have la := attenuation_deep (el0 := 37) (q := 0.599) (by norm_num) (by norm_num) (by norm_num)
      (le_trans (by norm_num) (sin_deg_fine (b := 53) (by norm_num) (by norm_num) (by norm_num) (by norm_num)))
      (M := 1.67) (by norm_num) (by norm_num) (by norm_num) g1.le hp ha
    refine panels_slice (q1 := 15) (q2 := 28) (c1 := 0.965) (c2 := 0.88) ?_ ha a0
      (by rw [abs_le]; constructor <;> norm_num at * <;> linarith) (by rw [abs_le]; constructor <;> norm_num at * <;> linarith)
      (by norm_num) (by norm_num) (by norm_num) (by norm_num) (by norm_num) (by norm_num)
    norm_num at *; linarith
  rcases le_or_gt el 60 with g3 | g3
  · have la := attenuation_deep (el0 := 50) (q := 0.764) (by norm_num) (by norm_num) (by norm_num)
      (le_trans (by norm_num) (sin_deg_fine (b := 40) (by norm_num) (by norm_num) (by norm_num) (by norm_num)))
      (M := 1.31) (by norm_num) (by norm_num) (by norm_num) g2.le hp ha
    refine panels_slice (q1 := 25) (q2 := 15) (c1 := 0.905) (c2 := 0.965) ?_ ha a0
      (by rw [abs_le]; constructor <;> norm_num at * <;> linarith) (by rw [abs_le]; constructor <;> norm_num at * <;> linarith)
      (by norm_num) (by norm_num) (by norm_num) (by norm_num) (by norm_num) (by norm_num)
    norm_num at *; linarith
  · have la := attenuation_deep (el0 := 60) (q := 0.865) (by norm_num) (by norm_num) (by norm_num)
      (le_trans (by norm_num) (sin_deg_fine (b := 30) (by norm_num) (by norm_num) (by norm_num) (by norm_num)))
      (M := 1.157) (by norm_num) (by norm_num) (by norm_num) g3.le hp ha
    refine panels_slice (q1 := 33) (q2 := 5) (c1 := 0.838) (c2 := 0.995) ?_ ha a0
      (by rw [abs_le]; constructor <;> norm_num at * <;> linarith) (by rw [abs_le]; constructor <;> norm_num at * <;> linarith)
      (by norm_num) (by norm_num) (by norm_num) (by norm_num) (by norm_num) (by norm_num)
    norm_num at *; linarith

/-- With the sun higher than 7.5° the panels deliver at least 335 W at every pressure up to 365 hPa. -/
theorem panels_noon (el p : ℝ) (h0 : 7.5 ≤ el) (h1 : el ≤ 90) (hp0 : 0 ≤ p) (hp : p ≤ 36500) :
    ∃ w, solarPower el p = .ok w ∧ 335 ≤ w := by
  rcases le_or_gt el 68 with g | g
  · obtain ⟨w, h, h'⟩ := panels_shoulder el p h0 g hp0 hp
    exact ⟨w, h, by linarith⟩
  obtain ⟨a, ha, a0, a1, -, -⟩ := (C51_attenuation el p).2 (by linarith) h1 hp0 (by linarith)
  rcases le_or_gt el 80 with g1 | g1
  · have la := attenuation_deep (el0 := 60) (q := 0.865) (by norm_num) (by norm_num) (by norm_num)
      (le_trans (by norm_num) (sin_deg_fine (b := 30) (by norm_num) (by norm_num) (by norm_num) (by norm_num)))
      (M := 1.157) (by norm_num) (by norm_num) (by norm_num) (by linarith) hp ha
    refine panels_slice (q1 := 45) (q2 := 15) (c1 := 0.7) (c2 := 0.96) ?_ ha a0
      (by rw [abs_le]; constructor <;> norm_num at * <;> linarith) (by rw [abs_le]; constructor <;> norm_num at * <;> linarith)
      (by norm_num) (by norm_num) (by norm_num) (by norm_num) (by norm_num) (by norm_num)
    norm_num at *; linarith
  · have la := attenuation_deep (el0 := 80) (q := 0.984) (by norm_num) (by norm_num) (by norm_num)
      (le_trans (by norm_num) (sin_deg_fine (b := 10) (by norm_num) (by norm_num) (by norm_num) (by norm_num)))
      (M := 1.0165) (by norm_num) (by norm_num) (by norm_num) g1.le hp ha
    refine panels_slice (q1 := 55) (q2 := 25) (c1 := 0.5695) (c2 := 0.9055) ?_ ha a0
      (by rw [abs_le]; constructor <;> norm_num at * <;> linarith) (by rw [abs_le]; constructor <;> norm_num at * <;> linarith)
      (by norm_num) (by norm_num) (by norm_num) (by norm_num) (by norm_num) (by norm_num)
    norm_num at *; linarith

end BLE
