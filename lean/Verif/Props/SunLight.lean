import Verif.Lemmas.Sun7
import Verif.Props.Thermal

/-!
# C85, C51: direction of the sun, refraction, shadow of the balloon
-/

namespace BLE

/-- C85. The azimuth points to the sun: away from the poles and with the sun not exactly at the zenith or nadir, the
horizontal unit vector of the azimuth (north, east), times the sine of the zenith angle, is the horizontal direction of
the sun as spherical trigonometry gives it from latitude, declination and hour angle. In particular the sun stands in
the east before and in the west after its culmination. -/
theorem C85_direction (jc frac lat lng : ℝ) (hlat : 0 < Real.cos lat)
    (hz : |cosZenith jc frac lat lng| < 1) :
    let δ := Real.arcsin (sinDeclination jc)
    let H := hourAngle jc frac lng
    let az := radians (solarCalculatorAt jc frac lat lng).az
    let sinZ := Real.sqrt (1 - cosZenith jc frac lat lng ^ 2)
    sinZ * Real.cos az = Real.cos lat * Real.sin δ - Real.sin lat * Real.cos δ * Real.cos H ∧
    sinZ * Real.sin az = -(Real.cos δ * Real.sin H) := by
  intro δ H az sinZ
  have hpi := Real.pi_pos
  obtain ⟨H0, H1⟩ := hourAngle_range jc frac lng
  have H0' : -Real.pi ≤ H := H0
  have H1' : H ≤ Real.pi := H1
  clear H0 H1
  have hcz : cosZenith jc frac lat lng = Real.sin lat * Real.sin δ + Real.cos lat * Real.cos δ * Real.cos H := rfl
  obtain ⟨z0, z1⟩ := abs_lt.1 hz
  have hsz : 0 < 1 - cosZenith jc frac lat lng ^ 2 := by nlinarith
  have hsp : 0 < sinZ := Real.sqrt_pos.2 hsz
  have hsq : sinZ ^ 2 = 1 - cosZenith jc frac lat lng ^ 2 := Real.sq_sqrt hsz.le
  have hcd : 0 ≤ Real.cos δ := Real.cos_arcsin_nonneg _
  have e1 := Real.sin_sq_add_cos_sq lat
  have e2 := Real.sin_sq_add_cos_sq δ
  have e3 := Real.sin_sq_add_cos_sq H
  have hazdef : (solarCalculatorAt jc frac lat lng).az =
      if H > 0 then degrees (Real.arccos (clip ((Real.sin lat * cosZenith jc frac lat lng - Real.sin δ) /
        (Real.cos lat * sinZ)) (-1) 1)) + 180
      else 180 - degrees (Real.arccos (clip ((Real.sin lat * cosZenith jc frac lat lng - Real.sin δ) /
        (Real.cos lat * sinZ)) (-1) 1)) := by
    unfold solarCalculatorAt
    simp only [Real.cos_arccos z0.le z1.le, Real.sin_arccos]
    rfl
  clear_value δ H sinZ
  set N := Real.cos lat * Real.sin δ - Real.sin lat * Real.cos δ * Real.cos H with hN
  have hnum : Real.sin lat * cosZenith jc frac lat lng - Real.sin δ = -(Real.cos lat * N) := by
    rw [hcz, hN]; linear_combination Real.sin δ * e1
  have hpyth : sinZ ^ 2 = N ^ 2 + (Real.cos δ * Real.sin H) ^ 2 := by
    rw [hsq, hcz, hN]
    have e1' : Real.sin lat ^ 2 = 1 - Real.cos lat ^ 2 := by linarith
    have e2' : Real.sin δ ^ 2 = 1 - Real.cos δ ^ 2 := by linarith
    have e3' : Real.sin H ^ 2 = 1 - Real.cos H ^ 2 := by linarith
    simp only [mul_pow, sub_sq, add_sq, e1', e2', e3']
    ring
  clear_value N
  have hq : (Real.sin lat * cosZenith jc frac lat lng - Real.sin δ) / (Real.cos lat * sinZ) = -(N / sinZ) := by
    rw [hnum]; field_simp
  have hsq1 : (N / sinZ) ^ 2 ≤ 1 := by
    rw [div_pow, div_le_one (by positivity), hpyth]; nlinarith [sq_nonneg (Real.cos δ * Real.sin H)]
  obtain ⟨q0, q1⟩ := abs_le.1 (abs_le_one_iff_mul_self_le_one.2 (by nlinarith : N / sinZ * (N / sinZ) ≤ 1))
  have hclip : clip (-(N / sinZ)) (-1) 1 = -(N / sinZ) := by
    unfold clip; rw [max_eq_left (by linarith), min_eq_left (by linarith)]
  rw [hq, hclip] at hazdef
  set a := Real.arccos (-(N / sinZ)) with ha
  have hca : Real.cos a = -(N / sinZ) := Real.cos_arccos (by linarith) (by linarith)
  have hsa : Real.sin a = |Real.cos δ * Real.sin H| / sinZ := by
    rw [ha, Real.sin_arccos, show 1 - (-(N / sinZ)) ^ 2 = (Real.cos δ * Real.sin H / sinZ) ^ 2 by
      field_simp; linarith, Real.sqrt_sq_eq_abs, abs_div, abs_of_pos hsp]
  by_cases hH : H > 0
  · rw [if_pos hH] at hazdef
    have haz : az = a + Real.pi := by
      show radians (solarCalculatorAt jc frac lat lng).az = _
      rw [hazdef]; unfold radians degrees; field_simp
    have : 0 ≤ Real.sin H := Real.sin_nonneg_of_nonneg_of_le_pi hH.le H1'
    rw [haz, Real.cos_add_pi, Real.sin_add_pi, hca, hsa, abs_of_nonneg (mul_nonneg hcd this)]
    constructor <;> field_simp
  · rw [if_neg hH] at hazdef
    have haz : az = Real.pi - a := by
      show radians (solarCalculatorAt jc frac lat lng).az = _
      rw [hazdef]; unfold radians degrees; field_simp
    have : Real.sin H ≤ 0 := Real.sin_nonpos_of_nonpos_of_neg_pi_le (not_lt.1 hH) H0'
    rw [haz, Real.cos_pi_sub, Real.sin_pi_sub, hca, hsa, abs_of_nonpos (mul_nonpos_of_nonneg_of_nonpos hcd this)]
    constructor <;> field_simp

/-- The sun at latitude 60° is never at the zenith or nadir. -/
example (frac lng : ℝ) : |cosZenith 0 frac (Real.pi / 3) lng| < 1 := by
  have hd := (lip_sinDeclination 0 0 (by norm_num) (by norm_num)).1
  obtain ⟨s1, s2⟩ := (C85_position 0 0 0 0).1
  unfold cosZenith
  simp only
  rw [Real.sin_arcsin s1 s2, Real.cos_pi_div_three, Real.sin_pi_div_three]
  have c := Real.abs_cos_le_one (Real.arcsin (sinDeclination 0))
  have h := Real.abs_cos_le_one (hourAngle 0 frac lng)
  have h3 : Real.sqrt 3 ≤ 1.8 := by rw [Real.sqrt_le_left (by norm_num)]; norm_num
  have h30 := Real.sqrt_nonneg 3
  refine lt_of_le_of_lt (abs_add_le _ _) ?_
  rw [abs_mul, abs_mul, abs_mul, abs_of_nonneg (by positivity : 0 ≤ Real.sqrt 3 / 2), abs_of_pos (by norm_num : (0:ℝ) < 1 / 2)]
  have m1 : Real.sqrt 3 / 2 * |sinDeclination 0| ≤ 0.9 * 0.41 :=
    mul_le_mul (by linarith) hd (abs_nonneg _) (by norm_num)
  have m2 : 1 / 2 * |Real.cos (Real.arcsin (sinDeclination 0))| * |Real.cos (hourAngle 0 frac lng)| ≤ 1 / 2 * 1 * 1 :=
    mul_le_mul (mul_le_mul_of_nonneg_left c (by norm_num)) h (abs_nonneg _) (by norm_num)
  norm_num at m1 m2 ⊢
  linarith

/-! ## Refraction -/

/-- C85. Refraction lifts the sun at every geometric elevation from the nadir (excluded) to 85° (by less than two
degrees), leaves it alone above, and never swaps the order of two elevations more than 0.006° apart. -/
theorem C85_refraction (e : ℝ) (h0 : -90 < e) (h1 : e ≤ 90) :
    (e ≤ 85 → 0 < refraction e) ∧ (85 < e → refraction e = 0) ∧ refraction e ≤ 7200 ∧
    ∀ e', e + 0.006 ≤ e' → e' ≤ 90 → e + refraction e / 3600 < e' + refraction e' / 3600 := by
  have hpi := Real.pi_pos
  refine ⟨fun h => ?_, fun h => ?_, ?_, fun e' h2 h3 => ?_⟩
  · by_cases a : 5 < e
    · rw [refraction_three a h]
      unfold refr3
      have ht : 0.08 ≤ Real.tan (radians e) := by
        have r := (radians_bounds (e := e) (by linarith)).1
        have hlt : radians e < Real.pi / 2 := by unfold radians; nlinarith
        have := Real.le_tan (x := radians e) (by norm_num at *; linarith) hlt
        norm_num at *; linarith
      generalize Real.tan (radians e) = t at *
      have tp : 0 < t := by norm_num at *; linarith
      have t2 : 0.0064 ≤ t ^ 2 := by have := pow_le_pow_left₀ (by norm_num) ht 2; norm_num at *; linarith
      have k : 58.1 / t - 0.07 / t ^ 3 = (58.1 * t ^ 2 - 0.07) / t ^ 3 := by field_simp
      rw [k]
      have : 0 < 58.1 * t ^ 2 - 0.07 := by norm_num at *; linarith
      positivity
    · by_cases b : -0.575 < e
      · rw [refraction_two b (not_lt.1 a)]
        unfold refr2
        rw [not_lt] at a
        norm_num at *
        nlinarith [sq_nonneg e, sq_nonneg (e ^ 2 - 5 * e), mul_nonneg (sub_nonneg.2 a) (sub_nonneg.2 b.le),
          sq_nonneg (e - 3), sq_nonneg (e ^ 2 - 9 * e + 10)]
      · rw [refraction_one (not_lt.1 b), refr1_neg]
        rw [not_lt] at b
        have hb : 0 < -e := by norm_num at *; linarith
        have : 0 < Real.tan (radians (-e)) := by
          apply Real.tan_pos_of_pos_of_lt_pi_div_two
          · unfold radians; positivity
          · unfold radians; nlinarith
        positivity
  · unfold refraction; rw [if_pos h]
  · have := (apparent_near h0.le h1).2
    unfold apparent at this
    linarith
  · have := apparent_mono_all h0.le (by norm_num at h2; linarith : e ≤ e')
    unfold apparent at this
    norm_num at *; linarith

example : 0 < refraction 0 ∧ refraction 89 = 0 :=
  ⟨(C85_refraction 0 (by norm_num) (by norm_num)).1 (by norm_num), (C85_refraction 89 (by norm_num) (by norm_num)).2.1 (by norm_num)⟩

/-! ## Shadow of the balloon on the panels -/

theorem shadow_angle {h : ℝ} (h0 : 2.5 ≤ h) (h1 : h ≤ 3.5) :
    30 < degrees (atan2 (Real.sqrt (h * (10.41603 + h))) 8.69275) ∧
    degrees (atan2 (Real.sqrt (h * (10.41603 + h))) 8.69275) < 45 := by
  have hpi := Real.pi_pos
  have hy : 0 ≤ h * (10.41603 + h) := by norm_num at *; nlinarith
  have y0 : 30 ≤ h * (10.41603 + h) := by norm_num at *; nlinarith
  have y1 : h * (10.41603 + h) ≤ 50 := by norm_num at *; nlinarith
  have hsq := Real.sq_sqrt hy
  have hnn := Real.sqrt_nonneg (h * (10.41603 + h))
  generalize Real.sqrt (h * (10.41603 + h)) = y at *
  have hn : ‖(⟨8.69275, y⟩ : ℂ)‖ = Real.sqrt (8.69275 ^ 2 + y ^ 2) := by
    rw [Complex.norm_def, Complex.normSq_mk]; congr 1; ring
  have hr0 : 0 ≤ 8.69275 ^ 2 + y ^ 2 := by positivity
  have hrs := Real.sq_sqrt hr0
  have hrp : 0 < Real.sqrt (8.69275 ^ 2 + y ^ 2) := Real.sqrt_pos.2 (by norm_num; positivity)
  have e : atan2 y 8.69275 = Real.arcsin (y / Real.sqrt (8.69275 ^ 2 + y ^ 2)) := by
    unfold atan2
    rw [Complex.arg_of_re_nonneg (by norm_num), hn]
  rw [e]
  generalize Real.sqrt (8.69275 ^ 2 + y ^ 2) = r at *
  have a : Real.pi / 6 < Real.arcsin (y / r) := by
    rw [Real.lt_arcsin_iff_sin_lt' ⟨by linarith, by linarith⟩, Real.sin_pi_div_six, div_lt_div_iff₀ (by norm_num) hrp]
    apply lt_of_pow_lt_pow_left₀ 2 (by positivity)
    rw [mul_pow, mul_pow, hsq, hrs, hsq]; norm_num at *; linarith
  have b : Real.arcsin (y / r) < Real.pi / 4 := by
    rw [Real.arcsin_lt_iff_lt_sin' ⟨by linarith, by linarith⟩, Real.sin_pi_div_four, div_lt_iff₀ hrp]
    apply lt_of_pow_lt_pow_left₀ 2 (by positivity)
    rw [mul_pow, div_pow, Real.sq_sqrt (by norm_num), hsq, hrs, hsq]; norm_num at *; linarith
  unfold degrees
  constructor
  · have : Real.pi / 6 * (180 / Real.pi) < Real.arcsin (y / r) * (180 / Real.pi) := by gcongr
    rw [show Real.pi / 6 * (180 / Real.pi) = 30 by field_simp; norm_num] at this; exact this
  · have : Real.arcsin (y / r) * (180 / Real.pi) < Real.pi / 4 * (180 / Real.pi) := by gcongr
    rw [show Real.pi / 4 * (180 / Real.pi) = 45 by field_simp; norm_num] at this; exact this

/-- C51. The balloon shades the panels below it when the sun is high, and only then: up to 30° of elevation the panels
give their unshaded power, from 45° on 43.92% of it, so never more than 554 W. -/
theorem C51_shadow (el p w a : ℝ) (ha : attenuation el p = .ok a) (hw : solarPower el p = .ok w) :
    (el ≤ 30 → w = a * (840 * Real.cos (radians (el - 35)) + 420 * Real.cos (radians (el - 65)))) ∧
    (45 ≤ el → w = 0.4392 * (a * (840 * Real.cos (radians (el - 35)) + 420 * Real.cos (radians (el - 65)))) ∧ w < 554) := by
  obtain ⟨a1, a2⟩ := shadow_angle (h := 3.3) (by norm_num) (by norm_num)
  obtain ⟨b1, b2⟩ := shadow_angle (h := 2.7) (by norm_num) (by norm_num)
  unfold solarPower at hw
  rw [ha] at hw
  simp only [Except.ok.injEq] at hw
  constructor
  · intro h
    rw [← hw]; unfold balloonShadow
    simp only
    rw [if_neg (by linarith), if_neg (by linarith)]; ring
  · intro h
    have e : w = 0.4392 * (a * (840 * Real.cos (radians (el - 35)) + 420 * Real.cos (radians (el - 65)))) := by
      rw [← hw]; unfold balloonShadow
      simp only
      rw [if_pos (by linarith), if_pos (by linarith)]; ring
    refine ⟨e, ?_⟩
    have hin : -90 ≤ el ∧ el ≤ 90 ∧ 0 ≤ p ∧ p ≤ 101325 := by
      by_contra hc
      rw [((C51_attenuation el p).1 (by
        by_contra h2; push Not at h2; exact hc ⟨h2.1, h2.2.1, h2.2.2.1, h2.2.2.2⟩)).1] at ha
      cases ha
    obtain ⟨a', ha', a0, a1', -⟩ := (C51_attenuation el p).2 hin.1 hin.2.1 hin.2.2.1 hin.2.2.2
    rw [ha] at ha'
    injection ha' with ha'
    subst ha'
    have c1 := Real.cos_le_one (radians (el - 35))
    have c2 := Real.cos_le_one (radians (el - 65))
    rw [e]
    nlinarith

example : ∃ w, solarPower 60 8000 = .ok w ∧ 0 < w ∧ w < 554 := by
  obtain ⟨w, hw⟩ := solarPower_ok (el := 60) (p := 8000) (by norm_num) (by norm_num) (by norm_num) (by norm_num)
  obtain ⟨a, ha, -⟩ := (C51_attenuation 60 8000).2 (by norm_num) (by norm_num) (by norm_num) (by norm_num)
  exact ⟨w, hw, (C51_solar_power 60 8000 w hw).2.2.2 (by norm_num), ((C51_shadow 60 8000 w a ha hw).2 (by norm_num)).2⟩

end BLE
