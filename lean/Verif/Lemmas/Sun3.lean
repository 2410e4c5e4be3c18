import Verif.Lemmas.Sun2

/-!
# Refraction nearly preserves the order of elevations
-/

namespace BLE

/-- Refraction below −0.575°. -/
noncomputable def refr1 (e : ℝ) : ℝ := -20.772 / Real.tan (radians e)
/-- Refraction between −0.575° and 5°. -/
noncomputable def refr2 (e : ℝ) : ℝ := 1735 + e * (-518.2 + e * (103.4 + e * (-12.79 + e * 0.711)))
/-- Refraction above 5°. -/
noncomputable def refr3 (e : ℝ) : ℝ :=
  58.1 / Real.tan (radians e) - 0.07 / Real.tan (radians e) ^ 3 + 0.000086 / Real.tan (radians e) ^ 5

theorem radians_mono {a b : ℝ} (h : a ≤ b) : radians a ≤ radians b := by
  have := Real.pi_pos
  unfold radians
  exact mul_le_mul_of_nonneg_right h (by positivity)

theorem radians_bounds {e : ℝ} (h : 0 ≤ e) : 0.017453288 * e ≤ radians e ∧ radians e ≤ 0.0174532945 * e := by
  have h1 := Real.pi_gt_d6
  have h2 := Real.pi_lt_d6
  unfold radians
  constructor <;> norm_num at * <;> nlinarith

theorem refr1_neg (e : ℝ) : refr1 e = 20.772 / Real.tan (radians (-e)) := by
  unfold refr1
  rw [show radians (-e) = -radians e by unfold radians; ring, Real.tan_neg, div_neg, neg_div]

theorem refr1_mono {e e' : ℝ} (h0 : -90 ≤ e) (h : e ≤ e') (h1 : e' ≤ -0.575) : refr1 e ≤ refr1 e' := by
  have hpi := Real.pi_pos
  rw [refr1_neg, refr1_neg]
  have p' : 0 < radians (-e') := by have := (radians_bounds (e := -e') (by norm_num at *; linarith)).1; norm_num at *; linarith
  have hle := radians_mono (neg_le_neg h)
  have hmax : radians (-e) ≤ Real.pi / 2 := by
    have := radians_mono (show -e ≤ 90 by linarith)
    rw [show radians 90 = Real.pi / 2 by unfold radians; ring] at this
    exact this
  rcases eq_or_lt_of_le hmax with hm | hm
  · rw [hm, Real.tan_pi_div_two, div_zero]
    rcases eq_or_lt_of_le (hle.trans hmax) with hm' | hm'
    · rw [hm', Real.tan_pi_div_two, div_zero]
    · have := Real.tan_pos_of_pos_of_lt_pi_div_two p' hm'
      positivity
  · have t' := Real.tan_pos_of_pos_of_lt_pi_div_two p' (hle.trans_lt hm)
    refine div_le_div_of_nonneg_left (by norm_num) t' ?_
    rcases eq_or_lt_of_le hle with hh | hh
    · rw [hh]
    · exact (Real.tan_lt_tan_of_nonneg_of_lt_pi_div_two p'.le hm hh).le

theorem refr2_slope {e e' : ℝ} (h0 : -0.575 ≤ e) (h : e ≤ e') (h1 : e' ≤ 5) : refr2 e - refr2 e' ≤ 1000 * (e' - e) := by
  have hd : refr2 e - refr2 e' = (e' - e) * (518.2 - 103.4 * (e + e') + 12.79 * (e ^ 2 + e * e' + e' ^ 2) -
      0.711 * ((e ^ 2 + e' ^ 2) * (e + e'))) := by unfold refr2; ring
  have a1 : e ≤ 5 := h.trans h1
  have a2 : -0.575 ≤ e' := h0.trans h
  have q4 : -57.5 ≤ (e ^ 2 + e' ^ 2) * (e + e') := by
    have q1 : e ^ 2 ≤ 25 := by norm_num at *; nlinarith
    have q2 : e' ^ 2 ≤ 25 := by norm_num at *; nlinarith
    have : 0 ≤ (e ^ 2 + e' ^ 2) * (e + e' + 1.15) := mul_nonneg (by positivity) (by norm_num at *; linarith)
    norm_num at *; nlinarith
  have q5 : e ^ 2 + e * e' + e' ^ 2 ≤ (e + e') ^ 2 + 3.3 := by
    have : 0 ≤ (e + 0.575) * (e' + 0.575) := mul_nonneg (by norm_num at *; linarith) (by norm_num at *; linarith)
    norm_num at *; nlinarith
  have q6 : 12.79 * (e + e') ^ 2 - 103.4 * (e + e') ≤ 250 := by
    have : 0 ≤ (e + e' + 1.15) * (10 - (e + e')) := mul_nonneg (by norm_num at *; linarith) (by norm_num at *; linarith)
    norm_num at *; nlinarith
  rw [hd, mul_comm (1000 : ℝ)]
  refine mul_le_mul_of_nonneg_left ?_ (by linarith)
  norm_num at *; linarith

theorem refr3_slope {e e' : ℝ} (h0 : 5 ≤ e) (h : e ≤ e') (h1 : e' ≤ 84) : refr3 e - refr3 e' ≤ 200 * (e' - e) := by
  have hpi := Real.pi_pos
  have b := radians_bounds (e := e) (by linarith)
  have b' := radians_bounds (e := e') (by linarith)
  have hlt : ∀ x : ℝ, x ≤ 84 → radians x < Real.pi / 2 := by
    intro x hx
    have := radians_mono hx
    have e90 : radians 84 = Real.pi * (84 / 180) := by unfold radians; ring
    rw [e90] at this; nlinarith
  have hs : ∀ x : ℝ, 5 ≤ x → x ≤ 84 → 0.087 ≤ Real.sin (radians x) := by
    intro x h5 h84
    have r5 := radians_bounds (e := 5) (by norm_num)
    have m := Real.sin_le_sin_of_le_of_le_pi_div_two (x := radians 5) (y := radians x) (by norm_num at *; linarith [r5.1])
      (hlt x h84).le (radians_mono h5)
    have g := Real.sin_gt_sub_cube (x := radians 5) (by norm_num at *; linarith [r5.1])
    have c : (radians 5) ^ 3 ≤ 0.0873 ^ 3 := by
      apply pow_le_pow_left₀ (by norm_num at *; linarith [r5.1])
      norm_num at *; linarith [r5.2]
    obtain ⟨r51, r52⟩ := r5
    norm_num at *; linarith
  have s := hs e h0 (h.trans h1)
  have s' := hs e' (h0.trans h) h1
  have hc : ∀ x : ℝ, 5 ≤ x → x ≤ 84 → 0 < Real.cos (radians x) := by
    intro x h5 h84
    have r := radians_bounds (e := x) (by linarith)
    exact Real.cos_pos_of_mem_Ioo ⟨by norm_num at *; nlinarith [r.1], hlt x h84⟩
  have c := hc e h0 (h.trans h1)
  have c' := hc e' (h0.trans h) h1
  have sp : 0 < Real.sin (radians e) := by norm_num at *; linarith
  have sp' : 0 < Real.sin (radians e') := by norm_num at *; linarith
  set u := Real.cos (radians e) / Real.sin (radians e) with hu
  set u' := Real.cos (radians e') / Real.sin (radians e') with hu'
  have hr : refr3 e = 58.1 * u - 0.07 * u ^ 3 + 0.000086 * u ^ 5 := by
    unfold refr3; rw [hu, Real.tan_eq_sin_div_cos]; field_simp
  have hr' : refr3 e' = 58.1 * u' - 0.07 * u' ^ 3 + 0.000086 * u' ^ 5 := by
    unfold refr3; rw [hu', Real.tan_eq_sin_div_cos]; field_simp
  have hdiff : u - u' = Real.sin (radians e' - radians e) / (Real.sin (radians e) * Real.sin (radians e')) := by
    rw [hu, hu', Real.sin_sub]; field_simp
  have hrd : radians e' - radians e = radians (e' - e) := by unfold radians; ring
  have bd := radians_bounds (e := e' - e) (by linarith)
  have hnn : 0 ≤ radians (e' - e) := by norm_num at *; linarith [bd.1]
  have hpiu : radians (e' - e) ≤ Real.pi := by
    have := hlt (e' - e) (by linarith); linarith
  have d0 : 0 ≤ u - u' := by
    rw [hdiff, hrd]
    exact div_nonneg (Real.sin_nonneg_of_nonneg_of_le_pi hnn hpiu) (mul_pos sp sp').le
  have d1 : u - u' ≤ 2.4 * (e' - e) := by
    rw [hdiff, hrd, div_le_iff₀ (mul_pos sp sp')]
    have a := Real.sin_le hnn
    have p : 0.0075 ≤ Real.sin (radians e) * Real.sin (radians e') := by
      have := mul_le_mul s s' (by norm_num) sp.le
      norm_num at *; linarith
    have q : 0 ≤ e' - e := by linarith
    have := mul_le_mul_of_nonneg_left p (by linarith : 0 ≤ 2.4 * (e' - e))
    obtain ⟨_, bd2⟩ := bd
    norm_num at *; linarith
  have u'0 : 0 ≤ u' := (div_pos c' sp').le
  have u1 : u ≤ 11.5 := by
    rw [hu, div_le_iff₀ sp]
    have := Real.cos_le_one (radians e)
    norm_num at *; linarith
  clear_value u u'
  rw [hr, hr']
  have hle : u' ≤ u := by linarith
  have hf : 58.1 * u - 0.07 * u ^ 3 + 0.000086 * u ^ 5 - (58.1 * u' - 0.07 * u' ^ 3 + 0.000086 * u' ^ 5) =
      (u - u') * (58.1 - 0.07 * (u ^ 2 + u * u' + u' ^ 2) +
        0.000086 * (u ^ 4 + u ^ 3 * u' + u ^ 2 * u' ^ 2 + u * u' ^ 3 + u' ^ 4)) := by ring
  rw [hf]
  have u0 : 0 ≤ u := u'0.trans hle
  have k : 58.1 - 0.07 * (u ^ 2 + u * u' + u' ^ 2) +
      0.000086 * (u ^ 4 + u ^ 3 * u' + u ^ 2 * u' ^ 2 + u * u' ^ 3 + u' ^ 4) ≤ 70 := by
    have k1 : 0 ≤ u ^ 2 + u * u' + u' ^ 2 := by positivity
    have k2 : u ^ 3 * u' ≤ u ^ 4 := by
      rw [show u ^ 4 = u ^ 3 * u by ring]; exact mul_le_mul_of_nonneg_left hle (by positivity)
    have k3 : u ^ 2 * u' ^ 2 ≤ u ^ 4 := by
      rw [show u ^ 4 = u ^ 2 * u ^ 2 by ring]
      exact mul_le_mul_of_nonneg_left (pow_le_pow_left₀ u'0 hle 2) (by positivity)
    have k4 : u * u' ^ 3 ≤ u ^ 4 := by
      rw [show u ^ 4 = u * u ^ 3 by ring]
      exact mul_le_mul_of_nonneg_left (pow_le_pow_left₀ u'0 hle 3) (by positivity)
    have k5 : u' ^ 4 ≤ u ^ 4 := pow_le_pow_left₀ u'0 hle 4
    have k6 : u ^ 4 ≤ 11.5 ^ 4 := pow_le_pow_left₀ u0 u1 4
    norm_num at k6 ⊢
    linarith
  have := mul_le_mul_of_nonneg_left k d0
  norm_num at d1 this ⊢
  linarith

theorem refr3_five : refr2 5 ≤ refr3 5 + 0.25 := by
  have r := radians_bounds (e := 5) (by norm_num)
  obtain ⟨r1, r2⟩ := r
  have hp : 0 < radians 5 := by norm_num at *; linarith
  have hlt : radians 5 < Real.pi / 2 := by have := Real.pi_gt_three; norm_num at *; linarith
  have ht := Real.tan_pos_of_pos_of_lt_pi_div_two hp hlt
  have htu : Real.tan (radians 5) ≤ 0.08761 := by
    have c := Real.one_sub_sq_div_two_le_cos (x := radians 5)
    have s := Real.sin_le hp.le
    have cp : 0.99619 ≤ Real.cos (radians 5) := by
      have : radians 5 ^ 2 ≤ 0.0872665 ^ 2 := pow_le_pow_left₀ hp.le (by norm_num at *; linarith) 2
      norm_num at *; linarith
    rw [Real.tan_eq_sin_div_cos, div_le_iff₀ (by norm_num at *; linarith)]
    norm_num at *; linarith
  have htl := Real.le_tan hp.le hlt
  have htl' : 0.08726 ≤ Real.tan (radians 5) := by norm_num at *; linarith
  have e2 : refr2 5 = 574.625 := by unfold refr2; norm_num
  rw [e2]
  unfold refr3
  generalize Real.tan (radians 5) = t at *
  have a1 : 663.16 ≤ 58.1 / t := by rw [le_div_iff₀ ht]; norm_num at *; linarith
  have a2 : 0.07 / t ^ 3 ≤ 105.36 := by
    rw [div_le_iff₀ (by positivity)]
    have : 0.08726 ^ 3 ≤ t ^ 3 := pow_le_pow_left₀ (by norm_num) htl' 3
    norm_num at *; linarith
  have a3 : 16.6 ≤ 0.000086 / t ^ 5 := by
    rw [le_div_iff₀ (by positivity)]
    have : t ^ 5 ≤ 0.08761 ^ 5 := pow_le_pow_left₀ ht.le htu 5
    norm_num at *; linarith
  norm_num at *; linarith

theorem refr1_low : refr1 (-0.575) ≤ refr2 (-0.575) + 0.25 := by
  rw [refr1_neg]
  have r := radians_bounds (e := 0.575) (by norm_num)
  obtain ⟨r1, r2⟩ := r
  have hp : 0 < radians 0.575 := by norm_num at *; linarith
  have hlt : radians 0.575 < Real.pi / 2 := by have := Real.pi_gt_three; norm_num at *; linarith
  have ht := Real.tan_pos_of_pos_of_lt_pi_div_two hp hlt
  have htl := Real.le_tan hp.le hlt
  rw [neg_neg]
  have a : 20.772 / Real.tan (radians 0.575) ≤ 2069.83 := by
    rw [div_le_iff₀ ht]; norm_num at *; linarith
  have e2 : 2069.6 ≤ refr2 (-0.575) := by unfold refr2; norm_num
  norm_num at *; linarith

theorem refraction_one {e : ℝ} (h : e ≤ -0.575) : refraction e = refr1 e := by
  unfold refraction refr1
  rw [if_neg (by norm_num at *; linarith), if_neg (by norm_num at *; linarith), if_neg (by linarith)]

theorem refraction_two {e : ℝ} (h0 : -0.575 < e) (h : e ≤ 5) : refraction e = refr2 e := by
  unfold refraction refr2
  rw [if_neg (by linarith), if_neg (by linarith), if_pos h0]

theorem refraction_three {e : ℝ} (h0 : 5 < e) (h : e ≤ 85) : refraction e = refr3 e := by
  unfold refraction refr3
  rw [if_neg (by linarith), if_pos h0]

/-- Below 84° a higher geometric elevation is a higher apparent elevation, up to the jumps of the refraction formula. -/
theorem apparent_mono {e e' : ℝ} (h0 : -90 ≤ e) (h : e ≤ e') (h1 : e' ≤ 84) :
    0.4 * (e' - e) - 0.00015 ≤ apparent e' - apparent e := by
  have j1 := refr1_low
  have j2 := refr3_five
  unfold apparent
  rcases le_or_gt e (-0.575) with a | a
  · rw [refraction_one a]
    rcases le_or_gt e' (-0.575) with b | b
    · rw [refraction_one b]
      have := refr1_mono h0 h b
      norm_num at *; linarith
    · have g1 := refr1_mono h0 a le_rfl
      rcases le_or_gt e' 5 with c | c
      · rw [refraction_two b c]
        have g2 := refr2_slope le_rfl b.le c
        norm_num at *; linarith
      · rw [refraction_three c (by linarith)]
        have g2 := refr2_slope (e := -0.575) (e' := 5) le_rfl (by norm_num) le_rfl
        have g3 := refr3_slope le_rfl c.le h1
        norm_num at *; linarith
  · rcases le_or_gt e 5 with a' | a'
    · rw [refraction_two a a']
      rcases le_or_gt e' 5 with c | c
      · rw [refraction_two (a.trans_le h) c]
        have g2 := refr2_slope a.le h c
        norm_num at *; linarith
      · rw [refraction_three c (by linarith)]
        have g2 := refr2_slope a.le a' le_rfl
        have g3 := refr3_slope le_rfl c.le h1
        norm_num at *; linarith
    · rw [refraction_three a' (by linarith), refraction_three (a'.trans_le h) (by linarith)]
      have g3 := refr3_slope a'.le h h1
      norm_num at *; linarith

/-- Refraction lifts by less than two degrees. -/
theorem apparent_near {e : ℝ} (h0 : -90 ≤ e) (h1 : e ≤ 90) : e ≤ apparent e + 0.1 ∧ apparent e ≤ e + 2 := by
  have hpi3 := Real.pi_gt_three
  have hpi := Real.pi_pos
  unfold apparent
  rcases le_or_gt e (-0.575) with a | a
  · rw [refraction_one a]
    have g := refr1_mono h0 a le_rfl
    have g0 : 0 ≤ refr1 e := by
      have := refr1_mono le_rfl h0 a
      have e90 : refr1 (-90) = 0 := by
        rw [refr1_neg, show radians (- -90) = Real.pi / 2 by unfold radians; ring, Real.tan_pi_div_two, div_zero]
      linarith
    have j := refr1_low
    have e2 : refr2 (-0.575) ≤ 2070 := by unfold refr2; norm_num
    constructor <;> norm_num at * <;> linarith
  rcases le_or_gt e 5 with a' | a'
  · rw [refraction_two a a']
    have g := refr2_slope a.le a' le_rfl
    have e5 : refr2 5 = 574.625 := by unfold refr2; norm_num
    have g0 : 0 ≤ refr2 e := by
      have q : 57 ≤ 0.711 * e ^ 2 - 12.79 * e + 103.4 := by norm_num at *; nlinarith
      have q2 := mul_le_mul_of_nonneg_left q (sq_nonneg e)
      have e2 : refr2 e = 1735 - 518.2 * e + e ^ 2 * (0.711 * e ^ 2 - 12.79 * e + 103.4) := by unfold refr2; ring
      rw [e2]
      norm_num at q2 ⊢
      nlinarith [sq_nonneg (e - 4.5)]
    constructor <;> norm_num at * <;> linarith
  rcases le_or_gt e 85 with a'' | a''
  · rw [refraction_three a' a'']
    have hr0 : 0.08 ≤ radians e := by unfold radians; nlinarith
    have hr1 : radians e < Real.pi / 2 := by unfold radians; nlinarith
    have ht := Real.le_tan (by linarith) hr1
    have ht' : 0.08 ≤ Real.tan (radians e) := le_trans hr0 ht
    unfold refr3
    generalize Real.tan (radians e) = t at *
    have htp : 0 < t := by linarith
    have a1 : 58.1 / t ≤ 800 := by rw [div_le_iff₀ htp]; linarith
    have a2 : 0 ≤ 58.1 / t := by positivity
    have t3 : 0.000512 ≤ t ^ 3 := by
      have := pow_le_pow_left₀ (by norm_num) ht' 3; norm_num at this ⊢; linarith
    have t5 : 0.000003 ≤ t ^ 5 := by
      have := pow_le_pow_left₀ (by norm_num) ht' 5; norm_num at this ⊢; linarith
    have b1 : 0.07 / t ^ 3 ≤ 200 := by rw [div_le_iff₀ (by positivity)]; linarith
    have b2 : 0 ≤ 0.07 / t ^ 3 := by positivity
    have d1 : 0.000086 / t ^ 5 ≤ 100 := by rw [div_le_iff₀ (by positivity)]; linarith
    have d2 : 0 ≤ 0.000086 / t ^ 5 := by positivity
    constructor <;> norm_num at * <;> linarith
  · have : refraction e = 0 := by unfold refraction; rw [if_pos a'']
    rw [this]
    constructor <;> norm_num

end BLE
