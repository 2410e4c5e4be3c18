import Verif.Lemmas.Dawn
import Verif.Props.Geometry
import Verif.Props.DayPower

/-!
# The day of a balloon near its station
-/

namespace BLE

/-- Cauchy–Schwarz in space. -/
theorem dot_le (a b : ℝ × ℝ × ℝ) : Spec.dot a b ^ 2 ≤ Spec.dot a a * Spec.dot b b := by
  obtain ⟨a1, a2, a3⟩ := a
  obtain ⟨b1, b2, b3⟩ := b
  simp only [Spec.dot]
  nlinarith [sq_nonneg (a1 * b2 - a2 * b1), sq_nonneg (a1 * b3 - a3 * b1), sq_nonneg (a2 * b3 - a3 * b2)]

/-- The direction of the sun in the frame that turns with the Earth. -/
noncomputable def sunVec (σ : ℝ) : ℝ × ℝ × ℝ :=
  (-(Real.sqrt (1 - sunS σ ^ 2) * Real.cos (sunPhi 0 σ)), Real.sqrt (1 - sunS σ ^ 2) * Real.sin (sunPhi 0 σ), sunS σ)

theorem sunX_dot (l : LatLng) (σ : ℝ) : sunX l σ = Spec.dot (Spec.position l) (sunVec σ) := by
  have e : sunPhi l.lng σ = sunPhi 0 σ + l.lng := by unfold sunPhi; ring
  simp only [sunX_eq, sunP, Spec.dot, Spec.position, sunVec]
  rw [e, Real.cos_add]
  ring

/-- Moving by `d` changes the sine of the sun's elevation by at most `d` in Earth radii. -/
theorem sunX_near (c : LatLng) (x y : ℝ) {σ : ℝ} (hσ : InEra σ) (h0 : -(Real.pi / 2) < c.lat) (h1 : c.lat < Real.pi / 2)
    (hd : Real.sqrt (x ^ 2 + y ^ 2) ≤ 6371000 * Real.pi) :
    |sunX (latlngFromOffset c x y) σ - sunX c σ| ≤ Real.sqrt (x ^ 2 + y ^ 2) / 6371000 := by
  have hdist := C53_distance c x y h0 h1 hd
  have hnn := Real.sqrt_nonneg (x ^ 2 + y ^ 2)
  generalize Real.sqrt (x ^ 2 + y ^ 2) = d at *
  have hunit : ∀ l : LatLng, Spec.dot (Spec.position l) (Spec.position l) = 1 := by
    intro l
    simp only [Spec.dot, Spec.position]
    have e1 := Real.sin_sq_add_cos_sq l.lat
    have e2 := Real.sin_sq_add_cos_sq l.lng
    linear_combination e1 + Real.cos l.lat ^ 2 * e2
  have hw : Spec.dot (sunVec σ) (sunVec σ) = 1 := by
    obtain ⟨-, -, q⟩ := sunS_sqrt hσ
    have e := Real.sin_sq_add_cos_sq (sunPhi 0 σ)
    simp only [Spec.dot, sunVec]
    linear_combination q + Real.sqrt (1 - sunS σ ^ 2) ^ 2 * e
  rw [sunX_dot, sunX_dot]
  have u1 := hunit c
  have u2 := hunit (latlngFromOffset c x y)
  generalize Spec.position (latlngFromOffset c x y) = q at *
  generalize Spec.position c = p at *
  generalize sunVec σ = w at *
  have hpq : Spec.dot p q ^ 2 ≤ 1 := by
    have := dot_le p q
    rwa [u1, u2, one_mul] at this
  have hpq' := abs_le.1 (abs_le_one_iff_mul_self_le_one.2 (by have h := hpq; rw [sq] at h; exact h))
  have hcos : Spec.dot p q = Real.cos (d / 6371000) := by
    rw [← Real.cos_arccos hpq'.1 hpq'.2]
    congr 1
    rw [eq_div_iff (by norm_num)]
    linarith
  have hlin : Spec.dot q w - Spec.dot p w = Spec.dot (q - p) w := by
    simp only [Spec.dot, Prod.fst_sub, Prod.snd_sub]; ring
  have hself : Spec.dot (q - p) (q - p) = 2 - 2 * Real.cos (d / 6371000) := by
    rw [← hcos]
    have : Spec.dot (q - p) (q - p) = Spec.dot q q + Spec.dot p p - 2 * Spec.dot p q := by
      simp only [Spec.dot, Prod.fst_sub, Prod.snd_sub]; ring
    rw [this, u1, u2]; ring
  have hcs := dot_le (q - p) w
  rw [hself, hw, mul_one] at hcs
  have h2 := Real.one_sub_sq_div_two_le_cos (x := d / 6371000)
  rw [hlin]
  refine abs_le_of_sq_le_sq ?_ (by positivity)
  linarith

/-- Declination and latitude of a station in the tropics. -/
theorem station_sun {c : LatLng} (hc : |degrees c.lat| ≤ 10) {σ : ℝ} (hσ : InEra σ) :
    |Real.sin c.lat * sunS σ| ≤ 0.07122 ∧ 0.898 ≤ sunP c σ := by
  have hpi := Real.pi_pos
  have hpi4 := Real.pi_lt_d4
  have hl : |c.lat| ≤ 0.17454 := by
    unfold degrees at hc
    rw [abs_mul, abs_of_pos (by positivity : 0 < 180 / Real.pi), ← mul_div_assoc, div_le_iff₀ hpi] at hc
    norm_num at *
    linarith
  have hcos := Real.one_sub_sq_div_two_le_cos (x := c.lat)
  have hsin : |Real.sin c.lat| ≤ 0.1737 := by
    obtain ⟨l0, l1⟩ := abs_le.1 hl
    have hm : ∀ z : ℝ, 0 ≤ z → z ≤ 0.17454 → Real.sin z ≤ 0.1737 := by
      intro z z0 z1
      have : Real.sin z ≤ Real.sin 0.17454 :=
        Real.sin_le_sin_of_le_of_le_pi_div_two (by linarith) (by norm_num at *; linarith [Real.pi_gt_d4]) z1
      have hb := (abs_le.1 (Real.sin_bound (x := 0.17454) (by rw [abs_of_pos] <;> norm_num))).2
      rw [abs_of_pos (by norm_num)] at hb
      norm_num at *
      linarith
    rcases abs_cases c.lat with ⟨e, h⟩ | ⟨e, h⟩
    · rw [abs_of_nonneg (Real.sin_nonneg_of_nonneg_of_le_pi h (by norm_num at *; linarith [Real.pi_gt_d4]))]
      exact hm _ h (by linarith)
    · have := Real.sin_nonneg_of_nonneg_of_le_pi (x := -c.lat) (by linarith) (by norm_num at *; linarith [Real.pi_gt_d4])
      rw [Real.sin_neg] at this
      rw [abs_of_nonpos (by linarith), ← Real.sin_neg]
      exact hm _ (by linarith) (by linarith)
  have hS := sunS_bound hσ.1 hσ.2
  obtain ⟨q0, q1, -⟩ := sunS_sqrt hσ
  constructor
  · rw [abs_mul]
    have := mul_le_mul hsin hS (abs_nonneg _) (by norm_num)
    norm_num at *; linarith
  · have hsq : c.lat ^ 2 ≤ 0.17454 ^ 2 := by
      rw [← sq_abs]; exact pow_le_pow_left₀ (abs_nonneg _) hl 2
    have c0 : (0.98476 : ℝ) ≤ Real.cos c.lat := by norm_num at *; linarith
    have : (0.98476 * 0.912 : ℝ) ≤ Real.cos c.lat * Real.sqrt (1 - sunS σ ^ 2) :=
      mul_le_mul c0 q0 (by norm_num) (by linarith)
    unfold sunP
    norm_num at *; linarith

/-- Elevation of the sun at a balloon within 350 km of its station, by the hour angle `h` of the station counted from noon. -/
theorem near_day {c : LatLng} (hc : |degrees c.lat| ≤ 10) {x y σ h : ℝ} (hσ : InEra σ)
    (hd : x ^ 2 + y ^ 2 ≤ 350000 ^ 2) (hh : Real.cos (sunPhi c.lng σ) = -Real.cos h) (h1 : |h| ≤ 1.28) :
    7.5 ≤ elOf (sunX (latlngFromOffset c x y) σ) ∧
    (0.545 ≤ |h| → elOf (sunX (latlngFromOffset c x y) σ) ≤ 68) := by
  have hpi := Real.pi_pos
  have hpi3 := Real.pi_gt_d4
  have hpi4 := Real.pi_lt_d4
  obtain ⟨hQ, hP⟩ := station_sun hc hσ
  obtain ⟨hQP, -⟩ := sunQP c hσ
  have hl : |c.lat| ≤ 0.2 := by
    unfold degrees at hc
    rw [abs_mul, abs_of_pos (by positivity : 0 < 180 / Real.pi), ← mul_div_assoc, div_le_iff₀ hpi] at hc
    norm_num at *
    linarith
  obtain ⟨l0, l1⟩ := abs_le.1 hl
  have hs : Real.sqrt (x ^ 2 + y ^ 2) ≤ 350000 := by
    rw [Real.sqrt_le_left (by norm_num)]; exact hd
  have near := sunX_near c x y hσ (by norm_num at *; linarith) (by norm_num at *; linarith) (by linarith)
  have near' : |sunX (latlngFromOffset c x y) σ - sunX c σ| ≤ 0.05494 := by
    refine near.trans ?_
    rw [div_le_iff₀ (by norm_num)]
    norm_num; linarith
  obtain ⟨n0, n1⟩ := abs_le.1 near'
  have ex : sunX c σ = Real.sin c.lat * sunS σ + sunP c σ * Real.cos h := by rw [sunX_eq, hh]; ring
  obtain ⟨Q0, Q1⟩ := abs_le.1 hQ
  have hcos : 0.2866 ≤ Real.cos h := by
    rw [← Real.cos_abs]
    have : Real.cos 1.28 ≤ Real.cos |h| := Real.cos_le_cos_of_nonneg_of_le_pi (abs_nonneg _) (by norm_num; linarith) h1
    refine le_trans ?_ this
    rw [← Real.sin_pi_div_two_sub]
    have z0 : 0.29075 ≤ Real.pi / 2 - 1.28 := by norm_num at *; linarith
    have z1 : Real.pi / 2 - 1.28 ≤ 0.2908 := by norm_num at *; linarith
    generalize Real.pi / 2 - 1.28 = z at *
    have zp : 0 ≤ z := by norm_num at *; linarith
    have hb := (abs_le.1 (Real.sin_bound (x := z) (by rw [abs_of_nonneg zp]; norm_num at *; linarith))).1
    rw [abs_of_nonneg zp] at hb
    have c3 : z ^ 3 ≤ 0.2908 ^ 3 := pow_le_pow_left₀ zp z1 3
    have c5 : z ^ 5 ≤ 0.2908 ^ 5 := pow_le_pow_left₀ zp z1 5
    norm_num at *
    linarith
  have hX0 : 0.131 ≤ sunX (latlngFromOffset c x y) σ := by
    have : (0.898 * 0.2866 : ℝ) ≤ sunP c σ * Real.cos h := mul_le_mul hP hcos (by norm_num) (by linarith)
    norm_num at *
    linarith
  have hcos1 := Real.cos_le_one h
  have hPc : 0 ≤ sunP c σ * (1 - Real.cos h) := mul_nonneg (by linarith) (by linarith)
  obtain ⟨g1, g2, -, g4⟩ := elOf_geo (sunX (latlngFromOffset c x y) σ)
  constructor
  · have hx1 : sunX (latlngFromOffset c x y) σ ≤ 1 := by
      have := dot_le (Spec.position (latlngFromOffset c x y)) (sunVec σ)
      rw [← sunX_dot] at this
      have u1 : Spec.dot (Spec.position (latlngFromOffset c x y)) (Spec.position (latlngFromOffset c x y)) = 1 := by
        simp only [Spec.dot, Spec.position]
        have e1 := Real.sin_sq_add_cos_sq (latlngFromOffset c x y).lat
        have e2 := Real.sin_sq_add_cos_sq (latlngFromOffset c x y).lng
        linear_combination e1 + Real.cos (latlngFromOffset c x y).lat ^ 2 * e2
      have u2 : Spec.dot (sunVec σ) (sunVec σ) = 1 := by
        obtain ⟨-, -, q⟩ := sunS_sqrt hσ
        have e := Real.sin_sq_add_cos_sq (sunPhi 0 σ)
        simp only [Spec.dot, sunVec]
        linear_combination q + Real.sqrt (1 - sunS σ ^ 2) ^ 2 * e
      rw [u1, u2, one_mul, sq] at this
      exact (abs_le.1 (abs_le_one_iff_mul_self_le_one.2 this)).2
    have := (deg_of_sine (by norm_num at *; linarith) hx1).1 0.131 (by norm_num) hX0
    norm_num at *
    linarith
  · intro h2
    have hcu : Real.cos h ≤ 0.8562 := by
      rw [← Real.cos_abs]
      have : Real.cos |h| ≤ Real.cos 0.545 := Real.cos_le_cos_of_nonneg_of_le_pi (by norm_num) (by norm_num at *; linarith) h2
      refine this.trans ?_
      have hb := (abs_le.1 (Real.cos_bound (x := 0.545) (by rw [abs_of_pos] <;> norm_num))).2
      rw [abs_of_pos (by norm_num)] at hb
      norm_num at *
      linarith
    have hX1 : sunX (latlngFromOffset c x y) σ ≤ 0.9259 := by
      have : (0.898 * 0.1438 : ℝ) ≤ sunP c σ * (1 - Real.cos h) := mul_le_mul hP (by norm_num at *; linarith) (by norm_num) (by linarith)
      norm_num at *
      linarith
    have hdeg : degrees (Real.arcsin (sunX (latlngFromOffset c x y) σ)) ≤ 67.97 := by
      have h67 : 0.9259 ≤ Real.sin (radians 67.97) := by
        have := cos_deg_ge (x := 22.03) (b := 22.03) (by rw [abs_of_pos]; norm_num)
        rw [show radians 22.03 = Real.pi / 2 - radians 67.97 by unfold radians; ring, Real.cos_pi_div_two_sub] at this
        norm_num at *
        linarith
      have := Real.arcsin_le_arcsin (hX1.trans h67)
      rw [Real.arcsin_sin (by unfold radians; norm_num at *; linarith) (by unfold radians; norm_num at *; linarith)] at this
      calc degrees (Real.arcsin (sunX (latlngFromOffset c x y) σ)) ≤ degrees (radians 67.97) := by
            unfold degrees; gcongr
        _ = 67.97 := by unfold degrees radians; field_simp
    rcases le_or_gt 44 (degrees (Real.arcsin (sunX (latlngFromOffset c x y) σ))) with g | g
    · have := g4 (.inr g)
      norm_num at *
      linarith
    · norm_num at *
      linarith

end BLE
