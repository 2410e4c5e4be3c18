import Verif.Lemmas.Newton5

/-!
# Heat exchange of the stock envelope
-/

namespace BLE

/-- Radius of an envelope of at most 1,900 m³. -/
theorem radius_le {vol : ℝ} (h0 : 0 < vol) (h1 : vol ≤ 1900) :
    0 < (3 * vol / (4 * Real.pi)) ^ (1 / 3 : ℝ) ∧ (3 * vol / (4 * Real.pi)) ^ (1 / 3 : ℝ) ≤ 7.7 := by
  have hpi := Real.pi_gt_d2
  refine ⟨Real.rpow_pos_of_pos (by positivity) _, ?_⟩
  have e : (7.7 : ℝ) = ((7.7 : ℝ) ^ (3 : ℕ)) ^ (1 / 3 : ℝ) := by
    rw [← Real.rpow_natCast, ← Real.rpow_mul (by norm_num)]; norm_num
  rw [e]
  refine Real.rpow_le_rpow (by positivity) ?_ (by norm_num)
  rw [div_le_iff₀ (by positivity)]
  norm_num at *
  linarith

theorem rpow_twelfth_le {x : ℝ} (hx : 0 ≤ x) (h : x ≤ 5 ^ 12) : x ^ (1.0 / 12.0 : ℝ) ≤ 5 := by
  have e : (5 : ℝ) = ((5 : ℝ) ^ (12 : ℕ)) ^ (1.0 / 12.0 : ℝ) := by
    rw [← Real.rpow_natCast, ← Real.rpow_mul (by norm_num)]; norm_num
  rw [e]
  exact Real.rpow_le_rpow hx h (by norm_num)

/-- Convection: the heat-transfer coefficient times the radius is at most 65 W/(m K), anywhere in the atmosphere. -/
theorem convection_bound {r ta p tb : ℝ} (hr : 0 < r) (hr' : r ≤ 7.7) (h0 : 169 ≤ ta) (h1 : ta ≤ 300) (hp : 0 ≤ p)
    (hp' : p ≤ 101325) (t0 : 160 ≤ tb) (t1 : tb ≤ 300) :
    ∃ k, 0 < k ∧ r * k ≤ 35 ∧ convectiveFactor r tb ta p = k * (ta - tb) := by
  have hta : 0 < ta := by linarith
  unfold convectiveFactor
  simp only
  refine ⟨_, ?_, ?_, rfl⟩
  · have : 0 ≤ 0.804 - 3.25e-4 * ta := by norm_num; linarith
    positivity
  have hv2 : (1.458e-6 * ta ^ (1.5 : ℝ) / (ta + 110.4)) ^ 2 = 2.125764e-12 * ta ^ 3 / (ta + 110.4) ^ 2 := by
    have : (ta ^ (1.5 : ℝ)) ^ 2 = ta ^ 3 := by
      rw [← Real.rpow_natCast, ← Real.rpow_mul hta.le, ← Real.rpow_natCast]; norm_num
    rw [div_pow, mul_pow, this]; norm_num
  rw [hv2]
  have hab : |ta - tb| ≤ 140 := by rw [abs_le]; constructor <;> linarith
  have hab0 := abs_nonneg (ta - tb)
  generalize |ta - tb| = x at *
  have hM : (airM : ℝ) = 0.028964922481160 := rfl
  have hR : (gasR : ℝ) = 8.3144621 := rfl
  have hden : p * airM / (gasR * ta) ≤ 353 / ta := by
    rw [div_le_div_iff₀ (mul_pos (by norm_num [gasR]) hta) hta, hM, hR]
    nlinarith
  have hden0 : 0 ≤ p * airM / (gasR * ta) := by
    rw [hM, hR]; positivity
  generalize p * airM / (gasR * ta) = ρ at *
  obtain ⟨P, hP⟩ : ∃ P, P = 0.804 - 3.25e-4 * ta := ⟨_, rfl⟩
  have hP0 : 0 ≤ P := by rw [hP]; norm_num; linarith
  have hP1 : P ≤ 0.75 := by rw [hP]; norm_num at *; linarith
  rw [← hP]
  have hG : 9.80665 * ρ ^ 2 * (2 * r) ^ 3 / (ta * (2.125764e-12 * ta ^ 3 / (ta + 110.4) ^ 2)) * x ≤ 1.0e15 := by
    have e : 9.80665 * ρ ^ 2 * (2 * r) ^ 3 / (ta * (2.125764e-12 * ta ^ 3 / (ta + 110.4) ^ 2)) * x =
        9.80665 * ρ ^ 2 * (2 * r) ^ 3 * (ta + 110.4) ^ 2 * x / (2.125764e-12 * ta ^ 4) := by
      field_simp
    rw [e, div_le_iff₀ (by positivity)]
    have q1 : ρ ^ 2 ≤ (353 / ta) ^ 2 := pow_le_pow_left₀ hden0 hden 2
    have q2 : (2 * r) ^ 3 ≤ 15.4 ^ 3 := pow_le_pow_left₀ (by positivity) (by norm_num at *; linarith) 3
    have q3 : (ta + 110.4) ^ 2 ≤ (1.6533 * ta) ^ 2 := pow_le_pow_left₀ (by positivity) (by norm_num at *; linarith) 2
    have q4 : (353 / ta) ^ 2 * (1.6533 * ta) ^ 2 = (353 * 1.6533) ^ 2 := by field_simp
    have q5 : ρ ^ 2 * (ta + 110.4) ^ 2 ≤ (353 * 1.6533) ^ 2 := by
      rw [← q4]; exact mul_le_mul q1 q3 (by positivity) (by positivity)
    have q6 : (169 : ℝ) ^ 4 ≤ ta ^ 4 := pow_le_pow_left₀ (by norm_num) h0 4
    have q7 : ρ ^ 2 * (ta + 110.4) ^ 2 * (2 * r) ^ 3 ≤ (353 * 1.6533) ^ 2 * 15.4 ^ 3 :=
      mul_le_mul q5 q2 (by positivity) (by positivity)
    have q8 : ρ ^ 2 * (ta + 110.4) ^ 2 * (2 * r) ^ 3 * x ≤ (353 * 1.6533) ^ 2 * 15.4 ^ 3 * 140 :=
      mul_le_mul q7 hab hab0 (by positivity)
    have : 9.80665 * ρ ^ 2 * (2 * r) ^ 3 * (ta + 110.4) ^ 2 * x =
      9.80665 * (ρ ^ 2 * (ta + 110.4) ^ 2 * (2 * r) ^ 3 * x) := by ring
    rw [this]
    norm_num at q6 q8 ⊢
    linarith
  have hG0 : 0 ≤ 9.80665 * ρ ^ 2 * (2 * r) ^ 3 / (ta * (2.125764e-12 * ta ^ 3 / (ta + 110.4) ^ 2)) * x := by positivity
  generalize 9.80665 * ρ ^ 2 * (2 * r) ^ 3 / (ta * (2.125764e-12 * ta ^ 3 / (ta + 110.4) ^ 2)) * x = Gr at *
  have hRa : P * Gr ≤ 7.5e14 := by
    have := mul_le_mul hP1 hG hG0 (by norm_num)
    norm_num at *; linarith
  have hRa0 : 0 ≤ P * Gr := mul_nonneg hP0 hG0
  generalize P * Gr = Ra at *
  have n1 : Ra ^ (0.25 : ℝ) ≤ 5240 := rpow_quarter_le hRa0 (by norm_num) (by norm_num at *; linarith)
  have n2 : (1 + 2.69e-8 * Ra) ^ (1.0 / 12.0 : ℝ) ≤ 5 := by
    refine rpow_twelfth_le (by positivity) ?_
    norm_num at *; linarith
  have c1 : (ta / 273.15) ^ (0.9 : ℝ) ≤ 1.1 := by
    have a1 : ta / 273.15 ≤ 1.1 := by rw [div_le_iff₀ (by norm_num)]; norm_num; linarith
    calc (ta / 273.15) ^ (0.9 : ℝ) ≤ (1.1 : ℝ) ^ (0.9 : ℝ) := Real.rpow_le_rpow (by positivity) a1 (by norm_num)
      _ ≤ (1.1 : ℝ) ^ (1 : ℝ) := Real.rpow_le_rpow_of_exponent_le (by norm_num) (by norm_num)
      _ = 1.1 := Real.rpow_one _
  have c0 : 0 ≤ (ta / 273.15) ^ (0.9 : ℝ) := by positivity
  have n0 : 0 ≤ 2 + 0.457 * Ra ^ (0.25 : ℝ) + (1 + 2.69e-8 * Ra) ^ (1.0 / 12.0 : ℝ) := by positivity
  have n3 : 2 + 0.457 * Ra ^ (0.25 : ℝ) + (1 + 2.69e-8 * Ra) ^ (1.0 / 12.0 : ℝ) ≤ 2402 := by norm_num at *; linarith
  generalize 2 + 0.457 * Ra ^ (0.25 : ℝ) + (1 + 2.69e-8 * Ra) ^ (1.0 / 12.0 : ℝ) = N at *
  generalize (ta / 273.15) ^ (0.9 : ℝ) = C at *
  have e : r * (N * (0.0241 * C) / (2 * r)) = 0.01205 * (N * C) := by field_simp; ring
  rw [e]
  have := mul_le_mul n3 c1 c0 (by norm_num)
  norm_num at *; linarith

/-- What the envelope absorbs and radiates: the temperature rate of a stock envelope as convection towards the ambient
temperature plus absorbed less radiated flux, with bounds on the coefficients. -/
theorem stock_heat {vol tb ta p el sf ef d : ℝ} (hv : 0 < vol) (hv' : vol ≤ 1900) (h0 : 169 ≤ ta) (h1 : ta ≤ 300)
    (hs0 : 0 ≤ sf) (hs1 : sf ≤ 1500) (hf0 : 225 ≤ ef) (hf1 : ef ≤ 450) (t0 : 160 ≤ tb) (t1 : tb ≤ 300)
    (h : dTempDt vol 68.5 tb ta p el sf ef = .ok d) :
    ∃ κ K c, 0 < κ ∧ κ ≤ 0.04 ∧ 0 < K ∧ K ≤ 0.008 ∧ 11 ≤ c ∧ c ≤ 38 ∧ d = κ * (ta - tb) + K * (c - radiated tb) := by
  have hdom : -90 ≤ el ∧ el ≤ 90 ∧ 0 ≤ p ∧ p ≤ 101325 := by
    by_contra hc
    have := ((C51_attenuation el p).1 (by
      by_contra h2; push Not at h2; exact hc ⟨h2.1, h2.2.1, h2.2.2.1, h2.2.2.2⟩)).1
    unfold dTempDt at h
    simp only [bind, Except.bind, this] at h
    cases h
  obtain ⟨he0, he1, hp, hp'⟩ := hdom
  obtain ⟨att, hatt, hat0, hat1, _⟩ := (C51_attenuation el p).2 he0 he1 hp hp'
  obtain ⟨f0, f1⟩ := fluxToTemp_range (by linarith : (1:ℝ) ≤ ef) (by linarith)
  obtain ⟨g0, g1⟩ := absorptivityIr_range f0 f1
  obtain ⟨k0, k1⟩ := absorptivityIr_range (t := tb) (by linarith) (by linarith)
  obtain ⟨ea1, ea2⟩ := earth_absorptivity hf0 hf1
  obtain ⟨r0, r1⟩ := radius_le hv hv'
  unfold dTempDt at h
  generalize (3 * vol / (4 * Real.pi)) ^ (1 / 3 : ℝ) = r at *
  obtain ⟨k, hk0, hk1, hk⟩ := convection_bound r0 r1 h0 h1 hp hp' t0 t1
  simp only [bind, Except.bind, hatt, totalAbsorptivity_ok g0 g1, totalAbsorptivity_ok k0 k1,
      totalAbsorptivity_ok (show (0 : ℝ) ≤ 0.01435 by norm_num) (by norm_num)] at h
  have hne : (1500 : ℝ) * 68.5 ≠ 0 := by norm_num
  rw [pyDiv_ok hne, hk] at h
  injection h with h
  have p0 := Real.pi_pos
  have p1 := Real.pi_lt_d2
  refine ⟨4 * Real.pi * (r * k) * r / (1500 * 68.5), 4 * Real.pi * r * r / (1500 * 68.5),
    sf * att * 0.25 * (0.01435 * (1 + (1 - 0.01435 - 0.0291) / (1 - 0.0291))) +
    ef * 0.4605 * (absorptivityIr (fluxToTemp ef) *
      (1 + (1 - absorptivityIr (fluxToTemp ef) - 0.0291) / (1 - 0.0291))), by positivity, ?_, by positivity, ?_, ?_, ?_, ?_⟩
  · rw [div_le_iff₀ (by norm_num)]
    have a1 : r * k * r ≤ 35 * 7.7 := mul_le_mul hk1 r1 r0.le (by norm_num)
    have a2 : Real.pi * (r * k * r) ≤ 3.15 * (35 * 7.7) := mul_le_mul p1.le a1 (by positivity) (by norm_num)
    norm_num at *; linarith
  · rw [div_le_iff₀ (by norm_num)]
    have a1 : r * r ≤ 7.7 * 7.7 := mul_le_mul r1 r1 r0.le (by norm_num)
    have a2 : Real.pi * (r * r) ≤ 3.15 * (7.7 * 7.7) := mul_le_mul p1.le a1 (by positivity) (by norm_num)
    norm_num at *; linarith
  · generalize absorptivityIr (fluxToTemp ef) *
      (1 + (1 - absorptivityIr (fluxToTemp ef) - 0.0291) / (1 - 0.0291)) = aE at *
    have b1 := mul_le_mul hf0 ea1 (by norm_num) (by linarith)
    have b2 : 0 ≤ sf * att * 0.25 * (0.01435 * (1 + (1 - 0.01435 - 0.0291) / (1 - 0.0291))) := by
      norm_num
      positivity
    norm_num at b1 b2 ⊢
    linarith
  · generalize absorptivityIr (fluxToTemp ef) *
      (1 + (1 - absorptivityIr (fluxToTemp ef) - 0.0291) / (1 - 0.0291)) = aE at *
    have b1 := mul_le_mul hf1 ea2 (by linarith) (by linarith)
    have b2 := mul_le_mul hs1 hat1 hat0 (by linarith)
    have b3 : sf * att * 0.25 * (0.01435 * (1 + (1 - 0.01435 - 0.0291) / (1 - 0.0291))) =
      sf * att * (0.25 * (0.01435 * (1 + (1 - 0.01435 - 0.0291) / (1 - 0.0291)))) := by ring
    rw [b3]
    norm_num at b1 b2 ⊢
    linarith
  · rw [← h]
    unfold radiated
    rw [div_mul_eq_mul_div, div_mul_eq_mul_div, ← add_div]
    congr 1
    ring

/-- Explicit Euler steps of at most ten seconds cannot leave [160 K, 300 K]. -/
theorem band_step {tb ta κ K c τ : ℝ} (h0 : 169 ≤ ta) (h1 : ta ≤ 300) (t0 : 160 ≤ tb) (t1 : tb ≤ 300) (hκ : 0 < κ)
    (hκ' : κ ≤ 0.04) (hK : 0 < K) (hK' : K ≤ 0.008) (hc : 11 ≤ c) (hc' : c ≤ 38) (hτ : 0 ≤ τ) (hτ' : τ ≤ 10) :
    160 ≤ tb + (κ * (ta - tb) + K * (c - radiated tb)) * τ ∧ tb + (κ * (ta - tb) + K * (c - radiated tb)) * τ ≤ 300 := by
  have r160 : radiated 160 ≤ 3 := by rw [radiated_poly]; norm_num [stefanBoltzmann]
  have r300 : radiated 300 ≤ 62 := by rw [radiated_poly]; norm_num [stefanBoltzmann]
  have r285 : (38 : ℝ) ≤ radiated 285 := by rw [radiated_poly]; norm_num [stefanBoltzmann]
  have k0 : 0 ≤ κ * τ := by positivity
  have k1 : κ * τ ≤ 0.4 := by
    have := mul_le_mul hκ' hτ' hτ (by norm_num)
    norm_num at *; linarith
  have K0 : 0 ≤ K * τ := by positivity
  have K1 : K * τ ≤ 0.08 := by
    have := mul_le_mul hK' hτ' hτ (by norm_num)
    norm_num at *; linarith
  have hre : tb + (κ * (ta - tb) + K * (c - radiated tb)) * τ =
      tb + κ * τ * (ta - tb) + K * τ * (c - radiated tb) := by ring
  rw [hre]
  generalize κ * τ = x at *
  generalize K * τ = y at *
  constructor
  · have hrad : radiated tb ≤ 11 + 0.6 * (tb - 160) := by
      have hconv := radiated_convex.2 (show (160 : ℝ) ∈ Set.Icc 160 900 by norm_num) (show (300 : ℝ) ∈ Set.Icc 160 900 by norm_num)
        (show 0 ≤ (300 - tb) / 140 by apply div_nonneg <;> linarith) (show 0 ≤ (tb - 160) / 140 by apply div_nonneg <;> linarith)
        (by ring)
      simp only [smul_eq_mul] at hconv
      rw [show (300 - tb) / 140 * 160 + (tb - 160) / 140 * 300 = tb by ring] at hconv
      have a1 := mul_le_mul_of_nonneg_left r160 (show 0 ≤ (300 - tb) / 140 by apply div_nonneg <;> linarith)
      have a2 := mul_le_mul_of_nonneg_left r300 (show 0 ≤ (tb - 160) / 140 by apply div_nonneg <;> linarith)
      norm_num at *
      linarith
    have b1 : y * (0.6 * (160 - tb)) ≤ y * (c - radiated tb) := mul_le_mul_of_nonneg_left (by norm_num at *; linarith) K0
    have b2 : x * (160 - tb) ≤ x * (ta - tb) := mul_le_mul_of_nonneg_left (by norm_num at *; linarith) k0
    have b3 : 0 ≤ (0.4 - x) * (tb - 160) := mul_nonneg (by linarith) (by linarith)
    have b4 : 0 ≤ (0.08 - y) * (tb - 160) := mul_nonneg (by linarith) (by linarith)
    norm_num at *
    linarith
  · have b2 : x * (ta - tb) ≤ x * (300 - tb) := mul_le_mul_of_nonneg_left (by linarith) k0
    have b3 : 0 ≤ (0.4 - x) * (300 - tb) := mul_nonneg (by linarith) (by linarith)
    rcases le_total tb 285 with hc1 | hc1
    · have hr0 := radiated_nonneg (T := tb) (by linarith) (by linarith)
      have b1 : y * (c - radiated tb) ≤ y * 38 := mul_le_mul_of_nonneg_left (by linarith) K0
      norm_num at *
      linarith
    · have hs := radiated_slope (x := 285) (y := tb) (by norm_num) hc1 (by linarith)
      have b1 : y * (c - radiated tb) ≤ y * 0 := mul_le_mul_of_nonneg_left (by norm_num at *; linarith) K0
      norm_num at *
      linarith

end BLE
