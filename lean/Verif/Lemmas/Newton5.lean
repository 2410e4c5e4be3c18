import Verif.Lemmas.Newton4
import Mathlib.Analysis.Real.Pi.Bounds

/-!
# The heat balance of the stock envelope
-/

namespace BLE

/-- Radius of the stock envelope at base volume. -/
theorem stock_radius : 7.55 ≤ (3 * 1804 / (4 * Real.pi)) ^ (1 / 3 : ℝ) ∧
    (3 * 1804 / (4 * Real.pi)) ^ (1 / 3 : ℝ) ≤ 7.553 := by
  have p1 := Real.pi_gt_d4
  have p2 := Real.pi_lt_d4
  have hx : 0 ≤ 3 * 1804 / (4 * Real.pi) := by positivity
  have e : ∀ y : ℝ, 0 ≤ y → y = (y ^ (3 : ℕ)) ^ (1 / 3 : ℝ) := by
    intro y hy
    rw [← Real.rpow_natCast, ← Real.rpow_mul hy]; norm_num
  constructor
  · rw [e 7.55 (by norm_num)]
    refine Real.rpow_le_rpow (by norm_num) ?_ (by norm_num)
    rw [le_div_iff₀ (by positivity)]
    norm_num at *; linarith
  · rw [e 7.553 (by norm_num)]
    refine Real.rpow_le_rpow hx ?_ (by norm_num)
    rw [div_le_iff₀ (by positivity)]
    norm_num at *; linarith

/-- `x^0.9` between multiples of `x`. -/
theorem rpow_nine_tenths {x : ℝ} (h0 : 0.6468 ≤ x) (h1 : x ≤ 0.77395) :
    1.0259 * x ≤ x ^ (0.9 : ℝ) ∧ x ^ (0.9 : ℝ) ≤ 1.0447 * x := by
  have hx : 0 < x := by linarith
  have e : x ^ (0.9 : ℝ) = (x⁻¹) ^ (0.1 : ℝ) * x := by
    rw [Real.inv_rpow hx.le, ← Real.rpow_neg hx.le, show (0.9 : ℝ) = -0.1 + 1 by norm_num, Real.rpow_add hx, Real.rpow_one]
  have q : ∀ y : ℝ, 0 ≤ y → y = (y ^ (10 : ℕ)) ^ (0.1 : ℝ) := by
    intro y hy
    rw [← Real.rpow_natCast, ← Real.rpow_mul hy]; norm_num
  rw [e]
  constructor
  · refine mul_le_mul_of_nonneg_right ?_ hx.le
    rw [q 1.0259 (by norm_num)]
    refine Real.rpow_le_rpow (by norm_num) ?_ (by norm_num)
    rw [le_inv_comm₀ (by norm_num) hx]
    refine h1.trans ?_
    norm_num
  · refine mul_le_mul_of_nonneg_right ?_ hx.le
    rw [q 1.0447 (by norm_num)]
    refine Real.rpow_le_rpow (by positivity) ?_ (by norm_num)
    rw [inv_le_comm₀ hx (by norm_num)]
    refine le_trans ?_ h0
    norm_num

/-- Convective constants of the stock envelope. -/
theorem stock_convection {ta p : ℝ} (h0 : 176.7 ≤ ta) (h1 : ta ≤ 211.4) (hp : 0 ≤ p) :
    ∃ G k, 0 ≤ G ∧ 5.98e-6 * ta ≤ k ∧ k ≤ 6.12e-6 * ta ∧ 3.28e11 * p ^ 2 ≤ G * ta ^ 4 ∧ G * ta ^ 4 ≤ 3.83e11 * p ^ 2 ∧
      ∀ tb, convectiveFactor ((3 * 1804 / (4 * Real.pi)) ^ (1 / 3 : ℝ)) tb ta p =
        -(k * nusseltOf G |tb - ta| * (tb - ta)) := by
  obtain ⟨r1, r2⟩ := stock_radius
  generalize (3 * 1804 / (4 * Real.pi)) ^ (1 / 3 : ℝ) = r at *
  have hta : 0 < ta := by linarith
  obtain ⟨x1, x2⟩ := rpow_nine_tenths (x := ta / 273.15) (by rw [le_div_iff₀ (by norm_num)]; norm_num at *; linarith)
    (by rw [div_le_iff₀ (by norm_num)]; norm_num at *; linarith)
  have eG : (0.804 - 3.25e-4 * ta) * (9.80665 * (p * airM / (gasR * ta)) ^ 2 * (2 * r) ^ 3 /
      (ta * (1.458e-6 * ta ^ (1.5 : ℝ) / (ta + 110.4)) ^ 2)) * ta ^ 4 =
      (0.804 - 3.25e-4 * ta) * (9.80665 * (airM / gasR) ^ 2 * (2 * r) ^ 3 / 1.458e-6 ^ 2) * ((ta + 110.4) / ta) ^ 2 * p ^ 2 := by
    have : (ta ^ (1.5 : ℝ)) ^ 2 = ta ^ 3 := by
      rw [← Real.rpow_natCast, ← Real.rpow_mul hta.le, ← Real.rpow_natCast]; norm_num
    have hb : (1.458e-6 * ta ^ (1.5 : ℝ) / (ta + 110.4)) ^ 2 = 1.458e-6 ^ 2 * ta ^ 3 / (ta + 110.4) ^ 2 := by
      rw [div_pow, mul_pow, this]
    rw [hb]
    have hR : gasR ≠ 0 := by norm_num [gasR]
    have hq : ta + 110.4 ≠ 0 := by positivity
    field_simp
  refine ⟨(0.804 - 3.25e-4 * ta) * (9.80665 * (p * airM / (gasR * ta)) ^ 2 * (2 * r) ^ 3 /
      (ta * (1.458e-6 * ta ^ (1.5 : ℝ) / (ta + 110.4)) ^ 2)),
    0.0241 * (ta / 273.15) ^ (0.9 : ℝ) / (2 * r), ?_, ?_, ?_, ?_, ?_, ?_⟩
  · refine mul_nonneg (by norm_num at *; linarith) ?_
    have : 0 ≤ r := by linarith
    positivity
  · rw [le_div_iff₀ (by linarith)]
    have a : 5.98e-6 * ta * (2 * r) ≤ 5.98e-6 * ta * (2 * 7.553) := mul_le_mul_of_nonneg_left (by linarith) (by positivity)
    refine a.trans ?_
    norm_num at *; linarith
  · rw [div_le_iff₀ (by linarith)]
    have a : 6.12e-6 * ta * (2 * 7.55) ≤ 6.12e-6 * ta * (2 * r) := mul_le_mul_of_nonneg_left (by linarith) (by positivity)
    refine le_trans ?_ a
    norm_num at *; linarith
  · rw [eG]
    refine mul_le_mul_of_nonneg_right ?_ (by positivity)
    have a1 : (0.735 : ℝ) ≤ 0.804 - 3.25e-4 * ta := by norm_num at *; linarith
    have a2 : (2 * 7.55 : ℝ) ^ 3 ≤ (2 * r) ^ 3 := pow_le_pow_left₀ (by norm_num) (by linarith) 3
    have a3 : (1.5222 : ℝ) ≤ (ta + 110.4) / ta := by rw [le_div_iff₀ hta]; norm_num at *; linarith
    have a4 : (1.5222 : ℝ) ^ 2 ≤ ((ta + 110.4) / ta) ^ 2 := pow_le_pow_left₀ (by norm_num) a3 2
    have a5 : 9.80665 * (airM / gasR) ^ 2 * (2 * 7.55) ^ 3 / 1.458e-6 ^ 2 ≤ 9.80665 * (airM / gasR) ^ 2 * (2 * r) ^ 3 / 1.458e-6 ^ 2 := by
      refine div_le_div_of_nonneg_right ?_ (by norm_num)
      exact mul_le_mul_of_nonneg_left a2 (by positivity)
    have a6 := mul_le_mul (mul_le_mul a1 a5 (by norm_num [airM, gasR]) (by linarith)) a4 (by norm_num) (by
      refine mul_nonneg (by linarith) ?_
      have : 0 ≤ r := by linarith
      positivity)
    refine le_trans ?_ a6
    norm_num [airM, gasR]
  · rw [eG]
    refine mul_le_mul_of_nonneg_right ?_ (by positivity)
    have a1 : 0.804 - 3.25e-4 * ta ≤ (0.7467 : ℝ) := by norm_num at *; linarith
    have a2 : (2 * r) ^ 3 ≤ (2 * 7.553 : ℝ) ^ 3 := pow_le_pow_left₀ (by linarith) (by linarith) 3
    have a3 : (ta + 110.4) / ta ≤ (1.6249 : ℝ) := by rw [div_le_iff₀ hta]; norm_num at *; linarith
    have a4 : ((ta + 110.4) / ta) ^ 2 ≤ (1.6249 : ℝ) ^ 2 := pow_le_pow_left₀ (by positivity) a3 2
    have hr0 : 0 ≤ r := by linarith
    have a5 : 9.80665 * (airM / gasR) ^ 2 * (2 * r) ^ 3 / 1.458e-6 ^ 2 ≤ 9.80665 * (airM / gasR) ^ 2 * (2 * 7.553) ^ 3 / 1.458e-6 ^ 2 := by
      refine div_le_div_of_nonneg_right ?_ (by norm_num)
      exact mul_le_mul_of_nonneg_left a2 (by positivity)
    have a6 := mul_le_mul (mul_le_mul a1 a5 (by positivity) (by norm_num)) a4 (by positivity) (by norm_num [airM, gasR])
    refine le_trans a6 ?_
    norm_num [airM, gasR]
  · intro tb
    unfold convectiveFactor nusseltOf
    simp only
    rw [abs_sub_comm ta tb]
    simp only [mul_assoc]
    ring

/-- Fourth roots. -/
theorem rpow_quarter_le {x y : ℝ} (hx : 0 ≤ x) (hy : 0 ≤ y) (h : x ≤ y ^ 4) : x ^ (0.25 : ℝ) ≤ y := by
  have e : y = (y ^ (4 : ℕ)) ^ (0.25 : ℝ) := by
    rw [← Real.rpow_natCast, ← Real.rpow_mul hy]; norm_num
  rw [e]
  exact Real.rpow_le_rpow hx h (by norm_num)

theorem le_rpow_quarter {x y : ℝ} (hy : 0 ≤ y) (h : y ^ 4 ≤ x) : y ≤ x ^ (0.25 : ℝ) := by
  have e : y = (y ^ (4 : ℕ)) ^ (0.25 : ℝ) := by
    rw [← Real.rpow_natCast, ← Real.rpow_mul hy]; norm_num
  conv_lhs => rw [e]
  exact Real.rpow_le_rpow (by positivity) h (by norm_num)

/-- Upper bound for the convective coefficient. -/
theorem convection_le {ta p G k x ν : ℝ} (h0 : 176.7 ≤ ta) (h1 : ta ≤ 211.4) (hp' : p ≤ 13000) (hp : 0 ≤ p) (hG : 0 ≤ G)
    (hk : k ≤ 6.12e-6 * ta) (hGt : G * ta ^ 4 ≤ 3.83e11 * p ^ 2) (hx : 0 ≤ x) (hx' : x ≤ 45) (hν : 0 ≤ ν)
    (hν4 : 6.5e19 * x ≤ ν ^ 4) : k * nusseltOf G x ≤ 6.12e-6 * (1057 + 0.457 * ν) := by
  have hta : 0 < ta := by linarith
  have hp2 : p ^ 2 ≤ 13000 ^ 2 := pow_le_pow_left₀ hp hp' 2
  have hG4 : G * ta ^ 4 ≤ 6.5e19 := by norm_num at *; linarith
  have e1 : (G * x) ^ (0.25 : ℝ) ≤ ν / ta := by
    refine rpow_quarter_le (mul_nonneg hG hx) (by positivity) ?_
    rw [div_pow, le_div_iff₀ (by positivity)]
    have := mul_le_mul_of_nonneg_right hG4 hx
    linarith
  have e2 : (1 + 2.69e-8 * (G * x)) ^ (1.0 / 12.0 : ℝ) ≤ 3 := by
    have hG' : G ≤ 6.7e10 := by
      have a : (176.7 : ℝ) ^ 4 ≤ ta ^ 4 := pow_le_pow_left₀ (by norm_num) h0 4
      have := mul_le_mul_of_nonneg_left a hG
      norm_num at *; linarith
    have : (3 : ℝ) = (3 ^ (12 : ℕ)) ^ (1.0 / 12.0 : ℝ) := by
      rw [← Real.rpow_natCast, ← Real.rpow_mul (by norm_num)]; norm_num
    rw [this]
    refine Real.rpow_le_rpow (by positivity) ?_ (by norm_num)
    have := mul_le_mul hG' hx' hx (by norm_num)
    norm_num at *; linarith
  have e3 : nusseltOf G x ≤ 5 + 0.457 * (ν / ta) := by unfold nusseltOf; linarith
  have e4 := mul_le_mul hk e3 (nusseltOf_nonneg hG hx) (by positivity)
  have e5 : 6.12e-6 * ta * (5 + 0.457 * (ν / ta)) = 6.12e-6 * (5 * ta + 0.457 * ν) := by field_simp
  rw [e5] at e4
  norm_num at *; linarith

/-- Lower bound for the convective coefficient. -/
theorem convection_ge {ta p G k x ν P : ℝ} (h0 : 176.7 ≤ ta) (hP : 0 ≤ P) (hp : P ≤ p) (hk : 5.98e-6 * ta ≤ k)
    (hGt : 3.28e11 * p ^ 2 ≤ G * ta ^ 4) (hG : 0 ≤ G) (hx : 0 ≤ x) (hν : 0 ≤ ν) (hν4 : ν ^ 4 ≤ 3.28e11 * P ^ 2 * x) :
    5.98e-6 * (530 + 0.457 * ν) ≤ k * nusseltOf G x := by
  have hta : 0 < ta := by linarith
  have hp2 : P ^ 2 ≤ p ^ 2 := pow_le_pow_left₀ hP hp 2
  have e1 : ν / ta ≤ (G * x) ^ (0.25 : ℝ) := by
    refine le_rpow_quarter (by positivity) ?_
    rw [div_pow, div_le_iff₀ (by positivity)]
    have a := mul_le_mul_of_nonneg_right (mul_le_mul_of_nonneg_left hp2 (show (0 : ℝ) ≤ 3.28e11 by norm_num)) hx
    have b := mul_le_mul_of_nonneg_right hGt hx
    linarith
  have e2 : 1 ≤ (1 + 2.69e-8 * (G * x)) ^ (1.0 / 12.0 : ℝ) :=
    Real.one_le_rpow (by have := mul_nonneg hG hx; norm_num; linarith) (by norm_num)
  have e3 : 3 + 0.457 * (ν / ta) ≤ nusseltOf G x := by unfold nusseltOf; linarith
  have e4 := mul_le_mul hk e3 (by positivity) (le_trans (by positivity) hk)
  have e5 : 5.98e-6 * ta * (3 + 0.457 * (ν / ta)) = 5.98e-6 * (3 * ta + 0.457 * ν) := by field_simp
  rw [e5] at e4
  refine le_trans ?_ e4
  norm_num at *; linarith

/-- Total absorptivity of the Earth's radiation for upwelling flux between 225 and 315 W/m². -/
theorem earth_absorptivity_stock {f : ℝ} (h0 : 225 ≤ f) (h1 : f ≤ 315) :
    absorptivityIr (fluxToTemp f) * (1 + (1 - absorptivityIr (fluxToTemp f) - 0.0291) / (1 - 0.0291)) ≤ 0.11726 := by
  have a1 : (250 : ℝ) ≤ fluxToTemp f := by
    rw [← (C52_black_body 250 0).1 (by norm_num)]
    exact fluxToTemp_mono (by norm_num [tempToFlux, stefanBoltzmann])
      (le_trans (by norm_num [tempToFlux, stefanBoltzmann]) h0)
  have a2 : fluxToTemp f ≤ 273.1 := by
    rw [← (C52_black_body 273.1 0).1 (by norm_num)]
    exact fluxToTemp_mono (by linarith)
      (le_trans h1 (by norm_num [tempToFlux, stefanBoltzmann]))
  generalize fluxToTemp f = T at *
  have b1 : 0.05515 ≤ absorptivityIr T := by unfold absorptivityIr; norm_num at *; linarith
  have b2 : absorptivityIr T ≤ 0.06051 := by unfold absorptivityIr; norm_num at *; linarith
  generalize absorptivityIr T = x at *
  rw [show x * (1 + (1 - x - 0.0291) / (1 - 0.0291)) = x * (1.9418 - x) / 0.9709 by
    field_simp; norm_num; ring]
  rw [div_le_iff₀ (by norm_num)]
  nlinarith

/-- The temperature rate of the stock envelope as minus a constant times a heat balance, with numbers. -/
theorem dTempDt_stock {ta p el sf ef : ℝ} (h0 : 176.7 ≤ ta) (h1 : ta ≤ 211.4) (hp : 0 ≤ p) (hp' : p ≤ 13000)
    (he0 : -90 ≤ el) (he1 : el ≤ 90) (hs0 : 0 ≤ sf) (hs1 : sf ≤ 1421) (hf0 : 225 ≤ ef) (hf1 : ef ≤ 315) :
    ∃ K G k c, 0.002 ≤ K ∧ 0 ≤ G ∧ 0 ≤ k ∧ 11.08 ≤ c ∧ c ≤ 27.2 ∧ k * nusseltOf G 45 ≤ 0.8 ∧ k * nusseltOf G 6.1 ≤ 0.5 ∧
      (∀ P x ν, 0 ≤ P → P ≤ p → 0 ≤ x → 0 ≤ ν → ν ^ 4 ≤ 3.28e11 * P ^ 2 * x →
        5.98e-6 * (530 + 0.457 * ν) ≤ k * nusseltOf G x) ∧
      ∀ tb, 13 ≤ tb → tb ≤ 8000 → dTempDt 1804 68.5 tb ta p el sf ef = .ok (-(K * balance k G ta c tb)) := by
  obtain ⟨att, hatt, hat0, hat1, _⟩ := (C51_attenuation el p).2 he0 he1 hp (by linarith)
  obtain ⟨f0, f1⟩ := fluxToTemp_range (by linarith : (1:ℝ) ≤ ef) (by linarith)
  obtain ⟨g0, g1⟩ := absorptivityIr_range f0 f1
  obtain ⟨G, k, hG, hk1, hk2, hG1, hG2, hcf⟩ := stock_convection h0 h1 hp
  have hk : 0 ≤ k := le_trans (by positivity) hk1
  have ea1 := (earth_absorptivity hf0 (by linarith)).1
  have ea2 := earth_absorptivity_stock hf0 hf1
  refine ⟨4 * Real.pi * (3 * 1804 / (4 * Real.pi)) ^ (1 / 3 : ℝ) * (3 * 1804 / (4 * Real.pi)) ^ (1 / 3 : ℝ) /
    (1500 * 68.5), G, k, sf * att * 0.25 * (0.01435 * (1 + (1 - 0.01435 - 0.0291) / (1 - 0.0291))) +
    ef * 0.4605 * (absorptivityIr (fluxToTemp ef) *
      (1 + (1 - absorptivityIr (fluxToTemp ef) - 0.0291) / (1 - 0.0291))), ?_, hG, hk, ?_, ?_, ?_, ?_, ?_, ?_⟩
  · obtain ⟨r1, r2⟩ := stock_radius
    generalize (3 * 1804 / (4 * Real.pi)) ^ (1 / 3 : ℝ) = r at *
    rw [le_div_iff₀ (by norm_num)]
    have := Real.pi_gt_three
    have a1 : 7.55 * 7.55 ≤ r * r := mul_le_mul r1 r1 (by norm_num) (by linarith)
    have a2 := mul_le_mul (show (12 : ℝ) ≤ 4 * Real.pi by linarith) a1 (by norm_num) (by linarith)
    norm_num at *; linarith
  · generalize absorptivityIr (fluxToTemp ef) *
      (1 + (1 - absorptivityIr (fluxToTemp ef) - 0.0291) / (1 - 0.0291)) = aE at *
    have b1 := mul_le_mul hf0 ea1 (by norm_num) (by linarith)
    have b2 : 0 ≤ sf * att * 0.25 * (0.01435 * (1 + (1 - 0.01435 - 0.0291) / (1 - 0.0291))) := by
      norm_num
      positivity
    norm_num at b1 b2 ⊢
    linarith
  · generalize absorptivityIr (fluxToTemp ef) *
      (1 + (1 - absorptivityIr (fluxToTemp ef) - 0.0291) / (1 - 0.0291)) = aE at *
    have b1 := mul_le_mul hf1 ea2 (by linarith) (by linarith)
    have b2 := mul_le_mul hs1 hat1 hat0 (by linarith)
    have b3 : sf * att * 0.25 * (0.01435 * (1 + (1 - 0.01435 - 0.0291) / (1 - 0.0291))) =
      sf * att * (0.25 * (0.01435 * (1 + (1 - 0.01435 - 0.0291) / (1 - 0.0291)))) := by ring
    rw [b3]
    norm_num at b1 b2 ⊢
    linarith
  · refine (convection_le (ν := 232600) h0 h1 hp' hp hG hk2 hG2 (by norm_num) le_rfl (by norm_num) (by norm_num)).trans ?_
    norm_num
  · refine (convection_le (ν := 141200) h0 h1 hp' hp hG hk2 hG2 (by norm_num) (by norm_num) (by norm_num) (by norm_num)).trans ?_
    norm_num
  · intro P x ν a b c d e
    exact convection_ge h0 a b hk1 hG1 hG c d e
  · intro tb ht ht'
    obtain ⟨k0, k1⟩ := absorptivityIr_range ht ht'
    unfold dTempDt
    simp only [bind, Except.bind, hatt, totalAbsorptivity_ok g0 g1, totalAbsorptivity_ok k0 k1,
      totalAbsorptivity_ok (show (0 : ℝ) ≤ 0.01435 by norm_num) (by norm_num)]
    have hne : (1500 : ℝ) * 68.5 ≠ 0 := by norm_num
    simp only [pyDiv_ok hne, hcf]
    unfold balance radiated
    congr 1
    rw [eq_comm, div_mul_eq_mul_div, ← neg_div]
    congr 1
    ring

end BLE
