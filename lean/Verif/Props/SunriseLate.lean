import Verif.Props.Sunrise

/-!
# C132: the sunrise that is found can be late
-/

namespace BLE

/-- The sine of the declination at noon on 3 March 2000. -/
theorem march_declination : -0.1425 ≤ sunS 952084800 ∧ sunS 952084800 ≤ -0.111 := by
  have p1 := Real.pi_gt_d6
  have p2 := Real.pi_lt_d6
  have hj : sunJc 952084800 = 62 / 36525 := by unfold sunJc; norm_num
  unfold sunS
  rw [hj]
  have ho : 0.3962 ≤ Real.sin (obliquity (62 / 36525)) ∧ Real.sin (obliquity (62 / 36525)) ≤ 0.3992 := by
    have hc0 := Real.neg_one_le_cos (radians (125.04 - 1934.136 * (62 / 36525)))
    have hc1 := Real.cos_le_one (radians (125.04 - 1934.136 * (62 / 36525)))
    have ho : 0.4090 ≤ obliquity (62 / 36525) ∧ obliquity (62 / 36525) ≤ 0.4092 := by
      unfold obliquity
      generalize Real.cos (radians (125.04 - 1934.136 * (62 / 36525))) = c at *
      unfold radians
      have e : ∀ a b : ℝ, a * (Real.pi / 180) + b * (Real.pi / 180) = (a + b) * (Real.pi / 180) := fun a b => by ring
      rw [e]
      have k0 : 0.01745328 ≤ Real.pi / 180 := by norm_num at *; linarith
      have k1 : Real.pi / 180 ≤ 0.0174533 := by norm_num at *; linarith
      generalize Real.pi / 180 = q at *
      set z := 23 + (26 + (21.448 - 62 / 36525 * (46.815 + 62 / 36525 * (0.00059 - 62 / 36525 * 0.001813))) / 60) / 60 + 0.00256 * c with hz
      have z0 : 23.436 ≤ z := by rw [hz]; norm_num; linarith
      have z1 : z ≤ 23.442 := by rw [hz]; norm_num; linarith
      constructor
      · have := mul_le_mul z0 k0 (by norm_num) (by linarith)
        norm_num at *; linarith
      · have := mul_le_mul z1 k1 (by linarith) (by norm_num)
        norm_num at *; linarith
    generalize obliquity (62 / 36525) = o at *
    have hb := Real.sin_bound (x := o) (by rw [abs_of_nonneg (by linarith)]; norm_num at *; linarith)
    rw [abs_of_nonneg (a := o) (by linarith)] at hb
    have hb := abs_le.1 hb
    have c0 : 0.4090 ^ 3 ≤ o ^ 3 := pow_le_pow_left₀ (by norm_num) ho.1 3
    have c1 : o ^ 3 ≤ 0.4092 ^ 3 := pow_le_pow_left₀ (by linarith) ho.2 3
    have d1 : o ^ 5 ≤ 0.4092 ^ 5 := pow_le_pow_left₀ (by linarith) ho.2 5
    constructor <;> norm_num at * <;> linarith
  unfold sinDeclination
  simp only
  have hs1 := abs_le.1 (Real.abs_sin_le_one (meanAnomalySun (62 / 36525)))
  have hs2 := abs_le.1 (Real.abs_sin_le_one (2 * meanAnomalySun (62 / 36525)))
  have hs3 := abs_le.1 (Real.abs_sin_le_one (3 * meanAnomalySun (62 / 36525)))
  have hs4 := abs_le.1 (Real.abs_sin_le_one (radians (125.04 - 1934.136 * (62 / 36525))))
  generalize Real.sin (meanAnomalySun (62 / 36525)) = s1 at *
  generalize Real.sin (2 * meanAnomalySun (62 / 36525)) = s2 at *
  generalize Real.sin (3 * meanAnomalySun (62 / 36525)) = s3 at *
  generalize Real.sin (radians (125.04 - 1934.136 * (62 / 36525))) = s4 at *
  unfold meanLongSun
  rw [show radians (280.46646 + 62 / 36525 * (36000.76983 + 62 / 36525 * 0.0003032)) +
      radians (s1 * (1.914602 - 62 / 36525 * (0.004817 + 0.000014 * (62 / 36525))) + s2 * (0.019993 - 0.000101 * (62 / 36525)) +
        s3 * 0.000289) - radians (0.00569 - 0.00478 * s4) =
      radians (280.46646 + 62 / 36525 * (36000.76983 + 62 / 36525 * 0.0003032) +
      (s1 * (1.914602 - 62 / 36525 * (0.004817 + 0.000014 * (62 / 36525))) + s2 * (0.019993 - 0.000101 * (62 / 36525)) +
        s3 * 0.000289) - (0.00569 - 0.00478 * s4)) by unfold radians; ring]
  set A := 280.46646 + 62 / 36525 * (36000.76983 + 62 / 36525 * 0.0003032) +
      (s1 * (1.914602 - 62 / 36525 * (0.004817 + 0.000014 * (62 / 36525))) + s2 * (0.019993 - 0.000101 * (62 / 36525)) +
        s3 * 0.000289) - (0.00569 - 0.00478 * s4) with hA
  have A0 : 339.6 ≤ A := by rw [hA]; norm_num; linarith
  have A1 : A ≤ 343.55 := by rw [hA]; norm_num; linarith
  have hsin : Real.sin (radians A) = -Real.sin (radians (360 - A)) := by
    rw [show radians (360 - A) = 2 * Real.pi - radians A by unfold radians; ring, Real.sin_two_pi_sub]; ring
  rw [hsin]
  have x0 : 0.287 ≤ radians (360 - A) := by
    unfold radians
    have k0 : 0.01745328 ≤ Real.pi / 180 := by norm_num at *; linarith
    have := mul_le_mul (by linarith : (16.45 : ℝ) ≤ 360 - A) k0 (by norm_num) (by linarith)
    norm_num at *; linarith
  have x1 : radians (360 - A) ≤ 0.3561 := by
    unfold radians
    have k1 : Real.pi / 180 ≤ 0.0174533 := by norm_num at *; linarith
    have := mul_le_mul (by linarith : 360 - A ≤ 20.4) k1 (by positivity) (by norm_num)
    norm_num at *; linarith
  have y0 := DawnSeq.sin_ge (x := radians (360 - A)) (d := 0.287) (by norm_num) x0 (by norm_num at *; linarith)
  have y1 := Real.sin_le (x := radians (360 - A)) (by norm_num at *; linarith)
  generalize Real.sin (radians (360 - A)) = y at *
  generalize Real.sin (obliquity (62 / 36525)) = o at *
  have yy0 : 0.281 ≤ y := by norm_num at *; linarith
  have yy1 : y ≤ 0.3561 := by linarith
  have m0 := mul_le_mul ho.1 yy0 (by norm_num) (by norm_num at *; linarith)
  have m1 := mul_le_mul ho.2 yy1 (by norm_num at *; linarith) (by norm_num)
  constructor <;> norm_num at * <;> linarith

set_option maxHeartbeats 1000000 in
theorem arcsin_sum {x y : ℝ} (x0 : -1 ≤ x) (xa : x ≤ -0.98) (xb : 0.917 ≤ y) (y1 : y ≤ 1) (avg : x + y ≤ -0.0484) :
    Real.arcsin x + Real.arcsin y < -0.149 := by
  have p1 := Real.pi_gt_d4
  have p2 := Real.pi_lt_d4
  by_contra hn
  have hn := not_lt.1 hn
  have a0 := Real.sin_arcsin x0 (by norm_num at *; linarith)
  have b0 := Real.sin_arcsin (by norm_num at *; linarith) y1
  have a1 := Real.cos_arcsin (x)
  have b1 := Real.cos_arcsin (y)
  have aa := Real.neg_pi_div_two_le_arcsin (x)
  have ab := Real.arcsin_le_pi_div_two (x)
  have ba := Real.neg_pi_div_two_le_arcsin (y)
  have bb := Real.arcsin_le_pi_div_two (y)
  have hca : Real.cos (Real.arcsin (x)) ≤ 0.2 := by
    rw [a1, Real.sqrt_le_iff]; constructor
    · norm_num
    · norm_num at *; nlinarith
  have hcb : Real.cos (Real.arcsin (y)) ≤ 0.4 := by
    rw [b1, Real.sqrt_le_iff]; constructor
    · norm_num
    · norm_num at *; nlinarith
  have hca0 : 0 ≤ Real.cos (Real.arcsin (x)) := Real.cos_arcsin_nonneg _
  have hcb0 : 0 ≤ Real.cos (Real.arcsin (y)) := Real.cos_arcsin_nonneg _
  generalize Real.arcsin (x) = a at *
  generalize Real.arcsin (y) = b at *
  have hd := Real.cos_sub b a
  rw [a0, b0] at hd
  have hprod := mul_le_mul hcb hca hca0 (by norm_num)
  have hneg : y * x ≤ -0.898 := by
    have := mul_le_mul xb (by linarith : (0.98 : ℝ) ≤ -x) (by norm_num) (by norm_num at *; linarith)
    norm_num at *; linarith
  have hdiff : Real.cos (b - a) ≤ -0.818 := by rw [hd]; norm_num at *; linarith
  have hhalf := Real.cos_sq ((b - a) / 2)
  rw [show 2 * ((b - a) / 2) = b - a by ring] at hhalf
  have hpos : 0 ≤ Real.cos ((b - a) / 2) := Real.cos_nonneg_of_neg_pi_div_two_le_of_le (by linarith) (by linarith)
  have hsm : Real.cos ((b - a) / 2) ≤ 0.302 := by
    by_contra hbig
    have := not_le.1 hbig
    have : 0.302 * 0.302 < Real.cos ((b - a) / 2) * Real.cos ((b - a) / 2) := by
      apply mul_lt_mul'' this this <;> norm_num
    norm_num at *; nlinarith
  have hsum : Real.sin a + Real.sin b = 2 * Real.sin ((a + b) / 2) * Real.cos ((b - a) / 2) := by
    have ea : Real.sin a = Real.sin ((a + b) / 2 - (b - a) / 2) := by congr 1; ring
    have eb : Real.sin b = Real.sin ((a + b) / 2 + (b - a) / 2) := by congr 1; ring
    rw [ea, eb, Real.sin_sub, Real.sin_add]; ring
  have hsin : -0.0745 ≤ Real.sin ((a + b) / 2) := by
    rcases le_or_gt 0 ((a + b) / 2) with z | z
    · have := Real.sin_nonneg_of_nonneg_of_le_pi z (by linarith)
      norm_num at *; linarith
    · have := Real.sin_le (x := -((a + b) / 2)) (by linarith)
      rw [Real.sin_neg] at this
      norm_num at *; linarith
  rw [a0, b0] at hsum
  norm_num at *; nlinarith

set_option maxHeartbeats 2000000 in
/-- With the sun south of the equator and a place to the north of it, the first comparison of the search discards the
half-bracket in which the sun passes the sunrise elevation. -/
theorem DawnSeq.late {Q P : ℝ} {ψ X : ℤ → ℝ} {N : ℤ} (S : DawnSeq Q P ψ X N) (q0 : -0.0368 ≤ Q) (q1 : Q ≤ -0.0266)
    (hP : 0.9565 ≤ P) (hN : 238 ≤ N ∧ N ≤ 242) (h0 : |ψ 0| ≤ 0.016) (h1 : |ψ N - Real.pi| ≤ 0.016)
    (hM : Real.pi / 2 - 0.016 ≤ ψ (N / 2)) {r : ℤ} (h : Halving (fun i => |elOf (X i) - minSolarEl|) 0 N r) :
    -0.053 ≤ X r := by
  obtain ⟨n0, n1⟩ := hN
  have p1 := Real.pi_gt_d4
  have p2 := Real.pi_lt_d4
  obtain ⟨s1, s2, s3, -⟩ := S.g_start
  obtain ⟨e1, e2, e3, -⟩ := S.g_end
  have hp1 := S.hP1
  have s3 := abs_le.1 s3
  have e3 := abs_le.1 e3
  obtain ⟨-, f2, -, -, -⟩ := S.found h
  have c0 : 0.9998 ≤ Real.cos (ψ 0) := by
    rw [← Real.cos_abs]
    have := cos_ge (abs_nonneg _) h0
    norm_num at *; linarith
  have c0' := Real.cos_le_one (ψ 0)
  have cN : 0.9998 ≤ -Real.cos (ψ N) := by
    rw [← Real.cos_sub_pi, ← Real.cos_abs]
    have := cos_ge (abs_nonneg _) h1
    norm_num at *; linarith
  have cN' := Real.neg_one_le_cos (ψ N)
  -- the first comparison
  have hfirst : |elOf (X N) - minSolarEl| < |elOf (X 0) - minSolarEl| := by
    have x00 := S.hX0 0 le_rfl (by omega)
    have x01 := S.hX1 0 le_rfl (by omega)
    have xN0 := S.hX0 N (by omega) le_rfl
    have xN1 := S.hX1 N (by omega) le_rfl
    have xa : X 0 ≤ -0.98 := by norm_num at *; nlinarith
    have xb : 0.917 ≤ X N := by norm_num at *; nlinarith
    have avg : X 0 + X N ≤ -0.0484 := by norm_num at *; nlinarith
    rw [abs_of_nonneg (by norm_num at *; linarith : 0 ≤ elOf (X N) - minSolarEl), abs_of_nonpos (by norm_num at *; linarith : elOf (X 0) - minSolarEl ≤ 0)]
    have sum := arcsin_sum x00 xa xb xN1 avg
    have hdeg : degrees (Real.arcsin (X 0)) + degrees (Real.arcsin (X N)) < -8.535 := by
      unfold degrees
      rw [← add_mul]
      have hk : 57.29 ≤ 180 / Real.pi := by
        rw [le_div_iff₀ (by linarith)]; norm_num at *; linarith
      have := mul_le_mul (by linarith : (0.149 : ℝ) ≤ -(Real.arcsin (X 0) + Real.arcsin (X N))) hk (by norm_num) (by linarith)
      norm_num at *; linarith
    unfold minSolarEl at *
    norm_num at *; linarith
  -- so the search stays above the middle
  have hr : N / 2 ≤ r := by
    cases h with
    | left h hf hr => exact absurd hf (not_le.2 hfirst)
    | right h hf hr =>
      have := hr.range
      omega
    | pickLeft h hf => omega
    | pickRight h hf => omega
  have hXM : -0.053 ≤ X (N / 2) := by
    have hn := abs_le.1 (S.near (i := N / 2) (by omega) (by omega) (d := 2) (by
      have : (118 : ℝ) ≤ ((N / 2 : ℤ) : ℝ) := by exact_mod_cast (by omega : 118 ≤ N / 2)
      linarith) (by
      have : ((N / 2 : ℤ) : ℝ) ≤ 122 := by exact_mod_cast (by omega : N / 2 ≤ 122)
      linarith))
    have hc : Real.cos (ψ (N / 2)) ≤ 0.016 := by
      rcases le_or_gt (ψ (N / 2)) (Real.pi / 2) with z | z
      · rw [← Real.sin_pi_div_two_sub]
        exact (Real.sin_le (by linarith)).trans (by linarith)
      · obtain ⟨-, u2⟩ := S.phase (i := N / 2) (by omega) (by omega)
        have : ((N / 2 : ℤ) : ℝ) ≤ 121 := by exact_mod_cast (by omega : N / 2 ≤ 121)
        have := Real.cos_nonpos_of_pi_div_two_le_of_le z.le (by norm_num at *; linarith)
        linarith
    have : P * Real.cos (ψ (N / 2)) ≤ 0.016 := by
      have := scaled_le (c := 0.016) (by norm_num at hP ⊢; linarith) hp1 hc (by norm_num)
      exact this
    norm_num at *; linarith
  rcases hr.lt_or_eq with z | z
  · have := (S.climbs (i := N / 2) (j := r) (by omega) z (by omega)).1
    norm_num at *; linarith
  · rw [← z]; exact hXM

/-- 14.5° north. -/
theorem late_latitude : |degrees (Real.arcsin (1 / 4))| ≤ 15 := by
  have p1 := Real.pi_gt_d4
  have p2 := Real.pi_lt_d4
  have hs := DawnSeq.sin_ge (x := Real.pi / 12) (d := 0.2617) (by norm_num) (by norm_num at *; linarith) (by norm_num at *; linarith)
  have h : Real.arcsin (1 / 4) ≤ Real.pi / 12 := by
    rw [Real.arcsin_le_iff_le_sin ⟨by norm_num, by norm_num⟩ ⟨by linarith, by linarith⟩]
    norm_num at *; linarith
  have h0 : 0 ≤ Real.arcsin (1 / 4) := Real.arcsin_nonneg.2 (by norm_num)
  unfold degrees
  rw [abs_of_nonneg (by positivity), mul_div_assoc', div_le_iff₀ (by linarith)]
  linarith

set_option maxHeartbeats 4000000 in
/-- C132, refuted as stated: at 14.5° north on 3 March 2000 there is a longitude at which the sunrise found in the evening is late:
for the whole four minutes before it (longer than the search step of three minutes) the sun is above the sunrise elevation already. -/
theorem C132_late (cal : Calendar) (hcal : Spec.Gregorian cal) :
    ∃ (l : LatLng) (t : ℤ), |degrees l.lat| ≤ 15 ∧ |l.lng| ≤ Real.pi ∧ Spec.ClearOfCulmination l t ∧
      ∃ sunrise sunset, nextSunriseSunset (fun t => (realSun cal l t).el) (degrees l.lat) t searchDelta = .ok (sunrise, sunset) ∧
        ∀ s, sunrise - 4 * 60 * 1000000 ≤ s → s ≤ sunrise → minSolarEl < (realSun cal l s).el := by
  have hpi := Real.pi_pos
  have p1 := Real.pi_gt_d4
  have p2 := Real.pi_lt_d4
  have hh : halfDay = 43200 * 1000000 := by norm_num [halfDay, usPerSec]
  have hu : usPerDay = 86400 * 1000000 := by norm_num [usPerDay, usPerSec]
  obtain ⟨k, hk⟩ := phase_turn (-(Real.pi / 2) - (2 * Real.pi * ((952084800 : ℝ) / 86400) + eqTime (sunJc 952084800)))
  set l : LatLng := ⟨Real.arcsin (1 / 4), -(Real.pi / 2) - (2 * Real.pi * ((952084800 : ℝ) / 86400) + eqTime (sunJc 952084800)) - 2 * Real.pi * k⟩ with hldef
  set t : ℤ := 952084800 * 1000000 with ht
  have hl : |degrees l.lat| ≤ 15 := late_latitude
  have hle := nearEquator_of_degrees hl
  set σ : ℝ := 952084800 with hσ
  have hts : ((t / 1000000 : ℤ) : ℝ) = σ := by rw [ht, hσ]; norm_num
  have hφ : sunPhi l.lng σ = -(Real.pi / 2) + 2 * Real.pi * ((-k : ℤ) : ℝ) := by
    unfold sunPhi
    rw [hldef]
    push_cast
    ring
  generalize hk' : -k = k' at hφ
  have hsin : Real.sin (sunPhi l.lng σ) = -1 := by
    rw [(turn_cos _ k').2, hφ, add_sub_cancel_right, Real.sin_neg, Real.sin_pi_div_two]
  have hclear : Spec.ClearOfCulmination l t := by
    unfold Spec.ClearOfCulmination
    rw [hts, hsin]; norm_num
  refine ⟨l, t, hl, hk, hclear, ?_⟩
  obtain ⟨sunrise, sunset, hr, ⟨w1, w2⟩, -, -⟩ := C101_sunrise_found cal hcal l (by linarith) t (by rw [ht]; norm_num) (by rw [ht]; norm_num)
  refine ⟨sunrise, sunset, hr, ?_⟩
  have era : ∀ s : ℝ, -172800 ≤ s → s ≤ 500000 → InEra (σ + s) := fun s q0 q1 => ⟨by rw [hσ]; linarith, by rw [hσ]; linarith⟩
  have step : ∀ s i : ℤ, -172800 ≤ s + 180 * i → s + 180 * i ≤ 500000 →
      (realSun cal l (t + s * 1000000 + 180000000 * i)).el = sunEl l (σ + s + 180 * i) := by
    intro s i q0 q1
    rw [← hts]
    exact realSun_step cal hcal l t s i (by rw [ht]; omega) (by rw [ht]; omega)
  obtain ⟨-, noon, midnight, sr, ss, hn, hm, ha, -, hrr⟩ := nextSunriseSunset_ok hr
  simp only [Prod.mk.injEq] at hrr
  obtain ⟨r1, -⟩ := hrr
  have i0 : InEra σ := by simpa using era 0 (by norm_num) (by norm_num)
  have i1 : InEra (σ + 1) := era 1 (by norm_num) (by norm_num)
  have el0 : (realSun cal l t).el = sunEl l σ := by simpa using step 0 0 (by norm_num) (by norm_num)
  have el1 : (realSun cal l (t + 1000000)).el = sunEl l (σ + 1) := by simpa using step 1 0 (by norm_num) (by norm_num)
  have haft : isAfternoon (fun t => (realSun cal l t).el) t = true := by
    unfold isAfternoon
    have := afternoon_sinks hle.tropical i0 i1 (by rw [hsin]; norm_num)
    rw [decide_eq_true_iff]
    show (realSun cal l (t + 1000000)).el < (realSun cal l t).el
    rw [el0, el1]; exact this
  unfold nextNoon at hn
  unfold nextMidnight at hm
  simp only [haft, if_true, hh] at hn hm
  obtain ⟨hsr, -⟩ := ha haft
  -- the hour angle in steps
  have ph : ∀ i : ℤ, 0 ≤ i → i ≤ 700 → |sunPhi l.lng (σ + 180 * i) - 2 * Real.pi * k' + Real.pi / 2 - Real.pi / 240 * i| ≤ 7.2e-6 * i := by
    intro i q0 q1
    have q0' : (0 : ℝ) ≤ i := by exact_mod_cast q0
    have q1' : (i : ℝ) ≤ 700 := by exact_mod_cast q1
    have := phi_steps l.lng (σ := σ) (τ := σ + 180 * i) i0 (era _ (by linarith) (by linarith)) (n := i) rfl q0'
    rw [hφ] at this
    convert this using 2; ring
  have half := abs_le.1 (ph 240 (by norm_num) (by norm_num))
  push_cast at half
  norm_num at half
  -- midnight
  obtain ⟨rm, em, m0, m1⟩ : ∃ rm : ℤ, midnight = t + 180000000 * rm ∧ 119 ≤ rm ∧ rm ≤ 121 := by
    rw [show t + 43200 * 1000000 = t + 180000000 * 240 by ring] at hm
    obtain ⟨-, r, hx, hH⟩ := findSolar_halving hm
    have hrange := hH.range
    have pm := culmination hle (s := 1) (m := 2 * Real.pi * k') (Or.inl rfl) (fun y => by rw [one_mul]; exact (turn_cos y k').1)
      i0 (era _ (by norm_num) (by norm_num)) (by rw [hφ]; norm_num at *; linarith) (by rw [hφ]; norm_num at *; linarith)
      (hH.congr fun i w0 w1 => by
        have := step 0 i (by omega) (by omega)
        rw [zero_mul, add_zero] at this
        rw [this, one_mul]; push_cast; rw [add_zero])
    have pm := abs_le.1 pm
    have pr := abs_le.1 (ph r hrange.1 (by omega))
    refine ⟨r, hx, ?_, ?_⟩
    · by_contra hc
      have : (r : ℝ) ≤ 118 := by exact_mod_cast (by omega : r ≤ 118)
      norm_num at pm pr; nlinarith
    · by_contra hc
      have : (122 : ℝ) ≤ r := by exact_mod_cast (by omega : 122 ≤ r)
      have : (r : ℝ) ≤ 240 := by exact_mod_cast hrange.2
      norm_num at pm pr; nlinarith
  -- noon
  obtain ⟨rn, en, n0, n1⟩ : ∃ rn : ℤ, noon = t + 180000000 * (240 + rn) ∧ 119 ≤ rn ∧ rn ≤ 121 := by
    rw [show t + 2 * (43200 * 1000000) = t + 43200 * 1000000 + 180000000 * 240 by ring] at hn
    obtain ⟨-, r, hx, hH⟩ := findSolar_halving hn
    have hrange := hH.range
    have pm := culmination hle (σ := σ + 43200) (s := -1) (m := 2 * Real.pi * k' + Real.pi) (Or.inr rfl) (fun y => half_turn_cos y k')
      (era _ (by norm_num) (by norm_num)) (by rw [add_assoc]; exact era _ (by norm_num) (by norm_num)) (by norm_num; linarith [half.1, half.2]) (by norm_num; linarith [half.1, half.2])
      (hH.congr fun i w0 w1 => by
        have := step 43200 i (by omega) (by omega)
        rw [this]; push_cast; ring)
    have pm := abs_le.1 pm
    have pr := abs_le.1 (ph (240 + r) (by omega) (by omega))
    push_cast at pr
    rw [show σ + 180 * (240 + (r : ℝ)) = σ + 43200 + 180 * r by ring] at pr
    refine ⟨r, by rw [hx]; ring, ?_, ?_⟩
    · by_contra hc
      have : (r : ℝ) ≤ 118 := by exact_mod_cast (by omega : r ≤ 118)
      norm_num at pm pr; nlinarith
    · by_contra hc
      have : (122 : ℝ) ≤ r := by exact_mod_cast (by omega : 122 ≤ r)
      have : (r : ℝ) ≤ 240 := by exact_mod_cast hrange.2
      norm_num at pm pr; nlinarith
  rw [em, en, show t + 180000000 * (240 + rn) = t + 180000000 * rm + 180000000 * (240 + rn - rm) by ring] at hsr
  obtain ⟨-, r, hx, hH⟩ := findSolar_halving hsr
  have hrange := hH.range
  have m0' : (119 : ℝ) ≤ rm := by exact_mod_cast m0
  have m1' : (rm : ℝ) ≤ 121 := by exact_mod_cast m1
  have n0' : (119 : ℝ) ≤ rn := by exact_mod_cast n0
  have n1' : (rn : ℝ) ≤ 121 := by exact_mod_cast n1
  have ph0 := abs_le.1 (ph rm (by omega) (by omega))
  have phN := abs_le.1 (ph (240 + rn) (by omega) (by omega))
  have phM := abs_le.1 (ph (rm + (240 + rn - rm) / 2) (by omega) (by omega))
  have hmid : (239 : ℝ) ≤ ((rm + (240 + rn - rm) / 2 : ℤ) : ℝ) := by exact_mod_cast (by omega : 239 ≤ rm + (240 + rn - rm) / 2)
  have hmid' : ((rm + (240 + rn - rm) / 2 : ℤ) : ℝ) ≤ 242 := by exact_mod_cast (by omega : rm + (240 + rn - rm) / 2 ≤ 242)
  have S := dawnSeq_of_sun hle (σ := σ + 180 * rm) (m := 2 * Real.pi * k') (ε := 1) (N := 240 + rn - rm) (Or.inl rfl)
    (fun x => (turn_cos x k').1) (by omega) (by omega) (by
      intro i w0 w1
      have w0' : (0 : ℝ) ≤ i := by exact_mod_cast w0
      have w1' : (i : ℝ) ≤ 480 := by exact_mod_cast w1
      rw [one_mul, add_assoc]; exact era _ (by linarith) (by linarith)) (by
      rw [abs_le]; norm_num at ph0 ⊢; constructor <;> nlinarith) (by
      push_cast at phN ⊢
      rw [one_mul, show σ + 180 * (rm : ℝ) + 180 * (240 + (rn : ℝ) - rm) = σ + 180 * (240 + rn) by ring, one_mul]
      rw [abs_le]; norm_num at phN ⊢; constructor <;> nlinarith)
  have iq : InEra (σ + 180 * rm + 1 * (180 * ((120 : ℤ) : ℝ))) := by
    push_cast; rw [add_assoc]; exact era _ (by linarith) (by linarith)
  have sl : Real.sin l.lat = 1 / 4 := Real.sin_arcsin (by norm_num) (by norm_num)
  have cl : 0.968 ≤ Real.cos l.lat := by
    show 0.968 ≤ Real.cos (Real.arcsin (1 / 4))
    rw [Real.cos_arcsin]
    exact Real.le_sqrt_of_sq_le (by norm_num)
  have hS : -0.1469 ≤ sunS (σ + 180 * rm + 1 * (180 * ((120 : ℤ) : ℝ))) ∧ sunS (σ + 180 * rm + 1 * (180 * ((120 : ℤ) : ℝ))) ≤ -0.1066 := by
    have d := sunS_rate iq.1 iq.2 i0.1 i0.2
    rw [show σ + 180 * (rm : ℝ) + 1 * (180 * ((120 : ℤ) : ℝ)) - σ = 180 * rm + 21600 by push_cast; ring,
      abs_of_nonneg (a := 180 * (rm : ℝ) + 21600) (by linarith)] at d
    have d := abs_le.1 d
    have := march_declination
    constructor <;> norm_num at this d ⊢ <;> linarith
  have hPlow : 0.9565 ≤ sunP l (σ + 180 * rm + 1 * (180 * ((120 : ℤ) : ℝ))) := by
    unfold sunP
    have : 0.9885 ≤ Real.sqrt (1 - sunS (σ + 180 * rm + 1 * (180 * ((120 : ℤ) : ℝ))) ^ 2) := by
      apply Real.le_sqrt_of_sq_le
      generalize sunS (σ + 180 * rm + 1 * (180 * ((120 : ℤ) : ℝ))) = S at hS
      norm_num at hS ⊢; nlinarith
    have := mul_le_mul cl this (by norm_num) (by norm_num at cl ⊢; linarith)
    norm_num at this ⊢; linarith
  have qlow : ∀ z : ℝ, -0.1469 ≤ z → -0.0368 ≤ 1 / 4 * z := fun z h => by norm_num at h ⊢; linarith
  have qhigh : ∀ z : ℝ, z ≤ -0.1066 → 1 / 4 * z ≤ -0.0266 := fun z h => by norm_num at h ⊢; linarith
  have late := S.late (r := r) (by rw [sl]; exact qlow _ hS.1) (by rw [sl]; exact qhigh _ hS.2) hPlow
    (by omega) (by
      simp only [Int.cast_zero, mul_zero, add_zero, one_mul]
      rw [abs_le]; norm_num at ph0 ⊢; constructor <;> nlinarith) (by
      push_cast at phN ⊢
      simp only [one_mul]
      rw [show σ + 180 * (rm : ℝ) + 180 * (240 + (rn : ℝ) - rm) = σ + 180 * (240 + rn) by ring]
      rw [abs_le]; norm_num at phN ⊢; constructor <;> nlinarith) (by
      simp only [one_mul]
      rw [Int.cast_add] at hmid hmid' phM
      rw [show σ + 180 * (rm : ℝ) + 180 * (((240 + rn - rm) / 2 : ℤ) : ℝ) = σ + 180 * ((rm : ℝ) + (((240 + rn - rm) / 2 : ℤ) : ℝ)) by ring]
      generalize (rm : ℝ) + (((240 + rn - rm) / 2 : ℤ) : ℝ) = z at *
      norm_num at phM ⊢; nlinarith) (by
      refine hH.congr fun i w0 w1 => ?_
      have := step (180 * rm) i (by omega) (by omega)
      rw [show t + 180 * rm * 1000000 + 180000000 * i = t + 180000000 * rm + 180000000 * i by ring] at this
      rw [this]
      simp only [one_mul]
      push_cast
      rfl)
  simp only [one_mul] at late
  intro s s0 s1
  have hsr' : sunrise = t + (180 * rm + 180 * r) * 1000000 := by
    rw [r1]
    have : ¬ sr < t := by rw [hx]; omega
    rw [if_neg this, hx]; ring
  have i2 : InEra (σ + 180 * rm + 180 * r) := by
    have q0 : (0 : ℝ) ≤ r := by exact_mod_cast hrange.1
    have q1 : (r : ℝ) ≤ 480 := by exact_mod_cast (by omega : r ≤ 480)
    rw [add_assoc]; exact era _ (by linarith) (by linarith)
  obtain ⟨u, u0, u1, hs⟩ : ∃ u : ℤ, 0 ≤ u ∧ u ≤ 240 ∧ s / 1000000 = 952084800 + 180 * rm + 180 * r - u := by
    refine ⟨952084800 + 180 * rm + 180 * r - s / 1000000, ?_, ?_, by ring⟩ <;> rw [hsr', ht] at s0 s1 <;> omega
  have u0' : (0 : ℝ) ≤ u := by exact_mod_cast u0
  have u1' : (u : ℝ) ≤ 240 := by exact_mod_cast u1
  rw [realSun_el cal hcal l s (by rw [hsr', ht] at s0; omega) (by rw [hsr', ht] at s1; omega), hs]
  have eσ : ((952084800 + 180 * rm + 180 * r - u : ℤ) : ℝ) = σ + 180 * rm + 180 * r - u := by push_cast; rw [hσ]
  rw [eσ]
  have i3 : InEra (σ + 180 * rm + 180 * r - u) := by
    have q0 : (0 : ℝ) ≤ r := by exact_mod_cast hrange.1
    have := i2.2
    refine ⟨?_, by linarith⟩
    rw [hσ]; linarith
  have d := sunX_diff hle.tropical i3 i2
  have rt := sunPhi_rate l.lng i3.1 i3.2 i2.1 i2.2
  rw [show σ + 180 * (rm : ℝ) + 180 * r - u - (σ + 180 * rm + 180 * r) = -u by ring, abs_neg, abs_of_nonneg u0'] at d rt
  obtain ⟨z0, z1⟩ := sunX_range l hle.tropical i3
  obtain ⟨-, b2, b3⟩ := nearEquator_amp hle i2
  generalize sunX l (σ + 180 * rm + 180 * r) = xr at *
  have hc := Real.abs_cos_sub_cos_le (sunPhi l.lng (σ + 180 * rm + 180 * r)) (sunPhi l.lng (σ + 180 * rm + 180 * r - u))
  have hc' : |Real.cos (sunPhi l.lng (σ + 180 * rm + 180 * r)) - Real.cos (sunPhi l.lng (σ + 180 * rm + 180 * r - u))| ≤ 0.0175 := by
    refine hc.trans ?_
    have rt := abs_le.1 rt
    rw [abs_le]; constructor <;> norm_num at rt ⊢ <;> nlinarith
  have low : -0.0706 ≤ sunX l (σ + 180 * rm + 180 * r - u) := by
    have hPn : 0 ≤ sunP l (σ + 180 * rm + 180 * r) := by norm_num at b2 ⊢; linarith
    have hc' := abs_le.1 hc'
    have q := DawnSeq.scaled_le (c := 0.0175) hPn b3 (by linarith [hc'.1] :
      -(Real.cos (sunPhi l.lng (σ + 180 * rm + 180 * r)) - Real.cos (sunPhi l.lng (σ + 180 * rm + 180 * r - u))) ≤ 0.0175) (by norm_num)
    rw [mul_neg] at q
    have d := abs_le.1 d
    norm_num at d q late ⊢; linarith
  generalize sunX l (σ + 180 * rm + 180 * r - u) = x at *
  have g := (elOf_geo x).1
  unfold elOf at g
  refine lt_of_lt_of_le ?_ g
  rcases le_or_gt 0 x with q | q
  · have := (deg_of_sine z0 z1).1 0 le_rfl q
    unfold minSolarEl
    norm_num at this ⊢; linarith
  · have := abs_le.1 ((deg_of_sine z0 z1).2.2.1 0.0706 (by norm_num) (by norm_num) (abs_le.2 ⟨low, by norm_num at q ⊢; linarith⟩))
    unfold minSolarEl
    norm_num at this ⊢; linarith

/-- On the equator at 80° west, at noon UTC on 1 January 2000: morning, well clear of noon. -/
theorem clear_example : Spec.ClearOfCulmination ⟨0, -1.4⟩ (946728000 * 1000000) := by
  have p1 := Real.pi_gt_d4
  have e := abs_le.1 (lip_eqTime _ _ (sunJc_range (σ := 946728000) (by norm_num) (by norm_num)) (sunJc_range (σ := 946728000) (by norm_num) (by norm_num))).1
  unfold Spec.ClearOfCulmination sunPhi
  rw [show ((946728000 * 1000000 / 1000000 : ℤ) : ℝ) = 946728000 by norm_num]
  generalize eqTime (sunJc 946728000) = x at *
  rw [show 2 * Real.pi * ((946728000 : ℝ) / 86400) + x + -1.4 = -(1.4 - x) + Real.pi + (10957 : ℤ) * (2 * Real.pi) by push_cast; ring,
    Real.sin_add_int_mul_two_pi, Real.sin_add_pi, Real.sin_neg, neg_neg]
  have := DawnSeq.sin_ge (x := 1.4 - x) (d := 0.25) (by norm_num) (by norm_num at *; linarith) (by norm_num at *; linarith)
  rw [abs_of_nonneg (by norm_num at *; linarith)]; norm_num at *; linarith

example : Spec.ClearOfCulmination ⟨0, -1.4⟩ (946728000 * 1000000) := by
  have p1 := Real.pi_gt_d4
  have e := abs_le.1 (lip_eqTime _ _ (sunJc_range (σ := 946728000) (by norm_num) (by norm_num)) (sunJc_range (σ := 946728000) (by norm_num) (by norm_num))).1
  unfold Spec.ClearOfCulmination sunPhi
  rw [show ((946728000 * 1000000 / 1000000 : ℤ) : ℝ) = 946728000 by norm_num]
  generalize eqTime (sunJc 946728000) = x at *
  rw [show 2 * Real.pi * ((946728000 : ℝ) / 86400) + x + -1.4 = -(1.4 - x) + Real.pi + (10957 : ℤ) * (2 * Real.pi) by push_cast; ring,
    Real.sin_add_int_mul_two_pi, Real.sin_add_pi, Real.sin_neg, neg_neg]
  have h := DawnSeq.sin_ge (x := Real.pi - (1.4 - x)) (d := 0.25) (by norm_num)
  rw [Real.sin_pi_sub] at h
  rcases le_or_gt (1.4 - x) 1.57 with q | q
  · have := DawnSeq.sin_ge (x := 1.4 - x) (d := 0.25) (by norm_num) (by norm_num at *; linarith) q
    rw [abs_of_nonneg (by norm_num at *; linarith)]; norm_num at *; linarith
  · have := DawnSeq.sin_ge (x := Real.pi - (1.4 - x)) (d := 0.25) (by norm_num) (by norm_num at *; linarith) (by norm_num at *; linarith [Real.pi_lt_d4])
    rw [Real.sin_pi_sub] at this
    rw [abs_of_nonneg (by norm_num at *; linarith)]; norm_num at *; linarith

example : ∃ sunrise sunset, nextSunriseSunset (fun t => (realSun gregorian ⟨0, -1.4⟩ t).el) (degrees 0) (946728000 * 1000000) searchDelta =
      .ok (sunrise, sunset) ∧ -7 ≤ (realSun gregorian ⟨0, -1.4⟩ sunrise).el ∧ 0 ≤ (realSun gregorian ⟨0, -1.4⟩ (sunset - 30 * 60 * 1000000)).el := by
  obtain ⟨a, b, h, -⟩ := C101_sunrise_found gregorian gregorian_ok ⟨0, -1.4⟩ (by simp [degrees]) (946728000 * 1000000) (by norm_num) (by norm_num)
  have := C132_found_partial gregorian gregorian_ok ⟨0, -1.4⟩ (by simp [degrees]) (946728000 * 1000000) (by norm_num) (by norm_num) clear_example a b h
  exact ⟨a, b, h, this.1.1.1, this.2.2.2⟩

end BLE
