import Verif.Props.Observable

/-!
# C103: no episode starts outside the safe superpressure band
-/

namespace BLE

/-- Between 50,000 ft and 6,500 Pa the air is at least 176.7 K warm. -/
theorem start_air_warm {α p : ℝ} {v : AtmVals} (h0 : 0 ≤ α) (h1 : α ≤ 1) (hv : atPressure α p = .ok v)
    (hp : 6500 ≤ p) (hh : 15240 ≤ v.height) : 176.7 ≤ v.temperature := by
  obtain ⟨e, r⟩ := C43_pressure_roundtrip α h0 h1 p v hv
  have hat2 := atHeight_eq (α := α) (h := 19400) (i := 1) (by norm_num) (by norm_num [hTrans]) (by norm_num [hTrans])
  have hhi : v.height ≤ 19400 := by
    by_contra hc
    have := (C44_higher_is_thinner α h0 h1 _ _ _ _ hat2 r (not_le.1 hc)).1
    simp only at this
    linarith [pressure_19400 h0 h1]
  rcases lt_or_ge v.height 17000 with hc | hc
  · have hat := atHeight_eq (α := α) (h := v.height) (i := 0) (by norm_num) (by norm_num [hTrans]; linarith)
      (by norm_num [hTrans]; exact hc)
    rw [hat] at r
    injection r with r
    rw [← r]
    norm_num [layerT, tTrans, lapse, lapseLow, lapseHigh, hTrans]
    nlinarith
  · have hat := atHeight_eq (α := α) (h := v.height) (i := 1) (by norm_num) (by norm_num [hTrans]; exact hc)
      (by norm_num [hTrans]; linarith)
    rw [hat] at r
    injection r with r
    rw [← r]
    norm_num [layerT, tTrans, lapse, lapseLow, lapseHigh, hTrans]
    nlinarith

/-- The lowest layer ends below 9,500 Pa. -/
theorem tropopause_pressure {α : ℝ} (h0 : 0 ≤ α) (h1 : α ≤ 1) : pTrans α 1 < 9500 := by
  have s1 := layerP_midpoint h0 h1 (i := 0) (by norm_num) (by norm_num) (h := -610) (h' := 8195)
    (by norm_num [hTrans]) (by norm_num) (by norm_num [hTrans]) 274.47
    (by norm_num [layerT, tTrans, hTrans, lapse, lapseLow, lapseHigh]; linarith)
  have s2 := layerP_midpoint h0 h1 (i := 0) (by norm_num) (by norm_num) (h := 8195) (h' := 17000)
    (by norm_num [hTrans]) (by norm_num) (by norm_num [hTrans]) 223.5
    (by norm_num [layerT, tTrans, hTrans, lapse, lapseLow, lapseHigh]; linarith)
  have e0 : layerP α 0 (-610) = 108870.8213 := layerP_start h0 h1 (i := 0) (by norm_num)
  have e1 : layerP α 0 17000 = pTrans α 1 := layerP_end α 0
  rw [e0] at s1
  rw [e1] at s2
  have hP := pTrans_pos h0 h1 (i := 1) (by norm_num)
  rw [← Real.log_lt_log_iff hP (by norm_num)]
  have hg : (0.034163 : ℝ) ≤ gravity / airRs := by norm_num [gravity, airRs, gasR, airM]
  have hsum : (2.44 : ℝ) ≤ gravity / airRs * ((8195 - -610) / 274.47) + gravity / airRs * ((17000 - 8195) / 223.5) := by
    rw [← mul_add]
    refine le_trans ?_ (mul_le_mul_of_nonneg_right hg (by norm_num))
    norm_num
  have hfin : Real.log 108870.8213 < Real.log 9500 + 2.44 := by
    have : Real.log 11.4601 < 2.44 := by
      rw [Real.log_lt_iff_lt_exp (by norm_num)]
      have e1 : Real.exp 2.44 ^ 25 = Real.exp 1 ^ 61 := by
        rw [← Real.exp_nat_mul, ← Real.exp_nat_mul]; norm_num
      have e2 : (11.4601 : ℝ) ^ 25 < Real.exp 1 ^ 61 := by
        calc (11.4601 : ℝ) ^ 25 < (2.7182818283 : ℝ) ^ 61 := by norm_num
          _ ≤ _ := pow_le_pow_left₀ (by norm_num) Real.exp_one_gt_d9.le _
      rw [← e1] at e2
      exact lt_of_pow_lt_pow_left₀ 25 (Real.exp_pos _).le e2
    have h2 : Real.log 9500 + Real.log 11.4601 = Real.log (9500 * 11.4601) :=
      (Real.log_mul (by norm_num) (by norm_num)).symm
    have h3 : Real.log 108870.8213 < Real.log (9500 * 11.4601) := Real.log_lt_log (by norm_num) (by norm_num)
    linarith
  linarith

/-- Temperature in the lowest layer from the pressure, in the coldest blend. -/
theorem low_layer_warm {α p q τ : ℝ} {v : AtmVals} (h0 : 0 ≤ α) (h1 : α ≤ 1) (hv : atPressure α p = .ok v)
    (hq : 9500 ≤ q) (hp : q ≤ p) (hτ : 0 ≤ τ) (h : (τ / 300) ^ 200 ≤ (q / 108870.8213) ^ 41) : τ ≤ v.temperature := by
  obtain ⟨i, hi, l1, l2, rfl⟩ := atPressure_ok hv
  have hi0 : i = 0 := by
    by_contra hc
    have := pTrans_antitone h0 h1 (i := 1) (j := i) (by omega) (by omega)
    linarith [tropopause_pressure h0 h1]
  subst hi0
  have e0 : pTrans α 0 = 108870.8213 := rfl
  have hT : layerT α 0 (layerH α 0 p) = 300 * (p / 108870.8213) ^ (-airRs * lapse α 0 / gravity) := by
    have hL := lapse_ne_zero h0 h1 (i := 0) (by norm_num) (by norm_num)
    unfold layerT layerH
    rw [if_neg hL, e0]
    have : tTrans α 0 = 300 := rfl
    rw [this]
    field_simp
    ring
  simp only
  rw [hT]
  rw [e0] at l2
  have r0 : 0 < p / 108870.8213 := by apply div_pos; linarith; norm_num
  have r1 : p / 108870.8213 ≤ 1 := by rw [div_le_one (by norm_num)]; exact l2
  have hβ : -airRs * lapse α 0 / gravity ≤ 0.205 := by
    rw [div_le_iff₀ gravity_pos]
    norm_num [airRs, gasR, airM, gravity, lapse, lapseLow, lapseHigh]
    linarith
  have g1 : (p / 108870.8213) ^ (0.205 : ℝ) ≤ (p / 108870.8213) ^ (-airRs * lapse α 0 / gravity) :=
    Real.rpow_le_rpow_of_exponent_ge r0 r1 hβ
  have g2 : τ / 300 ≤ (p / 108870.8213) ^ (0.205 : ℝ) := by
    have hq' : q / 108870.8213 ≤ p / 108870.8213 := div_le_div_of_nonneg_right hp (by norm_num)
    have hpow : (q / 108870.8213) ^ 41 ≤ (p / 108870.8213) ^ 41 :=
      pow_le_pow_left₀ (div_nonneg (by linarith) (by norm_num)) hq' 41
    have e1 : ((p / 108870.8213) ^ (0.205 : ℝ)) ^ 200 = (p / 108870.8213) ^ 41 := by
      rw [← Real.rpow_natCast, ← Real.rpow_mul r0.le, ← Real.rpow_natCast]
      norm_num
    have : (τ / 300) ^ 200 ≤ ((p / 108870.8213) ^ (0.205 : ℝ)) ^ 200 := by rw [e1]; exact h.trans hpow
    exact le_of_pow_le_pow_left₀ (by norm_num) (Real.rpow_nonneg r0.le _) this
  have : τ / 300 * 300 = τ := by field_simp
  linarith

/-- Superpressure of the stock balloon floating between two pressures in air warmer than `τ`. -/
theorem float_safe_band {sun : Sun} (hsun : Spec.SolarSun sun) {α p : ℝ} {v : AtmVals} {s : BState}
    (hs : Spec.StockVehicle s) (hv : atPressure α p = .ok v) (hu : 225 ≤ s.upwelling) (hu' : s.upwelling ≤ 315)
    {P Q τ x ν : ℝ} (hP : 6500 ≤ P) (hp : P ≤ p) (hQ : p ≤ Q) (hQ' : Q ≤ 13000) (hτ : 176.7 ≤ τ) (hT : τ ≤ v.temperature)
    (hT' : v.temperature ≤ 210) (hx : 1 ≤ x) (hx' : x ≤ 43) (hR : 213 ≤ τ + x) (hν : 0 ≤ ν)
    (hν4 : ν ^ 4 ≤ 3.28e11 * P ^ 2 * x) (hbal : 27.2 ≤ 5.98e-6 * (530 + 0.457 * ν) * x + radiated (τ + x))
    (hfin : ∀ q, P ≤ q → q ≤ Q → (q * 1804 + 2726 * 210) * (1 + (x + 0.5) / τ) ≤ (q + 2129) * 1846.36) :
    ∃ sp, floatSp sun α s p = .ok sp ∧ 250 ≤ sp ∧ sp < 2130 := by
  have hrad : radiated (τ + x) ≤ radiated (v.temperature + x) := by
    have b := radiated_slope (x := τ + x) (y := v.temperature + x) (by linarith) (by linarith) (by linarith)
    have c : 0 ≤ v.temperature + x - (τ + x) := by linarith
    linarith
  obtain ⟨t, l1, l2, he⟩ := float_temperature hsun hs hv (hτ.trans hT) (by norm_num at *; linarith) (δ := 0.4)
    (by norm_num) le_rfl (by norm_num at *; linarith) (by linarith) hu hu' (by linarith : 0 ≤ P) hp hx hx' (by linarith) hν hν4
    (by linarith)
  have hTp : 0 < v.temperature := by linarith
  have htp : 0 < t := by norm_num at *; linarith
  have hair : 0 ≤ stableMolsAir p 1804 68.5 92.5 6830 v.temperature := le_max_right _ _
  have hb := C14_solves 6830 (stableMolsAir p 1804 68.5 92.5 6830 v.temperature) t p 1804 0.0199 (by linarith) htp
    (by linarith) (by norm_num) (by norm_num)
  obtain ⟨g1, g2⟩ := float_gas (p := p) (T := v.temperature) (t := t) hTp (by linarith) htp.le
  refine ⟨_, he, ?_⟩
  generalize (superpressureAndVolume 6830 (stableMolsAir p 1804 68.5 92.5 6830 v.temperature) t p 1804 0.0199) = vs at *
  generalize (6830 : ℝ) + stableMolsAir p 1804 68.5 92.5 6830 v.temperature = n at *
  have u1 : 1 + 0.4 / 210 ≤ t / v.temperature := by
    rw [le_div_iff₀ hTp]
    norm_num at *; linarith
  have u2 : t / v.temperature ≤ 1 + (x + 0.5) / τ := by
    rw [div_le_iff₀ hTp]
    have : (x + 0.5) ≤ (x + 0.5) / τ * v.temperature := by
      rw [div_mul_eq_mul_div, le_div_iff₀ (by linarith)]
      exact mul_le_mul_of_nonneg_left hT (by linarith)
    linarith
  have lo : (p + 250) * 1808.975 ≤ n * 8.3144621 * t := by
    refine le_trans ?_ g1
    have w := mul_le_mul_of_nonneg_left u1 (show 0 ≤ p * 1804 by linarith)
    norm_num at w l1 hτ ⊢
    linarith
  have hi : n * 8.3144621 * t ≤ (p + 2129) * 1846.36 := by
    refine g2.trans (le_trans ?_ (hfin p hp hQ))
    have w : 2726 * t = 2726 * v.temperature * (t / v.temperature) := by field_simp
    rw [w, ← add_mul]
    exact mul_le_mul (by linarith) u2 (div_nonneg htp.le hTp.le) (by linarith)
  obtain ⟨a, b, c⟩ := hb.2 (by norm_num at lo ⊢; linarith)
  rw [b] at c
  generalize n * 8.3144621 * t = N at *
  constructor
  · by_contra hc
    have hc := not_le.1 hc
    have : (p + vs.2) * (1804 + 0.0199 * vs.2) < (p + 250) * (1804 + 0.0199 * 250) :=
      mul_lt_mul (by linarith) (by linarith) (by positivity) (by linarith)
    norm_num at *; linarith
  · by_contra hc
    have hc := not_lt.1 hc
    have : (p + 2130) * (1804 + 0.0199 * 2130) ≤ (p + vs.2) * (1804 + 0.0199 * vs.2) :=
      mul_le_mul (by linarith) (by linarith) (by positivity) (by linarith)
    norm_num at *; linarith

/-- C103. The stock balloon, floating in equilibrium anywhere between the altitude floor (50,000 ft) and 6,500 Pa, at any
time and place and with any upwelling radiation the environment draws, is inside the band that the envelope safety
layer calls nominal: its superpressure is at least 250 Pa and less than 2,130 Pa (the burst limit less 250 Pa). -/
theorem C103_float_is_safe (sun : Sun) (hsun : Spec.SolarSun sun) (α : ℝ) (h0 : 0 ≤ α) (h1 : α ≤ 1) (s : BState)
    (hs : Spec.StockVehicle s) (hu : 225 ≤ s.upwelling) (hu' : s.upwelling ≤ 315) (p : ℝ) (hp : 6500 ≤ p) (v : AtmVals)
    (hv : atPressure α p = .ok v) (hh : 15240 ≤ v.height) :
    ∃ sp, floatSp sun α s p = .ok sp ∧ 250 ≤ sp ∧ sp < 2130 := by
  obtain ⟨a1, a2⟩ := start_air h0 h1 hv hp hh
  have a3 := start_air_warm h0 h1 hv hp hh
  rcases le_or_gt p 8500 with c1 | c1
  · refine float_safe_band hsun hs hv hu hu' (P := 6500) (Q := 8500) (τ := 176.7) (x := 38.5) (ν := 151900) le_rfl hp c1
      (by norm_num) le_rfl a3 a1 (by norm_num) (by norm_num) (by norm_num) (by norm_num) (by norm_num) ?_ ?_
    · rw [radiated_poly]; norm_num [stefanBoltzmann]
    · intro q q1 q2; norm_num; linarith
  rcases le_or_gt p 9500 with c2 | c2
  · refine float_safe_band hsun hs hv hu hu' (P := 8500) (Q := 9500) (τ := 176.7) (x := 36.5) (ν := 171000) (by norm_num)
      c1.le c2 (by norm_num) le_rfl a3 a1 (by norm_num) (by norm_num) (by norm_num) (by norm_num) (by norm_num) ?_ ?_
    · rw [radiated_poly]; norm_num [stefanBoltzmann]
    · intro q q1 q2; norm_num; linarith
  rcases le_or_gt p 10900 with c3 | c3
  · have a4 := low_layer_warm (τ := 181.7) h0 h1 hv le_rfl c2.le (by norm_num) (by norm_num)
    refine float_safe_band hsun hs hv hu hu' (P := 9500) (Q := 10900) (τ := 181.7) (x := 33.3) (ν := 177100) (by norm_num)
      c2.le c3 (by norm_num) (by norm_num) a4 a1 (by norm_num) (by norm_num) (by norm_num) (by norm_num) (by norm_num) ?_ ?_
    · rw [radiated_poly]; norm_num [stefanBoltzmann]
    · intro q q1 q2; norm_num; linarith
  rcases le_or_gt p 12500 with c4 | c4
  · have a4 := low_layer_warm (τ := 187) h0 h1 hv (by norm_num) c3.le (by norm_num) (by norm_num)
    refine float_safe_band hsun hs hv hu hu' (P := 10900) (Q := 12500) (τ := 187) (x := 30.4) (ν := 185500) (by norm_num)
      c3.le c4 (by norm_num) (by norm_num) a4 a1 (by norm_num) (by norm_num) (by norm_num) (by norm_num) (by norm_num) ?_ ?_
    · rw [radiated_poly]; norm_num [stefanBoltzmann]
    · intro q q1 q2; norm_num; linarith
  · have a4 := low_layer_warm (τ := 192) h0 h1 hv (by norm_num) c4.le (by norm_num) (by norm_num)
    refine float_safe_band hsun hs hv hu hu' (P := 12500) (Q := 13000) (τ := 192) (x := 27.8) (ν := 194200) (by norm_num)
      c4.le a2.le (by norm_num) (by norm_num) a4 a1 (by norm_num) (by norm_num) (by norm_num) (by norm_num) (by norm_num) ?_ ?_
    · rw [radiated_poly]; norm_num [stefanBoltzmann]
    · intro q q1 q2; norm_num; linarith

/-- What the initialisation of an episode returns floats in equilibrium. -/
theorem init_floats {K W : Type} {E : World K W} {α : ℝ} {rng : K} {date : ℤ} {b : BState}
    (h : initBalloon E α rng date = .ok b) : floatSp E.sun α b b.pressure = .ok b.sp := by
  unfold initBalloon at h
  simp only [bind, Except.bind] at h
  split at h
  · cases h
  split at h
  · cases h
  unfold coldStart at h
  simp only [bind, Except.bind, pure, Except.pure] at h
  split at h
  · cases h
  rename_i q hq
  injection h with h
  subst h
  unfold floatSp BState.latlng at *
  simp only [hq, Except.map]

/-- C103. Whatever the random draws, a balloon initialised for an episode is in the nominal superpressure band. -/
theorem C103_init {K W : Type} (E : World K W) (hJ : Spec.SaneDraws E.J) (hsun : Spec.SolarSun E.sun) (α : ℝ)
    (h0 : 0 ≤ α) (h1 : α ≤ 1) (rng : K) (date : ℤ) (b : BState) (h : initBalloon E α rng date = .ok b) :
    250 ≤ b.sp ∧ b.sp < 2130 ∧ b.maxSp = 2380 ∧
      ∀ a, b.env.getAction a b.sp = ({ state := .nominal, maxSp := 2380 }, a) := by
  have hvs : Spec.ValidStart α b := by
    rcases C95_init E hJ (fun l t => by
      obtain ⟨a1, a2, a3, a4⟩ := hsun l t
      exact ⟨a1, a2, a3, by linarith⟩) α h0 h1 rng date with ⟨b', hb', hv, -⟩ | ⟨hb', -⟩
    · rw [h] at hb'; injection hb' with hb'; subst hb'; exact hv
    · rw [h] at hb'; cases hb'
  obtain ⟨p0, p1, v, hv, hh⟩ := hvs.height
  obtain ⟨v1, v2, v3, v4, v5, v6, -⟩ := hvs.vehicle
  obtain ⟨sp, e, g1, g2⟩ := C103_float_is_safe E.sun hsun α h0 h1 b ⟨v1, v2, v3, v4, v5, v6⟩ hvs.infrared.1
    hvs.infrared.2.le b.pressure p0 v hv hh.le
  rw [init_floats h] at e
  injection e with e
  subst e
  refine ⟨g1, g2, v6, fun a => ?_⟩
  obtain ⟨-, u1, -, u2⟩ := hvs.unpaused
  have e1 : b.env = { state := .nominal, maxSp := 2380 } := by
    rw [← u1, ← v6, ← u2]
  rw [e1]
  have t : spTransition (spTrigger 2380 b.sp) .nominal = .nominal := by
    unfold spTrigger
    rw [if_neg (by linarith), if_neg (by linarith)]
    split_ifs with c1 c2 c3 c4
    · rfl
    · rfl
    · rfl
    · exact absurd (lt_of_lt_of_le g2 (by norm_num)) c3
    · exact absurd (lt_of_lt_of_le g2 (by norm_num)) c3
  unfold EnvLayer.getAction
  simp only [t]
  simp

/-- C103, `BalloonArena.reset`. Every episode starts in the nominal superpressure band: at least 250 Pa above zero
pressure and more than 250 Pa below the burst limit, so in the first step the envelope safety layer leaves every
command alone and the state machine stays in its nominal state. -/
theorem C103_reset {K W : Type} (E : World K W) (hJ : Spec.SaneDraws E.J) (cal : Calendar) (hcal : Spec.Gregorian cal)
    (hE : E.sun = realSun cal) (key : K) (A A' : Arena K W) (obs : List ℝ) (h : A.reset E key = (A', .ok obs)) :
    ∃ i, A'.ball = some i ∧ 250 ≤ (A'.heap.balls i).sp ∧ (A'.heap.balls i).sp < 2130 ∧
      (A'.heap.balls i).maxSp = 2380 ∧
      ∀ a, (A'.heap.balls i).env.getAction a (A'.heap.balls i).sp = ({ state := .nominal, maxSp := 2380 }, a) := by
  obtain ⟨a0, a1⟩ := (hJ (E.J.split key 3 1)).1
  unfold Arena.reset at h
  simp only at h
  cases hb : initBalloon E (E.J.uniform (E.J.split key 3 1)) (E.J.split key 3 0)
      (sampleTime timeBegin (E.J.choice (E.J.split key 3 2) (sampleTimeCount timeBegin timeEnd).toNat)) with
  | error e => rw [hb] at h; cases h
  | ok b =>
    rw [hb] at h
    have key := C103_init E hJ (by rw [hE]; exact C100_real_sun cal hcal.1) _ a0 a1.le _ _ b hb
    simp only at h
    split_ifs at h with hst
    · cases h
    generalize hB : Arena.mk _ _ _ _ _ _ = B at h
    have hm := measure_frame E B A.heap.nextBall { wind := A.wind, atm := A.atm, data := [], last := none }
    rw [h] at hm
    have hbb : B.heap.balls A.heap.nextBall = b := by rw [← hB]; exact Function.update_self ..
    refine ⟨A.heap.nextBall, ?_, ?_⟩
    · rw [hm.2.2.2.2, ← hB]
    · rw [hm.1, hbb]; exact key

/-- In the sunny world every reset succeeds and starts in the nominal band. -/
example (key : List ℕ) (A : Arena (List ℕ) Unit) :
    ∃ A' obs i, A.reset sunnyWorld key = (A', .ok obs) ∧ A'.ball = some i ∧ 250 ≤ (A'.heap.balls i).sp ∧
      (A'.heap.balls i).sp < 2130 := by
  obtain ⟨A', obs, -, h, -⟩ := C102_reset sunnyWorld sunnyWorld_draws true rfl gregorian gregorian_ok rfl good_static key A
  obtain ⟨i, h1, h2, h3, -⟩ := C103_reset sunnyWorld sunnyWorld_draws gregorian gregorian_ok rfl key A A' obs h
  exact ⟨A', obs, i, h, h1, h2, h3⟩

end BLE
