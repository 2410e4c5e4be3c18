import Verif.Props.NightReserve
import Verif.Props.SunLight
import Verif.Props.Env
import Mathlib.Analysis.Complex.ExponentialBounds

/-!
# C131: power by day

`power_safety.py:90-104` lets every command through by day: "we don't need to worry about power until
night falls". Here is what the solar panels (`solar.py:515-536`) and the loads (`balloon.py:529-542`)
say about that.
-/

open Spec

namespace BLE

theorem exp_neg_ge_of {x y z : ℝ} (hx : x ≤ y) (h : Real.exp y ≤ z) : 1 / z ≤ Real.exp (-x) := by
  rw [Real.exp_neg, ← one_div]
  exact one_div_le_one_div_of_le (Real.exp_pos x) ((Real.exp_le_exp.2 hx).trans h)

theorem exp_tenth_le : Real.exp 0.1 ≤ 1.112 := by
  have h1 := Real.one_sub_le_exp_neg 0.1
  have h2 : Real.exp 0.1 * Real.exp (-0.1) = 1 := by rw [← Real.exp_add]; simp
  have hp := Real.exp_pos 0.1
  nlinarith

theorem exp_11 : Real.exp 1.1 ≤ 3.03 := by
  rw [show (1.1 : ℝ) = 1 + 0.1 by norm_num, Real.exp_add]
  have h1 := Real.exp_one_lt_d9
  have h2 := exp_tenth_le
  have := Real.exp_pos 0.1
  calc Real.exp 1 * Real.exp 0.1 ≤ 2.7182818286 * 1.112 := mul_le_mul h1.le h2 this.le (by norm_num)
    _ ≤ 3.03 := by norm_num

theorem exp_16 : Real.exp 1.61 ≤ 5.3 := by
  rw [show (1.61 : ℝ) = 1 + (0.1 + 0.1 + 0.1 + 0.1 + 0.1 + 0.1 + 0.01) by norm_num]
  simp only [Real.exp_add]
  have h1 := Real.exp_one_lt_d9
  have h2 := exp_tenth_le
  have hp := Real.exp_pos 0.1
  have h3 : Real.exp 0.01 ≤ 1.0102 := by
    have h1 := Real.one_sub_le_exp_neg 0.01
    have h2 : Real.exp 0.01 * Real.exp (-0.01) = 1 := by rw [← Real.exp_add]; simp
    have hp := Real.exp_pos 0.01
    nlinarith
  generalize Real.exp 0.1 = a at *
  have h4 : a * a * a * a * a * a ≤ 1.112 ^ 6 := by
    have := pow_le_pow_left₀ hp.le h2 6
    calc a * a * a * a * a * a = a ^ 6 := by ring
      _ ≤ _ := this
  calc Real.exp 1 * (a * a * a * a * a * a * Real.exp 0.01) ≤ 2.7182818286 * (1.112 ^ 6 * 1.0102) := by
        refine mul_le_mul h1.le (mul_le_mul h4 h3 (Real.exp_pos _).le (by positivity)) (by positivity) (by norm_num)
    _ ≤ 5.3 := by norm_num

/-- Light reaching 14000 Pa: a quarter with the sun on the horizon, three quarters from 10° on. -/
theorem attenuation_low {el p a : ℝ} (h0 : 0 ≤ el) (hp : p ≤ 14000) (h : attenuation el p = .ok a) :
    0.258 ≤ a ∧ (10 ≤ el → 0.77 ≤ a) := by
  have hpi := Real.pi_pos
  have at1 : ∃ b, attenuation 0 14000 = .ok b ∧ 0.258 ≤ b := by
    unfold attenuation
    rw [if_neg (by norm_num), if_neg (by norm_num), if_neg (by norm_num [minSolarEl])]
    refine ⟨_, rfl, ?_⟩
    simp only [radians, zero_mul, Real.sin_zero, mul_zero, add_zero, sub_zero]
    have hs : Real.sqrt 1229 ≤ 35.06 := by rw [Real.sqrt_le_left (by norm_num)]; norm_num
    have hs0 := Real.sqrt_nonneg 1229
    have hm : 0.34764 * (14000 / 101325) * Real.sqrt 1229 ≤ 1.6842 := by
      have : (0.34764 * (14000 / 101325) : ℝ) ≤ 0.048035 := by norm_num
      nlinarith
    generalize 0.34764 * (14000 / 101325) * Real.sqrt 1229 = m at *
    have e1 := exp_neg_ge_of (x := 0.65 * m) (y := 1.1) (by linarith) exp_11
    have e2 := exp_neg_ge_of (x := 0.95 * m) (y := 1.61) (by linarith) exp_16
    rw [neg_mul, neg_mul]
    have : (0.258 : ℝ) ≤ 0.5 * (1 / 3.03 + 1 / 5.3) := by norm_num
    linarith
  have at2 : ∃ b, attenuation 10 14000 = .ok b ∧ 0.77 ≤ b := by
    unfold attenuation
    rw [if_neg (by norm_num), if_neg (by norm_num), if_neg (by norm_num [minSolarEl])]
    refine ⟨_, rfl, ?_⟩
    have hsin : 0.17 ≤ Real.sin (radians 10) := by
      have h1 : radians 10 = Real.pi / 18 := by unfold radians; ring
      rw [h1]
      have hpi3 := Real.pi_gt_d2
      have hpi4 := Real.pi_lt_d2
      have hx0 : 0 < Real.pi / 18 := by positivity
      have := Real.sin_gt_sub_cube hx0
      have hx : 0.174 ≤ Real.pi / 18 := by linarith
      have hx' : Real.pi / 18 ≤ 0.175 := by linarith
      generalize Real.pi / 18 = x at *
      have : x ^ 3 ≤ 0.175 ^ 3 := pow_le_pow_left₀ hx0.le hx' 3
      norm_num at *
      linarith
    generalize Real.sin (radians 10) = q at *
    have hsq : Real.sqrt (1229 + 614 * q * (614 * q)) ≤ 614 * q + 5.8 := by
      rw [Real.sqrt_le_left (by linarith)]
      nlinarith
    have hge : 614 * q ≤ Real.sqrt (1229 + 614 * q * (614 * q)) := by
      refine Real.le_sqrt_of_sq_le ?_
      nlinarith
    have hm : 0.34764 * (14000 / 101325) * (Real.sqrt (1229 + 614 * q * (614 * q)) - 614 * q) ≤ 0.2787 := by
      have : (0.34764 * (14000 / 101325) : ℝ) ≤ 0.048035 := by norm_num
      nlinarith
    generalize 0.34764 * (14000 / 101325) * (Real.sqrt (1229 + 614 * q * (614 * q)) - 614 * q) = m at *
    have e1 := Real.add_one_le_exp (-0.65 * m)
    have e2 := Real.add_one_le_exp (-0.95 * m)
    linarith
  constructor
  · obtain ⟨b, hb, hb'⟩ := at1
    exact hb'.trans (C51_attenuation_monotone hb h h0 hp)
  · intro h10
    obtain ⟨b, hb, hb'⟩ := at2
    exact hb'.trans (C51_attenuation_monotone hb h h10 hp)

/-- Cosine of a number of degrees. -/
theorem cos_deg_ge {x b : ℝ} (hb : |x| ≤ b) : 1 - (0.01746 * b) ^ 2 / 2 ≤ Real.cos (radians x) := by
  have h1 := Real.one_sub_sq_div_two_le_cos (x := radians x)
  have hpi := Real.pi_lt_d4
  have hpi0 := Real.pi_pos
  have h2 : |radians x| ≤ 0.01746 * b := by
    unfold radians
    rw [abs_mul, abs_of_pos (by positivity : 0 < Real.pi / 180)]
    have := abs_nonneg x
    have hq : Real.pi / 180 ≤ 0.01746 := by linarith
    rw [mul_comm]
    exact mul_le_mul hq hb this (by norm_num)
  have h3 : radians x ^ 2 ≤ (0.01746 * b) ^ 2 := by
    rw [← sq_abs]
    exact pow_le_pow_left₀ (abs_nonneg _) h2 2
  linarith

theorem balloonShadow_ge (el h : ℝ) : 0.4392 ≤ balloonShadow el h := by
  unfold balloonShadow
  simp only
  split_ifs <;> norm_num

/-- C131. Whenever the sun is above the horizon, at every pressure up to 14000 Pa, the panels deliver at
least 200 W — 79.6 W more than everything but the compressor draws by day (120.4 W). -/
theorem C131_panels (el p : ℝ) (h0 : 0 ≤ el) (h1 : el ≤ 90) (hp0 : 0 ≤ p) (hp : p ≤ 14000) :
    ∃ w, solarPower el p = .ok w ∧ 200 ≤ w := by
  obtain ⟨a, ha, a0, a1, -, -⟩ := (C51_attenuation el p).2 (by linarith) h1 hp0 (by linarith)
  obtain ⟨l1, l2⟩ := attenuation_low h0 hp ha
  unfold solarPower
  rw [ha]
  refine ⟨_, rfl, ?_⟩
  by_cases h10 : 10 ≤ el
  · have c1 := cos_deg_ge (x := el - 35) (b := 55) (by rw [abs_le]; constructor <;> linarith)
    have c2 := cos_deg_ge (x := el - 65) (b := 55) (by rw [abs_le]; constructor <;> linarith)
    have hs := balloonShadow_ge el 3.3
    have ht := balloonShadow_ge el 2.7
    have l2 := l2 h10
    generalize Real.cos (radians (el - 35)) = x at *
    generalize Real.cos (radians (el - 65)) = y at *
    generalize balloonShadow el 3.3 = s at *
    generalize balloonShadow el 2.7 = t at *
    have hx : (0.538 : ℝ) ≤ x := by norm_num at *; linarith
    have hy : (0.538 : ℝ) ≤ y := by norm_num at *; linarith
    have m1 : (0.538 * 0.4392 : ℝ) ≤ x * s := mul_le_mul hx hs (by norm_num) (by linarith)
    have m2 : (0.538 * 0.4392 : ℝ) ≤ y * t := mul_le_mul hy ht (by norm_num) (by linarith)
    have m3 : (1.417 : ℝ) ≤ 4 * x * s + 2 * y * t := by norm_num at *; linarith
    have : (0.77 * 1.417 : ℝ) ≤ a * (4 * x * s + 2 * y * t) := mul_le_mul l2 m3 (by norm_num) a0
    norm_num at *
    linarith
  · have c1 := cos_deg_ge (x := el - 35) (b := 35) (by rw [abs_le]; constructor <;> linarith)
    have c2 := cos_deg_ge (x := el - 65) (b := 65) (by rw [abs_le]; constructor <;> linarith)
    obtain ⟨q1, q2⟩ := shadow_angle (h := 3.3) (by norm_num) (by norm_num)
    obtain ⟨r1, r2⟩ := shadow_angle (h := 2.7) (by norm_num) (by norm_num)
    unfold balloonShadow
    simp only
    rw [if_neg (by linarith), if_neg (by linarith)]
    generalize Real.cos (radians (el - 35)) = x at *
    generalize Real.cos (radians (el - 65)) = y at *
    have hx : (0.813 : ℝ) ≤ x := by norm_num at *; linarith
    have hy : (0.355 : ℝ) ≤ y := by norm_num at *; linarith
    have m3 : (3.962 : ℝ) ≤ 4 * x * 1 + 2 * y * 1 := by linarith
    have : (0.258 * 3.962 : ℝ) ≤ a * (4 * x * 1 + 2 * y * 1) := mul_le_mul l1 m3 (by norm_num) a0
    norm_num at *
    linarith

/-- On the horizon and at the zenith. -/
example : (∃ w, solarPower 0 14000 = .ok w ∧ 200 ≤ w) ∧ ∃ w, solarPower 90 5000 = .ok w ∧ 200 ≤ w :=
  ⟨C131_panels _ _ (by norm_num) (by norm_num) (by norm_num) (by norm_num),
    C131_panels _ _ (by norm_num) (by norm_num) (by norm_num) (by norm_num)⟩

/-- C131 (what is true). By day — the sun above the horizon, at most 14000 Pa — a vehicle with the default
day load that does not pump gains at least 79.6 W until the battery is full, and does not run out of
power, however little it holds. -/
theorem C131_day_charges_partial (sun : Sun) (α u v : ℝ) (a : Command) (stride : ℤ) (s s' : BState)
    (h : substep sun α u v a stride s = .ok s') (hst : 0 < stride) (ha : a ≠ .down)
    (h0 : 0 ≤ (sun s.latlng s.dateTime).el) (h1 : (sun s.latlng s.dateTime).el ≤ 90)
    (hp0 : 0 ≤ s.pressure) (hp : s.pressure ≤ 14000) (hd : s.dayLoad ≤ 120.4) (hc0 : 0 ≤ s.charge)
    (hcap : 0 < s.cap) :
    min (s.charge + 79.6 * ((stride : ℝ) / 1000000 / 3600)) s.cap ≤ s'.charge ∧ 0 < s'.charge ∧
    (s.status ≠ .outOfPower → s'.status ≠ .outOfPower) := by
  obtain ⟨e1, e2, e3, e4, e5⟩ := C82_energy_balance _ _ _ _ _ _ _ _ h
  obtain ⟨_, _, _, solar, _, _, _, hsol, hs'⟩ := substep_ok h
  have k1 : s'.solarCharging = solar := by rw [hs']
  obtain ⟨w, hw, hw'⟩ := C131_panels _ _ h0 h1 hp0 hp
  have hday : (sun s.latlng s.dateTime).el > -4.242 := by norm_num at *; linarith
  have hday' : (sun s.latlng s.dateTime).el > minSolarEl := hday
  rw [if_pos hday', hw] at hsol
  obtain rfl := Except.ok.inj hsol
  rw [if_pos hday, e4 ha] at e2
  have hx : (0 : ℝ) < (stride : ℝ) / 1000000 / 3600 := by
    have : (0 : ℝ) < stride := by exact_mod_cast hst
    positivity
  have hch : min (s.charge + 79.6 * ((stride : ℝ) / 1000000 / 3600)) s.cap ≤ s'.charge := by
    rw [e1, k1, e2]
    refine min_le_min_right _ (le_max_of_le_left ?_)
    have : (79.6 : ℝ) ≤ w - (s.dayLoad + 0) := by norm_num at *; linarith
    nlinarith
  have hpos : 0 < s'.charge := lt_of_lt_of_le (lt_min (by positivity) hcap) hch
  refine ⟨hch, hpos, fun hs hbad => ?_⟩
  rw [hs'] at hbad hpos
  simp only [newStatus] at hbad hpos
  rw [if_neg (not_le.2 hpos)] at hbad
  split_ifs at hbad
  exact hs hbad

/-- The demo balloon with an almost empty battery under the zenith sun. -/
example : ∃ s', substep noonSun 0 3 4 .up (10 * usPerSec) { demo with charge := 0 } = .ok s' ∧ 0.2 ≤ s'.charge := by
  obtain ⟨s', hs'⟩ := substep_no_error (sun := noonSun) (α := 0) (by norm_num) (by norm_num) 3 4 .up (10 * usPerSec)
    (s := { demo with charge := 0 }) (by norm_num [demo]) (by norm_num [demo])
    (by norm_num [demo]) (by norm_num [demo]) (by norm_num [demo]) (by norm_num [demo])
    (by norm_num [demo]) (by norm_num [demo]) (by norm_num [demo]) (by norm_num [demo]) noonSun_el
  refine ⟨s', hs', ?_⟩
  have := (C131_day_charges_partial _ _ _ _ _ _ _ _ hs' (by decide) (by decide) (by norm_num [noonSun])
    (by norm_num [noonSun]) (by norm_num [demo]) (by norm_num [demo]) (by norm_num [demo]) (by norm_num)
    (by norm_num [demo])).1
  refine le_trans ?_ this
  norm_num [demo, usPerSec]

/-- C131 (pumping drains, even under the highest sun). With the sun above 80° and the envelope at a
pressure ratio of 1.25 or more, the compressor's 400 W exceed what the panels can give: a vehicle with
the default day load loses more than 46 W. -/
theorem C131_noon_drains (sun : Sun) (α u v : ℝ) (stride : ℤ) (s s' : BState)
    (h : substep sun α u v .down stride s = .ok s') (hst : 0 < stride)
    (h0 : 80 ≤ (sun s.latlng s.dateTime).el) (hr : 1.25 ≤ s.pressureRatio) (hd : 120.4 ≤ s.dayLoad) :
    s'.charge ≤ max (s.charge - 46 * ((stride : ℝ) / 1000000 / 3600)) 0 := by
  obtain ⟨e1, e2, -, -, -⟩ := C82_energy_balance _ _ _ _ _ _ _ _ h
  obtain ⟨_, _, _, solar, _, _, _, hsol, hs'⟩ := substep_ok h
  have k1 : s'.solarCharging = solar := by rw [hs']
  have k2 : s'.acsPower = 400 := by
    rw [hs']
    simp only [acsEffect]
    unfold mostEfficientPower
    rcases eq_or_lt_of_le hr with e | e
    · rw [← e, if_neg (by norm_num), if_neg (by norm_num), if_pos (by norm_num)]
      norm_num [seg]
    · rw [if_neg (by norm_num at *; linarith), if_neg (by norm_num at *; linarith), if_neg (by norm_num at *; linarith)]
      norm_num [seg]
  have hday : (sun s.latlng s.dateTime).el > -4.242 := by norm_num at *; linarith
  have hday' : (sun s.latlng s.dateTime).el > minSolarEl := hday
  rw [if_pos hday'] at hsol
  rw [if_pos hday, k2] at e2
  have hw : solar ≤ 474.4 := by
    generalize (sun s.latlng s.dateTime).el = el at *
    obtain ⟨a, ha⟩ : ∃ a, attenuation el s.pressure = .ok a := by
      unfold solarPower at hsol
      split at hsol
      · cases hsol
      · exact ⟨_, by assumption⟩
    obtain ⟨hs, -⟩ := (C51_shadow el s.pressure solar a ha hsol).2 (by linarith)
    have hrange : -90 ≤ el ∧ el ≤ 90 ∧ 0 ≤ s.pressure ∧ s.pressure ≤ 101325 := by
      by_contra hc
      have := ((C51_attenuation el s.pressure).1 (by
        by_contra h2; push Not at h2; exact hc ⟨h2.1, h2.2.1, h2.2.2.1, h2.2.2.2⟩)).1
      rw [this] at ha; cases ha
    obtain ⟨b, hb, b0, b1, -, -⟩ := (C51_attenuation el s.pressure).2 hrange.1 hrange.2.1 hrange.2.2.1 hrange.2.2.2
    rw [ha] at hb
    obtain rfl := Except.ok.inj hb
    have hpi := Real.pi_pos
    have hpi' := Real.pi_lt_d4
    have c1 : Real.cos (radians (el - 35)) ≤ 0.7855 := by
      rw [← Real.sin_pi_div_two_sub]
      have e : Real.pi / 2 - radians (el - 35) = (125 - el) * (Real.pi / 180) := by unfold radians; ring
      rw [e]
      have h1 : (125 - el) * (Real.pi / 180) ≤ 45 * (3.1416 / 180) :=
        mul_le_mul (by linarith) (by linarith) (by positivity) (by norm_num)
      have h2 : 0 < (125 - el) * (Real.pi / 180) := mul_pos (by linarith) (by positivity)
      have := Real.sin_le h2.le
      norm_num at *
      linarith
    have c2 := Real.cos_le_one (radians (el - 65))
    rw [hs]
    generalize Real.cos (radians (el - 35)) = x at *
    generalize Real.cos (radians (el - 65)) = y at *
    have hxy : 840 * x + 420 * y ≤ 1079.9 := by norm_num at *; linarith
    have : a * (840 * x + 420 * y) ≤ 1079.9 := by
      rcases le_or_gt 0 (840 * x + 420 * y) with hp | hn
      · nlinarith
      · have : a * (840 * x + 420 * y) ≤ 0 := mul_nonpos_of_nonneg_of_nonpos b0 hn.le
        norm_num at *
        linarith
    norm_num at *
    linarith
  have hx : (0 : ℝ) < (stride : ℝ) / 1000000 / 3600 := by
    have : (0 : ℝ) < stride := by exact_mod_cast hst
    positivity
  rw [e1, k1, e2]
  refine (min_le_left _ _).trans (max_le_max_right _ ?_)
  have : solar - (s.dayLoad + 400) ≤ -46 := by norm_num at *; linarith
  nlinarith

/-- The hypotheses of `C131_noon_drains` at the zenith, with a pressure ratio of 1.27. -/
example : 80 ≤ (noonSun demo.latlng demo.dateTime).el ∧ 1.25 ≤ BState.pressureRatio { demo with sp := 1600 } := by
  norm_num [noonSun, BState.pressureRatio, demo]

/-- Noon on the layer's clock, the envelope at a pressure ratio of 1.27, the battery nearly empty. -/
noncomputable def demoNoon : BState := { demo with dateTime := 12 * 3600 * usPerSec, sp := 1600, charge := 0.1 }

theorem demoNoon_chain : ∃ pw ev al, safetyChain 0 { demoNoon with lastCommand := .down } .down =
    ({ demoNoon with lastCommand := .down, power := pw, env := ev, alt := al }, .ok .down) := by
  have c1 : catchUp demoNoon.dateTime demoNoon.power.sunriseH = 30 * 3600 * usPerSec + 1800 * usPerSec := by
    refine isNext_unique (isNext_catchUp _ _) ⟨by decide, ⟨1, by decide⟩, fun k hk => ?_⟩
    simp only [demoNoon, demo, PowerLayer.new, powerHysteresis, usPerSec, day] at *
    omega
  have c2 : catchUp demoNoon.dateTime demoNoon.power.sunset = 18 * 3600 * usPerSec := by
    refine isNext_unique (isNext_catchUp _ _) ⟨by decide, ⟨0, by decide⟩, fun k hk => ?_⟩
    simp only [demoNoon, demo, PowerLayer.new, usPerSec, day] at *
    omega
  obtain ⟨amb, hamb⟩ := atPressure_in (α := 0) (p := 6000) (by norm_num) (by norm_num) (by norm_num) (by norm_num)
  have hhigh := high_above_restart (by norm_num) (by norm_num) hamb (by norm_num)
  have hamb' : atPressure 0 demoNoon.pressure = .ok amb := hamb
  have hpw : ∃ pw, PowerLayer.getAction demoNoon.power .down demoNoon.dateTime demoNoon.nightLoad demoNoon.charge
      demoNoon.cap = (pw, .ok .down) := by
    unfold PowerLayer.getAction
    simp only [c1, c2]
    rw [if_pos (by decide), pyDiv_ok (by norm_num [demoNoon, demo])]
    simp only
    rw [if_neg (by simp [demoNoon, demo, PowerLayer.new])]
    exact ⟨_, rfl⟩
  obtain ⟨pw, hpw⟩ := hpw
  have hsp : spTrigger 2380 (1600 : ℝ) = .nominal := by
    unfold spTrigger
    norm_num
  have henv : ∃ ev, EnvLayer.getAction demoNoon.env .down demoNoon.sp = (ev, .down) := by
    unfold EnvLayer.getAction
    simp only [demoNoon, demo, EnvLayer.new, hsp]
    exact ⟨_, rfl⟩
  obtain ⟨ev, henv⟩ := henv
  have halt : ∃ al, altGetAction demoNoon.alt .down amb.height = (al, .down) := by
    have ht : altTrigger amb.height = .nominal := by
      unfold altTrigger minAltitude altBuffer altHysteresis
      rw [if_neg (by norm_num at *; linarith), if_neg (by norm_num at *; linarith), if_neg (by norm_num at *; linarith)]
    unfold altGetAction
    rw [ht]
    exact ⟨_, rfl⟩
  obtain ⟨al, halt⟩ := halt
  refine ⟨pw, ev, al, ?_⟩
  unfold safetyChain
  have e1 : demoNoon.powerEnabled = true := rfl
  simp only [e1, if_true, hpw, henv, hamb', halt]

/-- C131 (what is false). It is not so that power is no worry until night falls: at noon on the layer's
clock, with the sun at the zenith, the layer enabled and unpaused, the default vehicle flying in order with
charge left, the environment's step of three minutes commanded DOWN is flown as DOWN and ends with the
balloon out of power. -/
theorem C131_runs_out_at_noon : ∃ s : BState, s.cap = 3058.56 ∧ s.dayLoad = 120.4 ∧ s.nightLoad = 183.7 ∧
    s.powerEnabled = true ∧ s.power.paused = false ∧ s.status = .ok ∧ 0 < s.charge ∧
    IsNext s.power.sunset s.dateTime (s.dateTime + 6 * 3600 * usPerSec) ∧
    IsNext s.power.sunriseH s.dateTime (s.dateTime + 18 * 3600 * usPerSec + 1800 * usPerSec) ∧
    (∀ u v, ∃ t, simulateStep noonSun 0 u v .down agentStep defaultStride s = (t, .ok ()) ∧
      t.status = .outOfPower) := by
  refine ⟨demoNoon, rfl, rfl, rfl, rfl, rfl, rfl, by norm_num [demoNoon], ⟨by decide, ⟨0, by decide⟩, fun k hk => ?_⟩,
    ⟨by decide, ⟨1, by decide⟩, fun k hk => ?_⟩, fun u v => ?_⟩
  · simp only [demoNoon, demo, PowerLayer.new, usPerSec, day] at *
    omega
  · simp only [demoNoon, demo, PowerLayer.new, powerHysteresis, usPerSec, day] at *
    omega
  · obtain ⟨pw, ev, al, hc⟩ := demoNoon_chain
    obtain ⟨s', hs'⟩ := substep_no_error (sun := noonSun) (α := 0) (by norm_num) (by norm_num) u v .down defaultStride
      (s := { demoNoon with lastCommand := .down, power := pw, env := ev, alt := al })
      (by norm_num [demoNoon, demo]) (by norm_num [demoNoon, demo]) (by norm_num [demoNoon, demo])
      (by norm_num [demoNoon, demo]) (by norm_num [demoNoon, demo]) (by norm_num [demoNoon, demo])
      (by norm_num [demoNoon, demo]) (by norm_num [demoNoon, demo])
      (by norm_num [demoNoon, demo]) (by norm_num [demoNoon, demo]) noonSun_el
    have hst : s'.status = .outOfPower := by
      have hd := C131_noon_drains _ _ _ _ _ _ _ hs' (by decide) (by norm_num [noonSun])
        (by norm_num [BState.pressureRatio, demoNoon, demo]) (by norm_num [demoNoon, demo])
      have h0 : s'.charge ≤ 0 := by
        refine hd.trans (max_le ?_ le_rfl)
        norm_num [demoNoon, defaultStride, usPerSec]
      obtain ⟨_, _, _, _, _, _, _, _, e⟩ := substep_ok hs'
      rw [e] at h0 ⊢
      simp only [newStatus] at h0 ⊢
      rw [if_pos h0]
    refine ⟨s', ?_, hst⟩
    rw [simulateStep_unfold rfl, hc]
    have e1 : Int.tdiv agentStep usPerSec = 180 := by decide
    have e2 : Int.tdiv defaultStride usPerSec = 10 := by decide
    simp only [e1, e2]
    rw [if_neg (by decide), if_neg (by decide)]
    have : (Int.fdiv 180 10).toNat = 17 + 1 := by decide
    rw [this, substepLoop, hs']
    simp [hst]

end BLE
