import Verif.Model.Solar
import Verif.Props.Flight
import Mathlib.Analysis.Real.Pi.Bounds
import Mathlib.Algebra.Order.Floor.Div
import Mathlib.Data.Rat.Floor
import Mathlib.Tactic.IntervalCases

/-!
# C85, C86: the solar ephemeris
-/

namespace BLE

/-! ## C85 — positions and flux are physical -/

theorem fmod_range (x : ℝ) : -1440 < fmod x 1440 ∧ fmod x 1440 < 1440 := by
  unfold fmod
  split_ifs with h
  · have h1 := Int.floor_le (x / 1440)
    have h2 := Int.lt_floor_add_one (x / 1440)
    rw [le_div_iff₀ (by norm_num)] at h1
    rw [div_lt_iff₀ (by norm_num)] at h2
    constructor <;> linarith
  · have h1 := Int.le_ceil (x / 1440)
    have h2 := Int.ceil_lt_add_one (x / 1440)
    rw [div_le_iff₀ (by norm_num)] at h1
    have h3 : (⌈x / 1440⌉ : ℝ) - 1 < x / 1440 := by linarith
    rw [lt_div_iff₀ (by norm_num)] at h3
    constructor <;> linarith

theorem hourAngle_range (jc frac lng : ℝ) :
    -Real.pi ≤ hourAngle jc frac lng ∧ hourAngle jc frac lng ≤ Real.pi := by
  have hpi := Real.pi_pos
  obtain ⟨h1, h2⟩ := fmod_range (1440 * frac + degrees (equationOfTime jc) + 4 * lng)
  unfold hourAngle radians
  simp only
  generalize fmod (1440 * frac + degrees (equationOfTime jc) + 4 * lng) 1440 = x at *
  split_ifs with h
  · constructor
    · nlinarith
    · nlinarith
  · constructor
    · nlinarith
    · nlinarith

theorem refraction_bounds {e : ℝ} (h0 : -90 ≤ e) (h1 : e ≤ 90) :
    -90 ≤ e + refraction e / 3600 ∧ e + refraction e / 3600 ≤ 90 := by
  have hpi := Real.pi_pos
  have hpi3 := Real.pi_gt_three
  have hpi4 := Real.pi_lt_four
  unfold refraction
  split_ifs with c1 c2 c3
  · constructor <;> linarith
  · have hr0 : 0.08 ≤ radians e := by unfold radians; nlinarith
    have hr1 : radians e < Real.pi / 2 := by unfold radians; nlinarith
    have ht := Real.le_tan (by linarith) hr1
    have ht' : 0.08 ≤ Real.tan (radians e) := le_trans hr0 ht
    simp only
    generalize Real.tan (radians e) = t at *
    have htp : 0 < t := by linarith
    have a1 : 58.1 / t ≤ 800 := by rw [div_le_iff₀ htp]; linarith
    have a2 : 0 ≤ 58.1 / t := by positivity
    have t3 : 0.000512 ≤ t ^ 3 := by
      have := pow_le_pow_left₀ (by norm_num) ht' 3; norm_num at this ⊢; linarith
    have t5 : 0.000003 ≤ t ^ 5 := by
      have := pow_le_pow_left₀ (by norm_num) ht' 5; norm_num at this ⊢; linarith
    have b1 : 0.07 / t ^ 3 ≤ 200 := by rw [div_le_iff₀ (by positivity)]; linarith
    have b2 : 0 ≤ 0.07 / t ^ 3 := by positivity
    have d1 : 0.000086 / t ^ 5 ≤ 100 := by rw [div_le_iff₀ (by positivity)]; linarith
    have d2 : 0 ≤ 0.000086 / t ^ 5 := by positivity
    constructor <;> linarith
  · have e1 : e ≤ 5 := not_lt.1 c2
    have g1 : -16.345 ≤ -12.79 + e * 0.711 ∧ -12.79 + e * 0.711 ≤ 0 := by constructor <;> norm_num at * <;> linarith
    generalize -12.79 + e * 0.711 = p at g1
    have g2 : 0 ≤ 103.4 + e * p ∧ 103.4 + e * p ≤ 200 := by constructor <;> nlinarith
    generalize 103.4 + e * p = q at g2
    have g3 : -1000 ≤ -518.2 + e * q ∧ -518.2 + e * q ≤ 500 := by constructor <;> nlinarith
    generalize -518.2 + e * q = r at g3
    constructor <;> nlinarith
  · have e1 : e ≤ -0.575 := not_lt.1 c3
    have htan : Real.tan (radians e) = -Real.tan (-radians e) := by rw [Real.tan_neg]; ring
    by_cases hm : e = -90
    · have : radians e = -(Real.pi / 2) := by rw [hm]; unfold radians; ring
      rw [this, Real.tan_neg, Real.tan_pi_div_two]
      norm_num; constructor <;> linarith
    · have hlt : -90 < e := lt_of_le_of_ne h0 (Ne.symm hm)
      have hr0 : 0.009 ≤ -radians e := by unfold radians; nlinarith
      have hr1 : -radians e < Real.pi / 2 := by unfold radians; nlinarith
      have ht := Real.le_tan (by linarith) hr1
      have ht' : 0.009 ≤ Real.tan (-radians e) := le_trans hr0 ht
      rw [htan]
      generalize Real.tan (-radians e) = t at *
      have hp : 0 < t := by linarith
      have a : -20.772 / -t = 20.772 / t := neg_div_neg_eq _ _
      have a1 : 20.772 / t ≤ 3000 := by rw [div_le_iff₀ hp]; linarith
      have a2 : 0 ≤ 20.772 / t := by positivity
      rw [a]
      constructor <;> linarith

/-- For every date, instant and place: the arguments of the arcsine and arccosine are in [-1,1], the
elevation is in [-90°, 90°] and the azimuth in [0°, 360°]. -/
theorem C85_position (jc frac lat lng : ℝ) :
    (-1 ≤ sinDeclination jc ∧ sinDeclination jc ≤ 1) ∧
    (-1 ≤ cosZenith jc frac lat lng ∧ cosZenith jc frac lat lng ≤ 1) ∧
    (-90 ≤ (solarCalculatorAt jc frac lat lng).el ∧ (solarCalculatorAt jc frac lat lng).el ≤ 90) ∧
    (0 ≤ (solarCalculatorAt jc frac lat lng).az ∧ (solarCalculatorAt jc frac lat lng).az ≤ 360) := by
  have hpi := Real.pi_pos
  refine ⟨?_, ?_, ?_, ?_⟩
  · unfold sinDeclination
    simp only
    rw [← abs_le, abs_mul]
    exact mul_le_one₀ (Real.abs_sin_le_one _) (abs_nonneg _) (Real.abs_sin_le_one _)
  · unfold cosZenith
    simp only
    generalize Real.arcsin (sinDeclination jc) = d
    generalize hourAngle jc frac lng = h
    have h1 := Real.sin_sq_add_cos_sq lat
    have h2 := Real.sin_sq_add_cos_sq d
    have h3 := Real.sin_sq_add_cos_sq h
    have hs : (Real.sin lat * Real.sin d + Real.cos lat * Real.cos d * Real.cos h) ^ 2 ≤ 1 := by
      have hc : (Real.cos d * Real.cos h) ^ 2 ≤ Real.cos d ^ 2 := by
        rw [mul_pow]; nlinarith [sq_nonneg (Real.cos d), sq_nonneg (Real.sin h)]
      -- Cauchy–Schwarz
      have cs : (Real.sin lat * Real.sin d + Real.cos lat * (Real.cos d * Real.cos h)) ^ 2 ≤
          (Real.sin lat ^ 2 + Real.cos lat ^ 2) * (Real.sin d ^ 2 + (Real.cos d * Real.cos h) ^ 2) := by
        nlinarith [sq_nonneg (Real.sin lat * (Real.cos d * Real.cos h) - Real.cos lat * Real.sin d)]
      rw [h1, one_mul] at cs
      rw [mul_assoc]
      linarith
    exact abs_le.1 (abs_le_one_iff_mul_self_le_one.2 (by nlinarith))
  · have a0 := Real.arccos_nonneg (cosZenith jc frac lat lng)
    have a1 := Real.arccos_le_pi (cosZenith jc frac lat lng)
    have hd : 0 ≤ degrees (Real.arccos (cosZenith jc frac lat lng)) ∧
        degrees (Real.arccos (cosZenith jc frac lat lng)) ≤ 180 := by
      unfold degrees
      constructor
      · positivity
      · calc Real.arccos (cosZenith jc frac lat lng) * (180 / Real.pi) ≤ Real.pi * (180 / Real.pi) := by gcongr
          _ = 180 := by field_simp
    exact refraction_bounds (by linarith) (by linarith)
  · have key : ∀ x, 0 ≤ degrees (Real.arccos x) ∧ degrees (Real.arccos x) ≤ 180 := by
      intro x
      have a0 := Real.arccos_nonneg x
      have a1 := Real.arccos_le_pi x
      unfold degrees
      constructor
      · positivity
      · calc Real.arccos x * (180 / Real.pi) ≤ Real.pi * (180 / Real.pi) := by gcongr
          _ = 180 := by field_simp
    unfold solarCalculatorAt
    simp only
    have := key (clip ((Real.sin lat * Real.cos (Real.arccos (cosZenith jc frac lat lng)) -
      Real.sin (Real.arcsin (sinDeclination jc))) / (Real.cos lat * Real.sin (Real.arccos
        (cosZenith jc frac lat lng)))) (-1) 1)
    split_ifs <;> constructor <;> linarith [this.1, this.2]

/-- The Julian day number is within a few days of 365.25 days a year. -/
theorem julianDay_range (y m d : ℤ) (hy : 1 ≤ y) (hm0 : 1 ≤ m) (hm1 : m ≤ 12) (hd0 : 1 ≤ d) (hd1 : d ≤ 31) :
    365.24 * (y : ℚ) + 1720000 ≤ julianDayNumber y m d ∧
      julianDayNumber y m d ≤ 365.25 * (y : ℚ) + 1723000 := by
  have hy' : (1 : ℚ) ≤ y := by exact_mod_cast hy
  have hm0' : (1 : ℚ) ≤ m := by exact_mod_cast hm0
  have hm1' : (m : ℚ) ≤ 12 := by exact_mod_cast hm1
  have hd0' : (1 : ℚ) ≤ d := by exact_mod_cast hd0
  have hd1' : (d : ℚ) ≤ 31 := by exact_mod_cast hd1
  unfold julianDayNumber
  have a1 := Int.floor_le (((m : ℚ) + 9) / 12)
  have a2 := Int.lt_floor_add_one (((m : ℚ) + 9) / 12)
  generalize (⌊((m : ℚ) + 9) / 12⌋ : ℤ) = A at *
  have b1 := Int.floor_le ((7 * ((y : ℚ) + A)) / 4)
  have b2 := Int.lt_floor_add_one ((7 * ((y : ℚ) + A)) / 4)
  generalize (⌊(7 * ((y : ℚ) + A)) / 4⌋ : ℤ) = B at *
  have c1 := Int.floor_le (((y : ℚ) + ((m : ℚ) - 9) / 7) / 100)
  have c2 := Int.lt_floor_add_one (((y : ℚ) + ((m : ℚ) - 9) / 7) / 100)
  generalize (⌊((y : ℚ) + ((m : ℚ) - 9) / 7) / 100⌋ : ℤ) = C at *
  have d1 := Int.floor_le ((3 * ((C : ℚ) + 1)) / 4)
  have d2 := Int.lt_floor_add_one ((3 * ((C : ℚ) + 1)) / 4)
  generalize (⌊(3 * ((C : ℚ) + 1)) / 4⌋ : ℤ) = D at *
  have e1 := Int.floor_le ((275 * (m : ℚ)) / 9)
  have e2 := Int.lt_floor_add_one ((275 * (m : ℚ)) / 9)
  generalize (⌊(275 * (m : ℚ)) / 9⌋ : ℤ) = E at *
  constructor
  · norm_num; linarith
  · norm_num; linarith

/-- The solar flux stays within 4 % of 1366 W/m² for every date a `datetime` can hold (years 1 to
9999), at every place. -/
theorem C85_flux (y m d now : ℤ) (hy0 : 1 ≤ y) (hy1 : y ≤ 9999) (hm0 : 1 ≤ m) (hm1 : m ≤ 12) (hd0 : 1 ≤ d)
    (hd1 : d ≤ 31) (lat lng : ℝ) :
    1311 ≤ (solarCalculatorAt (julianCentury y m d now) (fractionOfDay now) lat lng).flux ∧
      (solarCalculatorAt (julianCentury y m d now) (fractionOfDay now) lat lng).flux ≤ 1421 := by
  obtain ⟨j1, j2⟩ := julianDay_range y m d hy0 hm0 hm1 hd0 hd1
  have hy0' : (1 : ℚ) ≤ y := by exact_mod_cast hy0
  have hy1' : (y : ℚ) ≤ 9999 := by exact_mod_cast hy1
  have j1' : (1720000 : ℚ) ≤ julianDayNumber y m d := by norm_num at j1; linarith
  have j2' : julianDayNumber y m d ≤ (5375135 : ℚ) := by norm_num at j2; linarith
  have k1 : (1720000 : ℝ) ≤ (julianDayNumber y m d : ℝ) := by exact_mod_cast j1'
  have k2 : (julianDayNumber y m d : ℝ) ≤ 5375135 := by exact_mod_cast j2'
  have f1 : 0 ≤ fractionOfDay now ∧ fractionOfDay now ≤ 1 := by
    unfold fractionOfDay
    have h1 := Int.emod_nonneg (Int.tdiv now usPerSec) (show (86400 : ℤ) ≠ 0 by norm_num)
    have h2 := Int.emod_lt_of_pos (Int.tdiv now usPerSec) (show (0 : ℤ) < 86400 by norm_num)
    have h1' : (0 : ℝ) ≤ ((Int.emod (Int.tdiv now usPerSec) 86400 : ℤ) : ℝ) := by exact_mod_cast h1
    have h2' : ((Int.emod (Int.tdiv now usPerSec) 86400 : ℤ) : ℝ) < 86400 := by exact_mod_cast h2
    constructor
    · positivity
    · rw [div_le_one (by norm_num)]; exact h2'.le
  have jc1 : -21 ≤ julianCentury y m d now := by
    unfold julianCentury; rw [le_div_iff₀ (by norm_num)]; linarith [f1.1]
  have jc2 : julianCentury y m d now ≤ 81 := by
    unfold julianCentury; rw [div_le_iff₀ (by norm_num)]; linarith [f1.2]
  generalize julianCentury y m d now = jc at *
  have e1 : 0.012 ≤ eccentricity jc ∧ eccentricity jc ≤ 0.0178 := by
    unfold eccentricity
    constructor <;> norm_num <;> nlinarith [mul_nonneg (sub_nonneg.2 jc1) (sub_nonneg.2 jc2)]
  unfold solarCalculatorAt
  simp only
  generalize eccentricity jc = e at *
  have hq0 : 1 ≤ (1 + e) / (1 - e) := by rw [le_div_iff₀ (by linarith)]; linarith [e1.1]
  have hq1 : (1 + e) / (1 - e) ≤ 1.0363 := by
    rw [div_le_iff₀ (by linarith [e1.2])]; norm_num at *; linarith
  generalize (1 + e) / (1 - e) = q at *
  have hc1 := Real.neg_one_le_cos (meanAnomalySun jc)
  have hc2 := Real.cos_le_one (meanAnomalySun jc)
  generalize Real.cos (meanAnomalySun jc) = c at *
  have hk0 : 0 ≤ q ^ 2 - 1 := by nlinarith
  have hk1 : q ^ 2 - 1 ≤ 0.0740 := by norm_num at *; nlinarith
  generalize q ^ 2 - 1 = k at *
  constructor <;> norm_num at * <;> nlinarith

/-- With the real ephemeris the flight theorem needs no assumption about the sun: whatever the
calendar, a sound vehicle flying in the supported pressure and temperature range never raises. -/
theorem C85_flight (cal : Calendar) (α u v : ℝ) (h0 : 0 ≤ α) (h1 : α ≤ 1) (a : Command) (D d : ℕ)
    (hd : 0 < d) (hdD : d ∣ D) (s : BState)
    (hok : s.status = .ok) (hveh : Spec.SoundVehicle s) (hT : 0 < s.ambT) (hvol : 0 < s.vol)
    (hair : 0 ≤ s.molsAir) (e : Err)
    (herr : (simulateStep (realSun cal) α u v a (D * usPerSec) (d * usPerSec) s).2 = .error e) :
    ¬ (101 ≤ s.pressure ∧ s.pressure ≤ 101325) ∨
    ¬ (let t := (simulateStep (realSun cal) α u v a (D * usPerSec) (d * usPerSec) s).1
      101 ≤ t.pressure ∧ t.pressure ≤ 101325 ∧ 13 ≤ t.intT ∧ t.intT ≤ 8000) := by
  exact C80_no_exception (realSun cal) (fun l t => (C85_position _ _ _ _).2.2.1) α h0 h1 u v a D d hd hdD s
    hok hveh hT hvol hair e herr

/-! ## C86 — the Julian day is the calendar day -/

/-- Leap years of the proleptic Gregorian calendar. -/
def Spec.leap (y : ℤ) : Prop := y % 4 = 0 ∧ (y % 100 ≠ 0 ∨ y % 400 = 0)

instance (y : ℤ) : Decidable (Spec.leap y) := by unfold Spec.leap; infer_instance

/-- Days in a month. -/
def Spec.monthLength (y m : ℤ) : ℤ :=
  if m = 2 then (if Spec.leap y then 29 else 28) else if m = 4 ∨ m = 6 ∨ m = 9 ∨ m = 11 then 30 else 31

/-- The civil day after a civil day. -/
def Spec.nextDay (c : ℤ × ℤ × ℤ) : ℤ × ℤ × ℤ :=
  if c.2.2 < Spec.monthLength c.1 c.2.1 then (c.1, c.2.1, c.2.2 + 1)
  else if c.2.1 < 12 then (c.1, c.2.1 + 1, 1) else (c.1 + 1, 1, 1)

/-- The dates on which the code's Julian day is one too large: March to August of a century year that
is no leap year, and the January after it. -/
def Spec.julianExcess (y m : ℤ) : Prop :=
  (y % 100 = 0 ∧ y % 400 ≠ 0 ∧ 3 ≤ m ∧ m ≤ 8) ∨ (y % 100 = 1 ∧ y % 400 ≠ 1 ∧ m = 1)

instance (y m : ℤ) : Decidable (Spec.julianExcess y m) := by unfold Spec.julianExcess; infer_instance

theorem julianDayNumber_int (y m d : ℤ) : julianDayNumber y m d =
    ((367 * y - 7 * (y + (m + 9) / 12) / 4 - 3 * ((7 * y + m - 9) / 700 + 1) / 4 + 275 * m / 9 + d : ℤ) : ℚ) +
      1721028.5 := by
  have f : ∀ (n : ℤ) (k : ℕ), ⌊(n : ℚ) / (k : ℚ)⌋ = n / (k : ℤ) := fun n k => Rat.floor_intCast_div_natCast n k
  unfold julianDayNumber
  have e1 : ((m : ℚ) + 9) / 12 = ((m + 9 : ℤ) : ℚ) / ((12 : ℕ) : ℚ) := by push_cast; ring
  rw [e1, f]
  have e2 : (7 * ((y : ℚ) + (((m + 9) / ((12 : ℕ) : ℤ) : ℤ) : ℚ))) / 4 =
      ((7 * (y + (m + 9) / ((12 : ℕ) : ℤ)) : ℤ) : ℚ) / ((4 : ℕ) : ℚ) := by push_cast; ring
  rw [e2, f]
  have e3 : ((y : ℚ) + ((m : ℚ) - 9) / 7) / 100 = ((7 * y + m - 9 : ℤ) : ℚ) / ((700 : ℕ) : ℚ) := by
    push_cast; ring
  rw [e3, f]
  have e4 : (3 * ((((7 * y + m - 9) / ((700 : ℕ) : ℤ) : ℤ) : ℚ) + 1)) / 4 =
      ((3 * ((7 * y + m - 9) / ((700 : ℕ) : ℤ) + 1) : ℤ) : ℚ) / ((4 : ℕ) : ℚ) := by push_cast; ring
  rw [e4, f]
  have e5 : (275 * (m : ℚ)) / 9 = ((275 * m : ℤ) : ℚ) / ((9 : ℕ) : ℚ) := by push_cast; ring
  rw [e5, f]
  push_cast
  ring

/-- The code's day count without the exceptional excess. -/
def trueJulian (y m d : ℤ) : ℤ :=
  367 * y - 7 * (y + (m + 9) / 12) / 4 - 3 * ((7 * y + m - 9) / 700 + 1) / 4 + 275 * m / 9 + d -
    (if Spec.julianExcess y m then 1 else 0)

theorem century_val (q r m : ℤ) (hr0 : 0 ≤ r) (hr1 : r < 100) (hm0 : 1 ≤ m) (hm1 : m ≤ 12) :
    (7 * (100 * q + r) + m - 9) / 700 = if 7 * r + m < 9 then q - 1 else q := by
  split_ifs <;> omega

set_option maxHeartbeats 2000000 in
theorem trueJulian_nextMonth (q r m : ℤ) (hr0 : 0 ≤ r) (hr1 : r < 100) (hm0 : 1 ≤ m) (hm1 : m < 12) :
    trueJulian (100 * q + r) (m + 1) 1 =
      trueJulian (100 * q + r) m (Spec.monthLength (100 * q + r) m) + 1 := by
  unfold trueJulian Spec.monthLength Spec.julianExcess Spec.leap
  rw [century_val q r m hr0 hr1 hm0 (by omega), century_val q r (m + 1) hr0 hr1 (by omega) (by omega)]
  obtain ⟨c, e, he0, he1, rfl⟩ : ∃ c e : ℤ, 0 ≤ e ∧ e < 4 ∧ q = 4 * c + e :=
    ⟨q / 4, q % 4, by omega, by omega, by omega⟩
  obtain ⟨a, b, hb0, hb1, rfl⟩ : ∃ a b : ℤ, 0 ≤ b ∧ b < 4 ∧ r = 4 * a + b :=
    ⟨r / 4, r % 4, by omega, by omega, by omega⟩
  interval_cases m <;> norm_num <;> interval_cases e <;> interval_cases b <;> (try split_ifs) <;> omega

theorem trueJulian_nextYear (q r : ℤ) (hr0 : 0 ≤ r) (hr1 : r < 100) :
    trueJulian (100 * q + r + 1) 1 1 = trueJulian (100 * q + r) 12 31 + 1 := by
  obtain ⟨c, e, he0, he1, rfl⟩ : ∃ c e : ℤ, 0 ≤ e ∧ e < 4 ∧ q = 4 * c + e :=
    ⟨q / 4, q % 4, by omega, by omega, by omega⟩
  rcases lt_or_ge r 99 with hr | hr
  · unfold trueJulian Spec.julianExcess
    rw [century_val _ r 12 hr0 hr1 (by omega) (by omega), add_assoc _ r 1,
      century_val _ (r + 1) 1 (by omega) (by omega) (by omega) (by omega)]
    norm_num
    interval_cases e <;> (try split_ifs) <;> omega
  · have hr : r = 99 := by omega
    subst hr
    rw [show 100 * (4 * c + e) + 99 + 1 = 100 * (4 * c + e + 1) + 0 by ring]
    unfold trueJulian Spec.julianExcess
    rw [century_val _ 99 12 (by omega) (by omega) (by omega) (by omega),
      century_val (4 * c + e + 1) 0 1 (by omega) (by omega) (by omega) (by omega)]
    norm_num
    interval_cases e <;> omega

theorem trueJulian_nextDay (y m d : ℤ) (hm0 : 1 ≤ m) (hm1 : m ≤ 12) (hd1 : d ≤ Spec.monthLength y m) :
    trueJulian (Spec.nextDay (y, m, d)).1 (Spec.nextDay (y, m, d)).2.1 (Spec.nextDay (y, m, d)).2.2 =
      trueJulian y m d + 1 := by
  obtain ⟨q, r, hr0, hr1, rfl⟩ : ∃ q r : ℤ, 0 ≤ r ∧ r < 100 ∧ y = 100 * q + r :=
    ⟨y / 100, y % 100, by omega, by omega, by omega⟩
  unfold Spec.nextDay
  simp only
  split_ifs with h1 h2
  · unfold trueJulian; ring
  · have hd : d = Spec.monthLength (100 * q + r) m := by omega
    subst hd
    exact trueJulian_nextMonth q r m hr0 hr1 hm0 h2
  · have hm : m = 12 := by omega
    subst hm
    have hd : d = 31 := by
      have : Spec.monthLength (100 * q + r) 12 = 31 := by unfold Spec.monthLength; norm_num
      omega
    subst hd
    exact trueJulian_nextYear q r hr0 hr1

/-- The civil calendar counted from the epoch: `Spec.civil n` is the date `n` days after 0001-01-01. -/
def Spec.civil : ℕ → ℤ × ℤ × ℤ
  | 0 => (1, 1, 1)
  | n + 1 => Spec.nextDay (Spec.civil n)

theorem civil_valid (n : ℕ) : 1 ≤ (Spec.civil n).1 ∧ 1 ≤ (Spec.civil n).2.1 ∧ (Spec.civil n).2.1 ≤ 12 ∧
    1 ≤ (Spec.civil n).2.2 ∧ (Spec.civil n).2.2 ≤ Spec.monthLength (Spec.civil n).1 (Spec.civil n).2.1 := by
  induction n with
  | zero => refine ⟨le_refl _, le_refl _, by norm_num [Spec.civil], le_refl _, by norm_num [Spec.civil, Spec.monthLength]⟩
  | succ n ih =>
    obtain ⟨h1, h2, h3, h4, h5⟩ := ih
    rw [Spec.civil]
    generalize Spec.civil n = c at *
    have pos : ∀ y m, 1 ≤ Spec.monthLength y m := by
      intro y m; unfold Spec.monthLength; split_ifs <;> norm_num
    unfold Spec.nextDay
    split_ifs with g1 g2
    · exact ⟨h1, h2, h3, by simp only; omega, by simp only; omega⟩
    · exact ⟨h1, by simp only; omega, by simp only; omega, le_refl _, pos _ _⟩
    · exact ⟨by simp only; omega, le_refl _, by norm_num, le_refl _, pos _ _⟩

/-- C86. Counting civil days from 0001-01-01 (Julian day 1721425.5), the code's Julian day number is
exactly the day count, except that it is one day too large from March to August of a century year
that is no leap year and in the January after it. -/
theorem C86_julian_day_partial (n : ℕ) :
    julianDayNumber (Spec.civil n).1 (Spec.civil n).2.1 (Spec.civil n).2.2 =
      1721425.5 + n + (if Spec.julianExcess (Spec.civil n).1 (Spec.civil n).2.1 then 1 else 0) := by
  have key : ∀ n : ℕ, trueJulian (Spec.civil n).1 (Spec.civil n).2.1 (Spec.civil n).2.2 = n + 397 := by
    intro n
    induction n with
    | zero => decide
    | succ n ih =>
      obtain ⟨_, h2, h3, _, h5⟩ := civil_valid n
      have := trueJulian_nextDay _ _ _ h2 h3 h5
      rw [Spec.civil]
      rw [show Spec.civil n = ((Spec.civil n).1, (Spec.civil n).2.1, (Spec.civil n).2.2) from rfl] at *
      rw [this, ih]; push_cast; ring
  have h := key n
  rw [julianDayNumber_int]
  unfold trueJulian at h
  have h' := congrArg (fun z : ℤ => (z : ℚ)) h
  push_cast at h' ⊢
  norm_num at h' ⊢
  split_ifs at h' ⊢ <;> linarith

/-- Hence from February 1901 to February 2100, which contains every date the environment samples, the
Julian day is the calendar day. -/
theorem C86_modern (n : ℕ) (h0 : (1901 < (Spec.civil n).1) ∨ ((Spec.civil n).1 = 1901 ∧ 2 ≤ (Spec.civil n).2.1))
    (h1 : ((Spec.civil n).1 < 2100) ∨ ((Spec.civil n).1 = 2100 ∧ (Spec.civil n).2.1 ≤ 2)) :
    julianDayNumber (Spec.civil n).1 (Spec.civil n).2.1 (Spec.civil n).2.2 = 1721425.5 + n := by
  rw [C86_julian_day_partial, if_neg, add_zero]
  unfold Spec.julianExcess
  omega

/-- The exception is real: 28 February and 1 March 2100 are consecutive civil days, two apart in the
code. -/
theorem C86_skips_a_day : Spec.nextDay (2100, 2, 28) = (2100, 3, 1) ∧
    julianDayNumber 2100 3 1 = julianDayNumber 2100 2 28 + 2 := by
  refine ⟨by decide, ?_⟩
  rw [julianDayNumber_int, julianDayNumber_int]
  norm_num

-- J2000.0: 1 January 2000 at 0 h is Julian day 2451544.5.
example : julianDayNumber 2000 1 1 = 2451544.5 := by rw [julianDayNumber_int]; norm_num

-- C85: at the equator at noon on J2000 the flux is within the stated band, and the date is admissible.
example : 1311 ≤ (solarCalculatorAt (julianCentury 2000 1 1 0) (fractionOfDay 0) 0 0).flux :=
  (C85_flux 2000 1 1 0 (by norm_num) (by norm_num) (by norm_num) (by norm_num) (by norm_num) (by norm_num) 0 0).1

end BLE
