import Verif.Model.Balloon
import Mathlib.Analysis.SpecialFunctions.Trigonometric.Inverse
import Mathlib.Algebra.Order.Floor.Ring

/-!
# The solar ephemeris and the search for noon, midnight, sunrise and sunset

`BLE/env/balloon/solar.py:43-174, 239-512`.
-/

namespace BLE

/-! ## The NOAA solar calculator -/

/-- `math.fmod`: remainder with the sign of the dividend. (`solar.py:114`) -/
noncomputable def fmod (x m : ℝ) : ℝ :=
  if 0 ≤ x / m then x - m * ⌊x / m⌋ else x - m * ⌈x / m⌉

/-- `solar.py:71-75` — Julian day number of a Gregorian date; `np.floor` of the same quotients
(over `ℚ`, the division is exact). -/
def julianDayNumber (year month day : ℤ) : ℚ :=
  367 * year - (⌊(7 * ((year : ℚ) + ⌊((month : ℚ) + 9) / 12⌋)) / 4⌋ : ℤ) -
    (⌊(3 * ((⌊((year : ℚ) + ((month : ℚ) - 9) / 7) / 100⌋ : ℤ) + 1) : ℚ) / 4⌋ : ℤ) +
    (⌊(275 * (month : ℚ)) / 9⌋ : ℤ) + day + 1721028.5

/-- `solar.py:66-68` — fraction of the (UTC) day; `int` truncates, `%` is floored. -/
noncomputable def fractionOfDay (now : ℤ) : ℝ := (Int.emod (Int.tdiv now usPerSec) 86400 : ℤ) / 86400

/-- `solar.py:78-79` — Julian century from the calendar date and the instant. -/
noncomputable def julianCentury (year month day now : ℤ) : ℝ :=
  (((julianDayNumber year month day : ℚ) : ℝ) + fractionOfDay now - 2451545) / 36525

/-- `solar.py:104-105` — orbital eccentricity. -/
noncomputable def eccentricity (jc : ℝ) : ℝ := 0.016708634 - jc * (0.000042037 + 0.0000001267 * jc)

/-- `solar.py:94-100` — corrected obliquity of the ecliptic. -/
noncomputable def obliquity (jc : ℝ) : ℝ :=
  radians (23 + (26 + (21.448 - jc * (46.815 + jc * (0.00059 - jc * 0.001813))) / 60) / 60) +
    radians (0.00256 * Real.cos (radians (125.04 - 1934.136 * jc)))

/-- `solar.py:82-83` — geometric mean longitude. -/
noncomputable def meanLongSun (jc : ℝ) : ℝ := radians (280.46646 + jc * (36000.76983 + jc * 0.0003032))

/-- `solar.py:88-89` — geometric mean anomaly. -/
noncomputable def meanAnomalySun (jc : ℝ) : ℝ := radians (357.52911 + jc * (35999.05029 - 0.0001537 * jc))

/-- `solar.py:102-111` — equation of time (radians). -/
noncomputable def equationOfTime (jc : ℝ) : ℝ :=
  let l0 := meanLongSun jc
  let m0 := meanAnomalySun jc
  let e := eccentricity jc
  let y := Real.tan (obliquity jc / 2) ^ 2
  4 * (y * Real.sin (2 * l0) - 2 * e * Real.sin m0 + 4 * e * y * Real.sin m0 * Real.cos (2 * l0) -
    0.5 * y * y * Real.sin (4 * l0) - 1.25 * e * e * Real.sin (2 * m0))

/-- `solar.py:113-120` — hour angle. -/
noncomputable def hourAngle (jc frac lngDeg : ℝ) : ℝ :=
  let h := radians (fmod (1440 * frac + degrees (equationOfTime jc) + 4 * lngDeg) 1440) / 4
  if h < 0 then h + Real.pi else h - Real.pi

/-- `solar.py:122-133` — the argument of the arcsine giving the declination. -/
noncomputable def sinDeclination (jc : ℝ) : ℝ :=
  let m0 := meanAnomalySun jc
  let center := radians (Real.sin m0 * (1.914602 - jc * (0.004817 + 0.000014 * jc)) +
    Real.sin (2 * m0) * (0.019993 - 0.000101 * jc) + Real.sin (3 * m0) * 0.000289)
  let apparent := meanLongSun jc + center -
    radians (0.00569 - 0.00478 * Real.sin (radians (125.04 - 1934.136 * jc)))
  Real.sin (obliquity jc) * Real.sin apparent

/-- `solar.py:135-138` — the argument of the arccosine giving the zenith angle. -/
noncomputable def cosZenith (jc frac lat lngDeg : ℝ) : ℝ :=
  let dec := Real.arcsin (sinDeclination jc)
  Real.sin lat * Real.sin dec + Real.cos lat * Real.cos dec * Real.cos (hourAngle jc frac lngDeg)

/-- `solar.py:143-155` — atmospheric refraction in arc seconds. -/
noncomputable def refraction (el : ℝ) : ℝ :=
  if el > 85 then 0
  else if el > 5 then
    let t := Real.tan (radians el)
    58.1 / t - 0.07 / t ^ 3 + 0.000086 / t ^ 5
  else if el > -0.575 then
    1735 + el * (-518.2 + el * (103.4 + el * (-12.79 + el * 0.711)))
  else -20.772 / Real.tan (radians el)

/-- What `solar_calculator` returns: elevation [deg], azimuth [deg], flux [W/m²]. (`solar.py:174`) -/
structure SolarPosition where
  el : ℝ
  az : ℝ
  flux : ℝ

/-- `solar.py:43-174` — `solar_calculator`, from the Julian century, the fraction of the day, the
latitude [rad] and longitude [deg]. The validity and timezone guards (lines 60-63) are outside the
model: the numbers below make sense for every latitude. At the poles and at zenith the azimuth divides
by zero (NaN in NumPy, 0 here). -/
noncomputable def solarCalculatorAt (jc frac lat lngDeg : ℝ) : SolarPosition :=
  let dec := Real.arcsin (sinDeclination jc)
  let zenith := Real.arccos (cosZenith jc frac lat lngDeg)
  let elU := 90 - degrees zenith
  let cosAz := (Real.sin lat * Real.cos zenith - Real.sin dec) / (Real.cos lat * Real.sin zenith)
  let az := Real.arccos (clip cosAz (-1) 1)
  let e := eccentricity jc
  { el := elU + refraction elU / 3600
    az := if hourAngle jc frac lngDeg > 0 then degrees az + 180 else 180 - degrees az
    flux := 1366 * (1 + 0.5 * (((1 + e) / (1 - e)) ^ 2 - 1) * Real.cos (meanAnomalySun jc)) }

/-- `datetime`'s calendar: year, month, day of an instant (standard library, a parameter). (`solar.py:71-75`) -/
abbrev Calendar := ℤ → ℤ × ℤ × ℤ

/-- `solar.py:43-174` — the ephemeris as used by the balloon. -/
noncomputable def solarCalculator (cal : Calendar) (l : LatLng) (now : ℤ) : SolarPosition :=
  let d := cal now
  solarCalculatorAt (julianCentury d.1 d.2.1 d.2.2 now) (fractionOfDay now) l.lat (degrees l.lng)

/-- The part of the result the balloon uses. (`solar.py:43-174`) -/
noncomputable def realSun (cal : Calendar) : Sun := fun l now =>
  let r := solarCalculator cal l now
  { el := r.el, flux := r.flux }

/-! ## The search -/

/-- `solar.py:357-364` — the bracketing loop over the index objective. -/
noncomputable def bracketLoop (f : ℤ → ℝ) (low high : ℤ) : ℤ × ℤ :=
  if h : high > low + 1 then
    if f low < f high then bracketLoop f low (low + (high - low + 1) / 2)
    else bracketLoop f (low + (high - low) / 2) high
  else (low, high)
termination_by (high - low).toNat
decreasing_by all_goals omega

/-- `solar.py:354-370` — index found by the search over `0..maxSteps`. -/
noncomputable def searchIndex (f : ℤ → ℝ) (maxSteps : ℤ) : ℤ :=
  let r := bracketLoop f 0 maxSteps
  if f r.1 < f r.2 then r.1 else r.2

/-- `solar.py:296-375` — `_find_solar_elevation_binary_search` (the returned instant); `el t` is the
solar elevation at instant `t`, `transfer` the objective. The division by a zero step raises. -/
noncomputable def findSolar (el : ℤ → ℝ) (transfer : ℝ → ℝ) (tmin tmax delta : ℤ) : Except Err ℤ :=
  if tmax < tmin then .error .value
  else if delta = 0 then .error .zeroDivision
  else
    let maxSteps := Int.tdiv (tmax - tmin) delta
    if ¬ maxSteps > 0 then .error .assertion
    else .ok (tmin + delta * searchIndex (fun i => transfer (el (tmin + delta * i))) maxSteps)

/-- `solar.py:239-255` — `is_solar_afternoon`. -/
noncomputable def isAfternoon (el : ℤ → ℝ) (t : ℤ) : Bool := decide (el (t + usPerSec) < el t)

/-- 12 hours in microseconds (`dt.timedelta(hours=12)`). (`solar.py:397-429`) -/
def halfDay : ℤ := 12 * 3600 * usPerSec

/-- `solar.py:378-402` — `get_next_solar_midnight` (the instant). -/
noncomputable def nextMidnight (el : ℤ → ℝ) (t delta : ℤ) : Except Err ℤ :=
  if isAfternoon el t then findSolar el (fun x => x) t (t + halfDay) delta
  else findSolar el (fun x => x) (t + halfDay) (t + 2 * halfDay) delta

/-- `solar.py:405-429` — `get_next_solar_noon` (the instant). -/
noncomputable def nextNoon (el : ℤ → ℝ) (t delta : ℤ) : Except Err ℤ :=
  if isAfternoon el t then findSolar el (fun x => -x) (t + halfDay) (t + 2 * halfDay) delta
  else findSolar el (fun x => -x) t (t + halfDay) delta

/-- `solar.py:286-293, 460-475` — search for the sunrise elevation. A `ValueError` from the inner
search is re-raised as another `ValueError`. -/
noncomputable def findSunLevel (el : ℤ → ℝ) (tmin tmax delta : ℤ) : Except Err ℤ :=
  findSolar el (fun x => |x - minSolarEl|) tmin tmax delta

/-- `solar.py:432-483` — `get_next_sunrise_sunset`: (sunrise, sunset); `latDeg` is the latitude. -/
noncomputable def nextSunriseSunset (el : ℤ → ℝ) (latDeg : ℝ) (t delta : ℤ) : Except Err (ℤ × ℤ) := do
  if ¬ |latDeg| < 60 then throw .assertion
  let noon ← nextNoon el t delta
  let midnight ← nextMidnight el t delta
  let rs ← if isAfternoon el t then do
      let sunrise ← findSunLevel el midnight noon delta
      let sunset ← findSunLevel el (noon - usPerDay) midnight delta
      pure (sunrise, sunset)
    else do
      let sunrise ← findSunLevel el (midnight - usPerDay) noon delta
      let sunset ← findSunLevel el noon midnight delta
      pure (sunrise, sunset)
  return (if rs.1 < t then rs.1 + usPerDay else rs.1, if rs.2 < t then rs.2 + usPerDay else rs.2)

/-- `solar.py:486-512` — `calculate_steps_to_sunrise`. -/
noncomputable def stepsToSunrise (el : ℤ → ℝ) (latDeg : ℝ) (t delta : ℤ) : Except Err ℤ :=
  if el t ≥ minSolarEl then .ok 0
  else
    match nextSunriseSunset el latDeg t delta with
    | .error e => .error e
    | .ok (sunrise, _) => .ok ⌈((sunrise - t : ℤ) : ℚ) / (delta : ℚ)⌉

/-- `BLE/env/features.py:72-103` — `compute_sunrise_time` given the two events. The quotient
`π·timedelta / timedelta` is taken exactly (Python rounds `π·timedelta` to a microsecond). -/
noncomputable def sunriseTime (t sunrise sunset : ℤ) : Except Err ℝ :=
  if ¬ (sunrise - usPerDay ≤ t ∧ t ≤ sunrise) then .error .assertion
  else if ¬ (sunset - usPerDay ≤ t ∧ t ≤ sunset) then .error .assertion
  else if sunset < sunrise then
    pyDiv (Real.pi * ((t - (sunrise - usPerDay) : ℤ) : ℝ)) ((sunset - (sunrise - usPerDay) : ℤ) : ℝ)
  else
    (pyDiv (Real.pi * ((t - (sunset - usPerDay) : ℤ) : ℝ)) ((sunrise - (sunset - usPerDay) : ℤ) : ℝ)).map
      fun q => Real.pi + q

end BLE
