import Verif.Model.Geometry
import Mathlib.Analysis.SpecialFunctions.Pow.Real

/-!
# Solar attenuation, solar power and the thermal model

`BLE/env/balloon/solar.py:177-236, 515-536`, `BLE/env/balloon/thermal.py`.
-/

namespace BLE

/-- `solar.py:38` — `MIN_SOLAR_EL_DEG`. -/
noncomputable def minSolarEl : ℝ := -4.242

/-- `solar.py:177-209` — `solar_atmospheric_attenuation`. -/
noncomputable def attenuation (el p : ℝ) : Except Err ℝ :=
  if el > 90 ∨ el < -90 then .error .value
  else if p > 101325 ∨ p < 0 then .error .value
  else if el < minSolarEl then .ok 0
  else
    let s := 614 * Real.sin (radians el)
    let airmass := 0.34764 * (p / 101325) * (Real.sqrt (1229 + s * s) - s)
    .ok (0.5 * (Real.exp (-0.65 * airmass) + Real.exp (-0.95 * airmass)))

/-- `solar.py:212-236` — `balloon_shadow`. -/
noncomputable def balloonShadow (el h : ℝ) : ℝ :=
  let shadowEl := degrees (atan2 (Real.sqrt (h * (10.41603 + h))) 8.69275)
  if el ≥ shadowEl then 0.4392 else 1

/-- `solar.py:515-536` — `solar_power` [W]. -/
noncomputable def solarPower (el p : ℝ) : Except Err ℝ :=
  match attenuation el p with
  | .error e => .error e
  | .ok att => .ok (210 * att *
      (4 * Real.cos (radians (el - 35)) * balloonShadow el 3.3 +
        2 * Real.cos (radians (el - 65)) * balloonShadow el 2.7))

/-- `thermal.py:47` — `_STEFAN_BOLTZMAN`. -/
noncomputable def stefanBoltzmann : ℝ := 0.000000056704

/-- `thermal.py:52-61` — `black_body_temperature_to_flux`. -/
noncomputable def tempToFlux (t : ℝ) : ℝ := stefanBoltzmann * t ^ 4

/-- `thermal.py:64-73` — `black_body_flux_to_temperature` (for non-negative flux; a negative base
would give a complex number in Python). -/
noncomputable def fluxToTemp (f : ℝ) : ℝ := (f / stefanBoltzmann) ^ (0.25 : ℝ)

/-- `thermal.py:42-44, 76-89` — `absorptivity_ir`. -/
noncomputable def absorptivityIr (t : ℝ) : ℝ := 0.04587 + 0.000232 * (t - 210)

/-- `thermal.py:92-147` — `total_absorptivity`; the division raises for reflectivity 1. -/
noncomputable def totalAbsorptivity (a r : ℝ) : Except Err ℝ :=
  match pyDiv (1 - a - r) (1 - r) with
  | .error e => .error e
  | .ok q =>
    let f := a * (1 + q)
    if f < 0 ∨ f > 1 then .error .value else .ok f

/-- `thermal.py:150-172` — `convective_heat_air_factor` (positive temperatures and radius; division
by a zero temperature or radius and powers of negative numbers are outside the model). -/
noncomputable def convectiveFactor (radius tb ta p : ℝ) : ℝ :=
  let viscosity := 1.458e-6 * ta ^ (1.5 : ℝ) / (ta + 110.4)
  let conductivity := 0.0241 * (ta / 273.15) ^ (0.9 : ℝ)
  let prandtl := 0.804 - 3.25e-4 * ta
  let density := p * airM / (gasR * ta)
  let grashof := 9.80665 * density ^ 2 * (2 * radius) ^ 3 / (ta * viscosity ^ 2) * |ta - tb|
  let rayleigh := prandtl * grashof
  let nusselt := 2 + 0.457 * rayleigh ^ (0.25 : ℝ) + (1 + 2.69e-8 * rayleigh) ^ (1.0 / 12.0 : ℝ)
  let k := nusselt * conductivity / (2 * radius)
  k * (ta - tb)

/-- `thermal.py:175-230` — `d_balloon_temperature_dt`. -/
noncomputable def dTempDt (vol mass tb ta p el solarFlux earthFlux : ℝ) : Except Err ℝ := do
  let radius := (3 * vol / (4 * Real.pi)) ^ (1 / 3 : ℝ)
  let area := 4 * Real.pi * radius * radius
  let att ← attenuation el p
  let aS ← totalAbsorptivity 0.01435 0.0291
  let qSolar := solarFlux * att * 0.25 * area * aS
  let aE ← totalAbsorptivity (absorptivityIr (fluxToTemp earthFlux)) 0.0291
  let qEarth := earthFlux * 0.4605 * area * aE
  let aB ← totalAbsorptivity (absorptivityIr tb) 0.0291
  let qEmitted := tempToFlux tb * area * aB
  let qConv := area * convectiveFactor radius tb ta p
  pyDiv (qSolar + qEarth + qConv - qEmitted) (1500 * mass)

end BLE
