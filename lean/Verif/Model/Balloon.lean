import Verif.Model.Safety
import Verif.Model.Atmosphere
import Verif.Model.Acs
import Verif.Model.Thermal

/-!
# The balloon: state and equations of motion

`BLE/env/balloon/balloon.py`. The ephemeris `solar_calculator` (`BLE/env/balloon/solar.py:43-174`) is
a parameter `sun`; the atmosphere is the concrete one of `Verif.Model.Atmosphere` with blend `α`.
-/

namespace BLE

/-- `balloon.py:66-70` — `BalloonStatus`. -/
inductive Status
  | ok | outOfPower | burst | zeropressure
  deriving DecidableEq, Repr

/-- `balloon.py:150-208` — `BalloonState`. Distances in m, power in W, energy in Wh, times in µs. -/
structure BState where
  center : LatLng
  dateTime : ℤ
  timeElapsed : ℤ
  volBase : ℝ
  dvdp : ℝ
  envMass : ℝ
  maxSp : ℝ
  cod : ℝ
  payload : ℝ
  nightLoad : ℝ
  dayLoad : ℝ
  valveDiam : ℝ
  cap : ℝ
  x : ℝ
  y : ℝ
  pressure : ℝ
  ambT : ℝ
  molsLift : ℝ
  molsAir : ℝ
  intT : ℝ
  vol : ℝ
  sp : ℝ
  acsPower : ℝ
  acsFlow : ℝ
  solarCharging : ℝ
  powerLoad : ℝ
  charge : ℝ
  lastCommand : Command
  status : Status
  powerEnabled : Bool
  power : PowerLayer
  env : EnvLayer
  alt : AltState
  upwelling : ℝ

/-- The result of `solar_calculator` that is used: elevation [deg] and flux [W/m²]. (`balloon.py:234-235, 451-452`) -/
structure SunVals where
  el : ℝ
  flux : ℝ

/-- The ephemeris as a parameter (`solar.py:43-174`). -/
abbrev Sun := LatLng → ℤ → SunVals

/-- `balloon.py:217-220` — `latlng`. -/
noncomputable def BState.latlng (s : BState) : LatLng := latlngFromOffset s.center s.x s.y

/-- `balloon.py:222-229` — `battery_soc`. -/
noncomputable def BState.soc (s : BState) : Except Err ℝ := pyDiv s.charge s.cap

/-- `balloon.py:231-238` — `excess_energy`; `and` short-circuits. -/
noncomputable def BState.excessEnergy (sun : Sun) (s : BState) : Except Err Bool := do
  let p ← solarPower (sun s.latlng s.dateTime).el s.pressure
  if p > s.dayLoad then
    let soc ← s.soc
    return decide (soc > 0.99)
  else return false

/-- `balloon.py:240-245` — `navigation_is_paused`. -/
def BState.navPaused (s : BState) : Bool := s.power.paused || s.env.paused || s.alt.paused

/-- `balloon.py:247-250` — `pressure_ratio` (for non-zero pressure). -/
noncomputable def BState.pressureRatio (s : BState) : ℝ := (s.pressure + max s.sp 0) / s.pressure

/-- `balloon.py:552-609` — `calculate_superpressure_and_volume`: (volume, superpressure), for
non-zero pressure. The deprecated static method (`balloon.py:331-348`) only warns and calls it. -/
noncomputable def superpressureAndVolume (nL nA t p v0 dv : ℝ) : ℝ × ℝ :=
  let u := (nL + nA) * gasR * t / p
  if u ≤ v0 then (u, 0)
  else
    let b := -(v0 - dv * p)
    let c := -(dv * u * p)
    let v := 0.5 * (-b + Real.sqrt (b * b - 4 * c))
    (v, p * u / v - p)

/-- `balloon.py:487-513` — ACS power [W] and mass flow [kg/s] for the flown command. -/
noncomputable def acsEffect (s : BState) : Command → ℝ × ℝ
  | .up =>
    let area := Real.pi * s.valveDiam ^ 2 / 4
    let dens := (s.sp + s.pressure) * airM / (gasR * s.intT)
    (0, -1 * 0.62 * area * Real.sqrt (2 * s.sp * dens))
  | .down =>
    let w := mostEfficientPower s.pressureRatio
    (w, massFlow w (fanEfficiency s.pressureRatio w))
  | .stay => (0, 0)

/-- `balloon.py:412-413` — density of the ambient air. -/
noncomputable def BState.rhoAir (s : BState) : ℝ := s.pressure * airM / (gasR * s.ambT)

/-- `balloon.py:417-420` — total flight system mass. -/
noncomputable def BState.systemMass (s : BState) : ℝ :=
  heM * s.molsLift + airM * s.molsAir + s.envMass + s.payload

/-- `balloon.py:412-445` — new pressure. `pyDiv` guards are the places where Python floats would raise
`ZeroDivisionError` (once NumPy scalars flow in, those divisions yield inf/nan instead; both are
outside the physical range). -/
noncomputable def newPressure (α : ℝ) (s : BState) (stride : ℤ) : Except Err ℝ := do
  let rho ← pyDiv (s.pressure * airM) (gasR * s.ambT)
  let drag := s.cod * s.vol ^ (2.0 / 3.0 : ℝ)
  let mass := s.systemMass
  let dir : ℝ := if rho * s.vol ≥ mass then 1 else -1
  let q ← pyDiv (2 * (rho * s.vol - mass) * gravity) (rho * drag)
  let dhdt := dir * Real.sqrt |q|
  let a0 ← atPressure α s.pressure
  let a1 ← atPressure α (s.pressure + dir * 1.0)
  let dpdh ← pyDiv (dir * 1.0) (a1.height - a0.height)
  return s.pressure + dpdh * dhdt * totalSeconds stride

/-- `balloon.py:479-482, 541-542` — status after the sub-step: the key is only overwritten when one of
the conditions holds. -/
noncomputable def newStatus (old : Status) (maxSp sp charge : ℝ) : Status :=
  let s1 := if sp > maxSp then .burst else old
  let s2 := if sp ≤ 0 then .zeropressure else s1
  if charge ≤ 0 then .outOfPower else s2

/-- `balloon.py:356-549` — `_simulate_step_internal` together with the application of the changes
(lines 324-325). All right-hand sides read the old state. An exception leaves the state unchanged. -/
noncomputable def substep (sun : Sun) (α : ℝ) (u v : ℝ) (a : Command) (stride : ℤ) (s : BState) :
    Except Err BState := do
  let p' ← newPressure α s stride
  let sv := sun s.latlng s.dateTime
  let amb ← atPressure α s.pressure
  let dT ← dTempDt s.vol s.envMass s.intT s.ambT s.pressure sv.el sv.flux s.upwelling
  let vs := superpressureAndVolume s.molsLift s.molsAir s.intT s.pressure s.volBase s.dvdp
  let acs := acsEffect s a
  let isDay := decide (sv.el > minSolarEl)
  let solar ← if isDay then solarPower sv.el s.pressure else pure 0
  let load := (if isDay then s.dayLoad else s.nightLoad) + acs.1
  let charge := clip (s.charge + (solar - load) * hoursOf stride) 0 s.cap
  return { s with
    x := s.x + u * totalSeconds stride
    y := s.y + v * totalSeconds stride
    pressure := p'
    ambT := amb.temperature
    intT := s.intT + dT * totalSeconds stride
    vol := vs.1
    sp := vs.2
    acsPower := acs.1
    acsFlow := acs.2
    molsAir := max (s.molsAir + acs.2 / airM * totalSeconds stride) 0
    solarCharging := solar
    powerLoad := load
    charge := charge
    status := newStatus s.status s.maxSp vs.2 charge
    dateTime := s.dateTime + stride
    timeElapsed := s.timeElapsed + stride }

/-- `balloon.py:321-328` — the inner loop: at most `n` sub-steps, stopping after a terminal one. -/
def substepLoop (step : BState → Except Err BState) : ℕ → BState → BState × Except Err Unit
  | 0, s => (s, .ok ())
  | n + 1, s =>
    match step s with
    | .error e => (s, .error e)
    | .ok s' => if s'.status ≠ .ok then (s', .ok ()) else substepLoop step n s'

/-- `balloon.py:304-313` — the safety chain: state with updated layers, and the flown command. -/
noncomputable def safetyChain (α : ℝ) (s : BState) (a : Command) : BState × Except Err Command :=
  let pr : PowerLayer × Except Err Command :=
    if s.powerEnabled then s.power.getAction a s.dateTime s.nightLoad s.charge s.cap
    else (s.power, .ok a)
  let s1 := { s with power := pr.1 }
  match pr.2 with
  | .error e => (s1, .error e)
  | .ok a1 =>
    let er := s1.env.getAction a1 s1.sp
    let s2 := { s1 with env := er.1 }
    match atPressure α s2.pressure with
    | .error e => (s2, .error e)
    | .ok v =>
      let ar := altGetAction s2.alt er.2 v.height
      ({ s2 with alt := ar.1 }, .ok ar.2)

/-- `balloon.py:263-328` — `Balloon.simulate_step`; the mutated state together with the outcome.
`int(x.total_seconds())` truncates; `%` and `//` are Python's floored versions; `range` of a
negative number is empty. -/
noncomputable def simulateStep (sun : Sun) (α : ℝ) (u v : ℝ) (a : Command) (timeDelta stride : ℤ)
    (s0 : BState) : BState × Except Err Unit :=
  let s := { s0 with lastCommand := a }
  if s.status ≠ .ok then (s, .error .assertion)
  else
    match safetyChain α s a with
    | (s1, .error e) => (s1, .error e)
    | (s1, .ok eff) =>
      let outer := Int.tdiv timeDelta usPerSec
      let inner := Int.tdiv stride usPerSec
      if inner = 0 then (s1, .error .zeroDivision)
      else if Int.fmod outer inner ≠ 0 then (s1, .error .assertion)
      else substepLoop (substep sun α u v eff stride) (Int.fdiv outer inner).toNat s1

/-- One call of `simulate_step`: wind, command, duration, stride. (`balloon.py:263-270`) -/
structure StepCall where
  u : ℝ
  v : ℝ
  action : Command
  timeDelta : ℤ
  stride : ℤ

/-- Any sequence of `simulate_step` calls on one balloon, failing calls included (the object keeps
whatever the failing call left, `balloon.py:263-328`). -/
noncomputable def simulateMany (sun : Sun) (α : ℝ) (s : BState) (calls : List StepCall) : BState :=
  calls.foldl (fun s c => (simulateStep sun α c.u c.v c.action c.timeDelta c.stride s).1) s

end BLE
