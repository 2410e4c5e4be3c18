import Verif.Model.Basic

/-!
# The three safety layers

`BLE/env/balloon/envelope_safety.py`, `altitude_safety.py`, `power_safety.py`.
The third-party `transitions.Machine` is modelled as what it is configured to be: a trigger applied
to a state takes the first transition in the table whose source matches.
-/

namespace BLE

/-! ## Envelope safety layer -/

/-- `envelope_safety.py:45-50` — `_SuperpressureState`. -/
inductive SPState
  | nominal | lowCritical | low | high | highCritical
  deriving DecidableEq, Repr

/-- `envelope_safety.py:54-90` — the trigger names of the transition table. -/
inductive SPTrigger
  | lowCritical | low | lowNominal | nominal | highNominal | high | highCritical
  deriving DecidableEq, Repr

/-- `envelope_safety.py:54-90` — first matching row of `_ENVELOPE_SAFETY_TRANSITIONS`. -/
def spTransition : SPTrigger → SPState → SPState
  | .lowCritical, _ => .lowCritical
  | .low, _ => .low
  | .lowNominal, .lowCritical => .low
  | .lowNominal, .low => .low
  | .lowNominal, _ => .nominal
  | .nominal, _ => .nominal
  | .highNominal, .high => .high
  | .highNominal, .highCritical => .high
  | .highNominal, _ => .nominal
  | .high, _ => .high
  | .highCritical, _ => .highCritical

/-- `envelope_safety.py:40-42, 142-157` — the trigger fired by `_transition_state`. -/
noncomputable def spTrigger (maxSp sp : ℝ) : SPTrigger :=
  if sp < 150 then .lowCritical
  else if sp < 250 then .low
  else if sp < 250 + 50 then .lowNominal
  else if sp < maxSp - 250 - 50 then .nominal
  else if sp < maxSp - 250 then .highNominal
  else if sp < maxSp - 150 then .high
  else .highCritical

/-- `envelope_safety.py:100-107` — the layer: state machine plus the stored maximum. -/
structure EnvLayer where
  state : SPState
  maxSp : ℝ

/-- `envelope_safety.py:100-107` — constructor. -/
noncomputable def EnvLayer.new (maxSp : ℝ) : EnvLayer := { state := .nominal, maxSp := maxSp }

/-- `envelope_safety.py:109-136` — `get_action`; returns the updated layer and the action. -/
noncomputable def EnvLayer.getAction (L : EnvLayer) (a : Command) (sp : ℝ) : EnvLayer × Command :=
  let s := spTransition (spTrigger L.maxSp sp) L.state
  let L' := { L with state := s }
  if s = .lowCritical ∨ s = .highCritical then (L', .up)
  else if (s = .low ∨ s = .high) ∧ a = .down then (L', .stay)
  else (L', a)

/-- `envelope_safety.py:138-140` — `navigation_is_paused`. -/
def EnvLayer.paused (L : EnvLayer) : Bool := L.state ≠ .nominal

/-- Any sequence of `get_action` calls on a freshly constructed layer (`envelope_safety.py:100-136`). -/
noncomputable def EnvLayer.run (maxSp : ℝ) (calls : List (Command × ℝ)) : EnvLayer :=
  calls.foldl (fun L c => (L.getAction c.1 c.2).1) (EnvLayer.new maxSp)

/-! ## Altitude safety layer -/

/-- `altitude_safety.py:40-43` — `_AltitudeState`. -/
inductive AltState
  | nominal | low | veryLow
  deriving DecidableEq, Repr

/-- `altitude_safety.py:48-60` — trigger names. -/
inductive AltTrigger
  | veryLow | low | lowNominal | nominal
  deriving DecidableEq, Repr

/-- `altitude_safety.py:48-60` — `_ALTITUDE_SAFETY_TRANSITIONS`. -/
def altTransition : AltTrigger → AltState → AltState
  | .veryLow, _ => .veryLow
  | .low, _ => .low
  | .lowNominal, .veryLow => .low
  | .lowNominal, .low => .low
  | .lowNominal, .nominal => .nominal
  | .nominal, _ => .nominal

/-- `altitude_safety.py:35` — `BUFFER = Distance(feet=500)`, in metres (`units.py:23,38`). -/
noncomputable def altBuffer : ℝ := 500 * 0.3048
/-- `altitude_safety.py:36` — `RESTART_HYSTERESIS = Distance(feet=500)`, in metres. -/
noncomputable def altHysteresis : ℝ := 500 * 0.3048
/-- `altitude_safety.py:37` — `MIN_ALTITUDE = Distance(feet=50_000)`, in metres. -/
noncomputable def minAltitude : ℝ := 50000 * 0.3048

/-- `altitude_safety.py:103-111` — the trigger fired by `_transition_state` (altitude in metres). -/
noncomputable def altTrigger (alt : ℝ) : AltTrigger :=
  if alt < minAltitude then .veryLow
  else if alt < minAltitude + altBuffer then .low
  else if alt < minAltitude + altBuffer + altHysteresis then .lowNominal
  else .nominal

/-- `altitude_safety.py:73-97` — `get_action`, given the altitude [m] that
`atmosphere.at_pressure(pressure).height` (line 86) returned. The failing lookup is handled by the
caller (`simulateStep`). -/
noncomputable def altGetAction (s : AltState) (a : Command) (alt : ℝ) : AltState × Command :=
  let s' := altTransition (altTrigger alt) s
  if s' = .veryLow then (s', .up)
  else if s' = .low ∧ a = .down then (s', .stay)
  else (s', a)

/-- `altitude_safety.py:99-101` — `navigation_is_paused`. -/
def AltState.paused (s : AltState) : Bool := s ≠ .nominal

/-- Any sequence of `get_action` calls on a freshly constructed layer
(`altitude_safety.py:66-97`; the initial state is `NOMINAL`, line 70). -/
noncomputable def AltState.run (calls : List (Command × ℝ)) : AltState :=
  calls.foldl (fun s c => (altGetAction s c.1 c.2).1) .nominal

/-! ## Power safety layer -/

/-- `power_safety.py:33-50` — mutable attributes of the layer (`_sunrise` itself is never read again;
the thresholds are constants). Times are microseconds. -/
structure PowerLayer where
  paused : Bool
  sunriseH : ℤ
  sunset : ℤ

/-- `power_safety.py:46-50` — `_time_hysteresis`, 30 minutes. -/
def powerHysteresis : ℤ := 30 * 60 * usPerSec

/-- `power_safety.py:33-50` — constructor, given the result of `get_next_sunrise_sunset`. -/
def PowerLayer.new (sunrise sunset : ℤ) : PowerLayer :=
  { paused := false, sunriseH := sunrise + powerHysteresis, sunset := sunset }

/-- `power_safety.py:83-84` and `85-86` — `while date_time > t: t += timedelta(days=1)`. -/
def catchUp (now t : ℤ) : ℤ :=
  if now > t then catchUp now (t + usPerDay) else t
termination_by (now - t).toNat
decreasing_by
  simp only [usPerDay, usPerSec]; omega

/-- `power_safety.py:120-126` — `get_paused_action`. -/
def pausedAction (a : Command) : Command := if a = .down then .stay else a

/-- `power_safety.py:52-118` — `get_action`. Power in W, energy in Wh. Division by a zero capacity
raises (`units.py:221-225`), after the clock has been advanced. -/
noncomputable def PowerLayer.getAction (L : PowerLayer) (a : Command) (now : ℤ)
    (night charge cap : ℝ) : PowerLayer × Except Err Command :=
  let sr := catchUp now L.sunriseH
  let ss := catchUp now L.sunset
  let L1 : PowerLayer := { L with sunriseH := sr, sunset := ss }
  if ss < sr then
    match pyDiv charge cap with
    | .error e => (L1, .error e)
    | .ok soc =>
      if L1.paused = true ∧ soc < 0.05 then (L1, .ok (pausedAction a))
      else ({ L1 with paused := false }, .ok a)
  else if L1.paused then (L1, .ok (pausedAction a))
  else
    match pyDiv (charge - night * hoursOf (sr - now)) cap with
    | .error e => (L1, .error e)
    | .ok rem =>
      if rem < 0.025 then ({ L1 with paused := true }, .ok (pausedAction a))
      else (L1, .ok a)

/-- Arguments of one `get_action` call (`power_safety.py:52-59`). -/
structure PowerCall where
  action : Command
  now : ℤ
  night : ℝ
  charge : ℝ
  cap : ℝ

/-- Any sequence of `get_action` calls on a layer (the layer keeps whatever a failing call left).
(`power_safety.py:52-117`) -/
noncomputable def PowerLayer.run (L : PowerLayer) (calls : List PowerCall) : PowerLayer :=
  calls.foldl (fun L c => (L.getAction c.action c.now c.night c.charge c.cap).1) L

end BLE
