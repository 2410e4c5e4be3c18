import Mathlib.Data.Real.Basic

/-!
# Common vocabulary of the model

`BLE/` abbreviates `balloon_learning_environment/` in all citations.
Floats are modelled as real numbers, `datetime`/`timedelta` as integer microseconds.
-/

namespace BLE

/-- Exceptions as values. Each constructor is a Python exception type raised by the modelled code
(`AssertionError`, `ValueError`, `RuntimeError`, `ZeroDivisionError`, `IndexError`, `EOFError`,
`FileNotFoundError`, TensorFlow's `NotFoundError`, `NotImplementedError`, `TypeError`, `AttributeError`, `KeyError`,
`KeyboardInterrupt`, `LinAlgError`, `NameError`). -/
inductive Err
  | assertion | value | runtime | zeroDivision | index | eof | fileNotFound | tfNotFound
  | notImplemented | type | attribute | key | keyboardInterrupt | linAlg | name
  deriving DecidableEq, Repr

/-- `BLE/env/balloon/control.py:21-25` — `AltitudeControlCommand`. -/
inductive Command
  | down | stay | up
  deriving DecidableEq, Repr

/-- `BLE/env/balloon/control.py:23-25` — the integer values of the `IntEnum`. -/
def Command.toInt : Command → ℤ
  | .down => 0
  | .stay => 1
  | .up => 2

/-- `enum` lookup by value, `AltitudeControlCommand(action)`; raises `ValueError` for other integers
(`BLE/env/balloon/control.py:21-25`, used in `BLE/env/balloon_env.py:168`). -/
def Command.ofInt (a : ℤ) : Except Err Command :=
  if a = 0 then .ok .down else if a = 1 then .ok .stay else if a = 2 then .ok .up else .error .value

/-- Float division: Python raises `ZeroDivisionError` for a zero divisor (used wherever the code
divides plain Python floats, e.g. `BLE/utils/units.py:221-225`). -/
noncomputable def pyDiv (a b : ℝ) : Except Err ℝ := if b = 0 then .error .zeroDivision else .ok (a / b)

/-- `BLE/env/balloon/balloon.py:351-353` — `_clip`, `min(max(x, minval), maxval)`. Also `np.clip`. -/
noncomputable def clip (x lo hi : ℝ) : ℝ := min (max x lo) hi

/-! ## Physical constants — `BLE/utils/constants.py:23-30` -/

/-- `constants.py:23` -/
noncomputable def gravity : ℝ := 9.80665
/-- `constants.py:26` -/
noncomputable def gasR : ℝ := 8.3144621
/-- `constants.py:27` -/
noncomputable def airM : ℝ := 0.028964922481160
/-- `constants.py:28` -/
noncomputable def heM : ℝ := 0.004002602
/-- `constants.py:29-30` — `DRY_AIR_SPECIFIC_GAS_CONSTANT` -/
noncomputable def airRs : ℝ := gasR / airM

/-- Microseconds per second (`datetime.timedelta` resolution). (`balloon.py:315-316`) -/
def usPerSec : ℤ := 1000000
/-- `datetime.timedelta(days=1)` in microseconds. (`power_safety.py:84, 86`) -/
def usPerDay : ℤ := 86400 * usPerSec
/-- `timedelta.total_seconds()` (`balloon.py:445, 467, 517`) -/
noncomputable def totalSeconds (us : ℤ) : ℝ := (us : ℝ) / 1000000
/-- `BLE/utils/units.py:312-317` — `timedelta_to_hours`. -/
noncomputable def hoursOf (us : ℤ) : ℝ := totalSeconds us / 3600

end BLE
