import Verif.Model.Solar

/-!
# Dates and times

`BLE/utils/units.py:320-373` and the use of a `datetime` by `BLE/env/balloon/solar.py:60-79`. A time zone is a fixed offset from UTC
(`dt.timezone`), so `fold` has no effect and is left out. The day count of the standard library is modelled (`datetime.py:_ymd2ord`);
its inverse is a parameter (`Calendar`).
-/

namespace BLE

/-- A `dt.datetime`: the date, the microseconds of its day, and the offset of its zone from UTC in microseconds (`none`: naive).
(`units.py:320-359`) -/
structure DateTime where
  year : ℤ
  month : ℤ
  day : ℤ
  us : ℤ
  tz : Option ℤ
  deriving DecidableEq, Repr

/-- Standard library, `_is_leap`. (used by `units.py:357`) -/
def pyLeap (y : ℤ) : Bool := y % 4 = 0 && (y % 100 ≠ 0 || y % 400 = 0)

/-- Standard library, `_days_in_month`. (used by `units.py:357`) -/
def pyDaysInMonth (y m : ℤ) : ℤ :=
  if m = 2 ∧ pyLeap y then 29
  else if m = 2 then 28 else if m = 4 ∨ m = 6 ∨ m = 9 ∨ m = 11 then 30 else 31

/-- Standard library, `_DAYS_BEFORE_MONTH`. (used by `units.py:357`) -/
def pyDaysBefore (m : ℤ) : ℤ := [0, 0, 31, 59, 90, 120, 151, 181, 212, 243, 273, 304, 334].getD m.toNat 0

/-- Standard library, `_ymd2ord`: the number of a day, 1 for 1 January of year 1. (used by `solar.py:67`) -/
def pyOrdinal (y m d : ℤ) : ℤ :=
  (y - 1) * 365 + (y - 1) / 4 - (y - 1) / 100 + (y - 1) / 400 + (pyDaysBefore m + if 2 < m ∧ pyLeap y then 1 else 0) + d

/-- `units.py:320-359` — `datetime`; the standard library's constructor raises `ValueError` for fields out of range. The time of the day
defaults to midnight and the zone to UTC; a zone given as `None` is passed on. -/
def unitsDatetime (year month day : ℤ) (hour minute second microsecond : ℤ := 0) (tz : Option ℤ := some 0) : Except Err DateTime :=
  if ¬ (1 ≤ year ∧ year ≤ 9999) then .error .value
  else if ¬ (1 ≤ month ∧ month ≤ 12) then .error .value
  else if ¬ (1 ≤ day ∧ day ≤ pyDaysInMonth year month) then .error .value
  else if ¬ (0 ≤ hour ∧ hour ≤ 23) then .error .value
  else if ¬ (0 ≤ minute ∧ minute ≤ 59) then .error .value
  else if ¬ (0 ≤ second ∧ second ≤ 59) then .error .value
  else if ¬ (0 ≤ microsecond ∧ microsecond ≤ 999999) then .error .value
  else .ok { year := year, month := month, day := day, tz := tz
             us := ((hour * 60 + minute) * 60 + second) * usPerSec + microsecond }

/-- `datetime.timestamp()` of an aware datetime, in microseconds since 1970 (`solar.py:67`). -/
def DateTime.instant (d : DateTime) (offset : ℤ) : ℤ := (pyOrdinal d.year d.month d.day - 719163) * usPerDay + d.us - offset

/-- `units.py:362-373` — `datetime_from_timestamp`, of whole seconds; the standard library raises for years out of range. -/
def datetimeFromTimestamp (cal : Calendar) (timestamp : ℤ) : Except Err DateTime :=
  if -62135596800 ≤ timestamp ∧ timestamp < 253402300800 then
    .ok { year := (cal (timestamp * usPerSec)).1, month := (cal (timestamp * usPerSec)).2.1, day := (cal (timestamp * usPerSec)).2.2
          us := timestamp * usPerSec % usPerDay, tz := some 0 }
  else .error .value

/-- `solar.py:43-174` — `solar_calculator` with its guards, of a datetime: the fraction of the day is that of the instant, the date is
the one the datetime carries. `valid` is the truth value of `latlng.is_valid` (s2sphere; if that is a method, which is not called here,
it is always true). -/
noncomputable def solarCalculatorDT (valid : LatLng → Bool) (l : LatLng) (d : DateTime) : Except Err SolarPosition :=
  if !valid l then .error .value
  else
    match d.tz with
    | none => .error .value
    | some o => .ok (solarCalculatorAt (julianCentury d.year d.month d.day (d.instant o)) (fractionOfDay (d.instant o)) l.lat
        (degrees l.lng))

end BLE
