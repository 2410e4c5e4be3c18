import Verif.Model.DateTime
import Verif.Model.Env
import Verif.Props.Ephemeris

/-!
# C148 — the ephemeris and time zones
-/

namespace BLE

/-! ## The calendar -/

theorem pyLeap_iff (y : ℤ) : pyLeap y = true ↔ Spec.leap y := by
  unfold pyLeap Spec.leap
  simp

theorem pyDaysInMonth_eq (y m : ℤ) : pyDaysInMonth y m = Spec.monthLength y m := by
  unfold pyDaysInMonth Spec.monthLength
  simp only [pyLeap_iff]
  split_ifs <;> first | rfl | tauto

theorem days_before : pyDaysBefore 1 = 0 ∧ pyDaysBefore 2 = 31 ∧ pyDaysBefore 3 = 59 ∧ pyDaysBefore 4 = 90 ∧ pyDaysBefore 5 = 120 ∧
    pyDaysBefore 6 = 151 ∧ pyDaysBefore 7 = 181 ∧ pyDaysBefore 8 = 212 ∧ pyDaysBefore 9 = 243 ∧ pyDaysBefore 10 = 273 ∧
    pyDaysBefore 11 = 304 ∧ pyDaysBefore 12 = 334 := by decide

/-- The first of the month, within the year. -/
theorem before_next (y m : ℤ) (h1 : 1 ≤ m) (h2 : m < 12) :
    (pyDaysBefore (m + 1) + if 2 < m + 1 ∧ pyLeap y then 1 else 0) =
      (pyDaysBefore m + if 2 < m ∧ pyLeap y then 1 else 0) + Spec.monthLength y m := by
  unfold Spec.monthLength
  simp only [pyLeap_iff]
  by_cases hl : Spec.leap y
  · interval_cases m <;> simp [hl, pyDaysBefore]
  · interval_cases m <;> simp [hl, pyDaysBefore]

theorem ordinal_year (y : ℤ) : pyOrdinal (y + 1) 1 1 = pyOrdinal y 12 31 + 1 := by
  unfold pyOrdinal
  simp only [pyLeap_iff]
  have e : pyDaysBefore 1 = 0 := rfl
  have e' : pyDaysBefore 12 = 334 := rfl
  rw [e, e']
  by_cases hl : Spec.leap y
  · simp only [hl, and_true]
    norm_num
    unfold Spec.leap at hl
    omega
  · simp only [hl, and_false, if_false]
    unfold Spec.leap at hl
    omega

theorem ordinal_nextDay (y m d : ℤ) (hm0 : 1 ≤ m) (hm1 : m ≤ 12) (hd1 : d ≤ Spec.monthLength y m) :
    pyOrdinal (Spec.nextDay (y, m, d)).1 (Spec.nextDay (y, m, d)).2.1 (Spec.nextDay (y, m, d)).2.2 = pyOrdinal y m d + 1 := by
  unfold Spec.nextDay
  simp only
  split_ifs with h1 h2
  · unfold pyOrdinal; ring
  · have := before_next y m hm0 h2
    unfold pyOrdinal
    simp only
    rw [this]
    omega
  · have hm : m = 12 := by omega
    subst hm
    have hd : d = 31 := by
      have : Spec.monthLength y 12 = 31 := by unfold Spec.monthLength; norm_num
      omega
    subst hd
    exact ordinal_year y

theorem ordinal_civil (n : ℕ) : pyOrdinal (Spec.civil n).1 (Spec.civil n).2.1 (Spec.civil n).2.2 = n + 1 := by
  induction n with
  | zero => decide
  | succ n ih =>
    obtain ⟨_, h2, h3, _, h5⟩ := civil_valid n
    have := ordinal_nextDay _ _ _ h2 h3 h5
    rw [Spec.civil]
    rw [show Spec.civil n = ((Spec.civil n).1, (Spec.civil n).2.1, (Spec.civil n).2.2) from rfl] at *
    rw [this, ih]; push_cast; ring

/-- A date of the calendar. -/
def Spec.IsDate (y m d : ℤ) : Prop := 1 ≤ y ∧ 1 ≤ m ∧ m ≤ 12 ∧ 1 ≤ d ∧ d ≤ Spec.monthLength y m

theorem ordinal_in_year (y m d : ℤ) (h : Spec.IsDate y m d) : pyOrdinal y 1 1 ≤ pyOrdinal y m d ∧ pyOrdinal y m d ≤ pyOrdinal y 12 31 := by
  obtain ⟨-, h2, h3, h4, h5⟩ := h
  unfold Spec.monthLength at h5
  unfold pyOrdinal
  simp only [pyLeap_iff]
  by_cases hl : Spec.leap y <;> simp only [hl, and_true, and_false, if_true, if_false] at h5 ⊢ <;>
    interval_cases m <;> norm_num [days_before] at h5 ⊢ <;> omega

theorem ordinal_years (y : ℤ) (k : ℕ) : pyOrdinal y 12 31 < pyOrdinal (y + 1 + k) 1 1 := by
  induction k with
  | zero => rw [show y + 1 + ((0 : ℕ) : ℤ) = y + 1 by simp, ordinal_year]; omega
  | succ k ih =>
    have h := ordinal_year (y + 1 + k)
    have h' : pyOrdinal (y + 1 + k) 1 1 ≤ pyOrdinal (y + 1 + k) 12 31 := by
      unfold pyOrdinal
      have e : pyDaysBefore 1 = 0 := rfl
      have e' : pyDaysBefore 12 = 334 := rfl
      rw [e, e']
      split_ifs <;> omega
    rw [show y + 1 + ((k + 1 : ℕ) : ℤ) = y + 1 + k + 1 by push_cast; ring]
    omega

/-- Different dates have different numbers. -/
theorem ordinal_inj (y m d y' m' d' : ℤ) (h : Spec.IsDate y m d) (h' : Spec.IsDate y' m' d')
    (e : pyOrdinal y m d = pyOrdinal y' m' d') : y = y' ∧ m = m' ∧ d = d' := by
  have b := ordinal_in_year y m d h
  have b' := ordinal_in_year y' m' d' h'
  have hy : y = y' := by
    rcases lt_trichotomy y y' with g | g | g
    · have := ordinal_years y (y' - y - 1).toNat
      rw [show y + 1 + ((y' - y - 1).toNat : ℤ) = y' by omega] at this
      omega
    · exact g
    · have := ordinal_years y' (y - y' - 1).toNat
      rw [show y' + 1 + ((y - y' - 1).toNat : ℤ) = y by omega] at this
      omega
  subst hy
  refine ⟨rfl, ?_⟩
  obtain ⟨-, h2, h3, h4, h5⟩ := h
  obtain ⟨-, g2, g3, g4, g5⟩ := h'
  unfold pyOrdinal at e
  unfold Spec.monthLength at h5 g5
  simp only [pyLeap_iff] at e
  clear b b'
  by_cases hl : Spec.leap y <;> simp only [hl, and_true, and_false, if_true, if_false] at h5 g5 e <;>
    interval_cases m <;> interval_cases m' <;> norm_num [days_before] at h5 g5 e ⊢ <;> omega

/-- Every date is the date of its number. -/
theorem civil_ordinal (y m d : ℤ) (h : Spec.IsDate y m d) : 1 ≤ pyOrdinal y m d ∧ Spec.civil (pyOrdinal y m d - 1).toNat = (y, m, d) := by
  have b := ordinal_in_year y m d h
  have h1 : 1 ≤ pyOrdinal y 1 1 := by
    have := h.1
    unfold pyOrdinal
    have e : pyDaysBefore 1 = 0 := rfl
    rw [e, if_neg (by omega)]
    omega
  refine ⟨by omega, ?_⟩
  set n := (pyOrdinal y m d - 1).toNat with hn
  have e := ordinal_civil n
  have q := ordinal_inj _ _ _ _ _ _ (civil_valid n) h (by rw [e]; omega)
  rw [← q.1, ← q.2.1, ← q.2.2]

/-! ## C148 -/

/-- A datetime with fields in their ranges. -/
def Spec.GoodTime (d : DateTime) : Prop := Spec.IsDate d.year d.month d.day ∧ d.year ≤ 9999 ∧ 0 ≤ d.us ∧ d.us < usPerDay

/-- The standard calendar on all days it covers. -/
def Spec.StandardCalendar (cal : Calendar) : Prop := ∀ t : ℤ, -719162 * usPerDay ≤ t → cal t = Spec.civil (719162 + t / usPerDay).toNat

/-- C148. `units.datetime` accepts exactly the fields that are a date and a time of day; without a zone it is a UTC time. -/
theorem C148_constructor (y m d h mi s us : ℤ) (tz : Option ℤ) :
    match unitsDatetime y m d h mi s us tz with
    | .ok r => (Spec.IsDate y m d ∧ y ≤ 9999 ∧ (0 ≤ h ∧ h < 24) ∧ (0 ≤ mi ∧ mi < 60) ∧ (0 ≤ s ∧ s < 60) ∧ 0 ≤ us ∧ us < 1000000) ∧
        Spec.GoodTime r ∧ (r.year, r.month, r.day) = (y, m, d) ∧ r.us = h * 3600000000 + mi * 60000000 + s * 1000000 + us ∧ r.tz = tz
    | .error e => e = .value ∧ ¬ (Spec.IsDate y m d ∧ y ≤ 9999 ∧ (0 ≤ h ∧ h < 24) ∧ (0 ≤ mi ∧ mi < 60) ∧ (0 ≤ s ∧ s < 60) ∧
        0 ≤ us ∧ us < 1000000) := by
  unfold unitsDatetime
  rw [pyDaysInMonth_eq]
  unfold Spec.GoodTime Spec.IsDate usPerDay usPerSec
  split_ifs with h1 h2 h3 h4 h5 h6 h7 <;> simp only
  all_goals try exact ⟨trivial, by omega⟩
  exact ⟨by omega, by omega, trivial, by ring, trivial⟩

/-- C148. A timestamp and the datetime made of it denote the same instant, and the datetime is aware; conversely the datetime of a UTC
time's timestamp is that time (to the second). -/
theorem C148_timestamps (cal : Calendar) (hcal : Spec.StandardCalendar cal) :
    (∀ t d, datetimeFromTimestamp cal t = .ok d → Spec.GoodTime d ∧ d.tz = some 0 ∧ d.instant 0 = t * 1000000) ∧
    ∀ d, Spec.GoodTime d → d.tz = some 0 → d.us % 1000000 = 0 → datetimeFromTimestamp cal (d.instant 0 / 1000000) = .ok d := by
  constructor
  · intro t d h
    unfold datetimeFromTimestamp at h
    split_ifs at h with ht
    cases h
    have hn := hcal (t * usPerSec) (by unfold usPerDay usPerSec; omega)
    set n := (719162 + t * usPerSec / usPerDay).toNat with hndef
    have hn' : (n : ℤ) = 719162 + t * usPerSec / usPerDay := by unfold usPerDay usPerSec at *; omega
    have ho := ordinal_civil n
    have hv := civil_valid n
    refine ⟨⟨?_, ?_, ?_, ?_⟩, rfl, ?_⟩
    · simp only [hn]; exact hv
    · simp only [hn]
      by_contra hy
      push Not at hy
      have b := ordinal_in_year _ _ _ hv
      have q := ordinal_years 9999 ((Spec.civil n).1 - 10000).toNat
      rw [show (9999 : ℤ) + 1 + (((Spec.civil n).1 - 10000).toNat : ℤ) = (Spec.civil n).1 by omega] at q
      have : pyOrdinal 9999 12 31 = 3652059 := by decide
      unfold usPerDay usPerSec at hn'
      omega
    · unfold usPerDay usPerSec; simp only; omega
    · unfold usPerDay usPerSec; simp only; omega
    · unfold DateTime.instant
      simp only [hn, ho]
      unfold usPerDay usPerSec at *
      omega
  · rintro ⟨y, m, d, us, tz⟩ ⟨hd, hy, h0, h1⟩ ht hs
    simp only at hd hy h0 h1 ht hs
    subst ht
    obtain ⟨o1, o2⟩ := civil_ordinal y m d hd
    have o3 : pyOrdinal y m d ≤ 3652059 := by
      have b := (ordinal_in_year y m d hd).2
      have e : pyOrdinal 9999 12 31 = 3652059 := by decide
      rcases eq_or_lt_of_le hy with rfl | hlt
      · omega
      · have q := ordinal_years y (9999 - y - 1).toNat
        rw [show y + 1 + ((9999 - y - 1).toNat : ℤ) = 9999 by omega] at q
        have : pyOrdinal 9999 1 1 = 3651695 := by decide
        omega
    have hi : ∃ k, DateTime.instant ⟨y, m, d, us, some 0⟩ 0 = k * 1000000 ∧ k * 1000000 = (pyOrdinal y m d - 719163) * 86400000000 + us := by
      refine ⟨(pyOrdinal y m d - 719163) * 86400 + us / 1000000, ?_, ?_⟩
      · unfold DateTime.instant usPerDay usPerSec; simp only; omega
      · omega
    obtain ⟨k, k1, k2⟩ := hi
    have e : DateTime.instant ⟨y, m, d, us, some 0⟩ 0 / 1000000 = k := by rw [k1]; omega
    rw [e]
    unfold datetimeFromTimestamp
    have hc := hcal (k * usPerSec) (by unfold usPerDay usPerSec at *; omega)
    have e2 : (719162 + k * usPerSec / usPerDay).toNat = (pyOrdinal y m d - 1).toNat := by
      unfold usPerDay usPerSec at *; omega
    rw [e2, o2] at hc
    have e3 : k * usPerSec % usPerDay = us := by unfold usPerDay usPerSec at *; omega
    rw [if_pos (by unfold usPerDay usPerSec at *; omega)]
    simp only [hc, e3]

/-- The Julian time of an instant (microseconds since 1970), to the second. -/
noncomputable def Spec.julianTime (t : ℤ) : ℝ := 2440587.5 + ((t / 1000000 : ℤ) : ℝ) / 86400

/-- The Julian time the code works with is that of the instant, plus the number of days by which the date carried by the datetime is ahead
of the date in Greenwich. -/
theorem julian_of_date (d : DateTime) (hd : Spec.GoodTime d) (o : ℤ) (ht : 0 ≤ d.instant o)
    (h0 : 1901 < d.year ∨ (d.year = 1901 ∧ 2 ≤ d.month)) (h1 : d.year < 2100 ∨ (d.year = 2100 ∧ d.month ≤ 2)) :
    ((julianDayNumber d.year d.month d.day : ℚ) : ℝ) + fractionOfDay (d.instant o) =
      Spec.julianTime (d.instant o) + (((d.instant o + o) / usPerDay - d.instant o / usPerDay : ℤ) : ℝ) := by
  obtain ⟨q1, q2⟩ := civil_ordinal _ _ _ hd.1
  have hj := C86_modern (pyOrdinal d.year d.month d.day - 1).toNat (by rw [q2]; exact h0) (by rw [q2]; exact h1)
  rw [q2] at hj
  simp only at hj
  rw [hj]
  unfold fractionOfDay Spec.julianTime
  have e1 : Int.tdiv (d.instant o) usPerSec = d.instant o / 1000000 := by
    rw [Int.tdiv_eq_ediv_of_nonneg ht]; rfl
  have e2 : (d.instant o + o) / usPerDay = pyOrdinal d.year d.month d.day - 719163 := by
    have h2 := hd.2.2.1
    have h3 := hd.2.2.2
    unfold DateTime.instant
    unfold usPerDay usPerSec at *
    omega
  rw [e1, e2]
  have e3 : d.instant o / usPerDay = d.instant o / 1000000 / 86400 := by
    unfold usPerDay usPerSec; omega
  rw [e3]
  generalize d.instant o / 1000000 = k
  have e4 : ((Int.emod k 86400 : ℤ) : ℝ) = (k : ℝ) - 86400 * ((k / 86400 : ℤ) : ℝ) := by
    have := Int.emod_add_mul_ediv k 86400
    have h : (k : ℝ) = ((k % 86400 + 86400 * (k / 86400) : ℤ) : ℝ) := by rw [this]
    push_cast at h
    change ((k % 86400 : ℤ) : ℝ) = _
    linarith
  rw [e4]
  have e5 : (((pyOrdinal d.year d.month d.day - 1).toNat : ℕ) : ℝ) = (pyOrdinal d.year d.month d.day : ℝ) - 1 := by
    have : (((pyOrdinal d.year d.month d.day - 1).toNat : ℕ) : ℤ) = pyOrdinal d.year d.month d.day - 1 := by omega
    have := congrArg (fun z : ℤ => (z : ℝ)) this
    simpa using this
  push_cast
  rw [e5]
  norm_num
  ring

/-- C148. Full statement: `solar_calculator` rejects exactly the naive times (and invalid places), and for all others what it computes
depends on the instant only: it is the position for the Julian time of the instant, in whatever zone the datetime expresses it. What
holds, from February 1901 to February 2100 and after the epoch: this, whenever the date carried by the datetime is the date in Greenwich;
so for every UTC time, and so for all times the simulator makes. Otherwise the ephemeris is that of one day earlier or later
(`C148_wrong_day`), and the result differs (`C148_flux_differs`). -/
theorem C148_position_partial (valid : LatLng → Bool) (l : LatLng) (d : DateTime) :
    (solarCalculatorDT valid l d = .error .value ↔ valid l = false ∨ d.tz = none) ∧
    ∀ o, d.tz = some o → valid l = true → Spec.GoodTime d → 0 ≤ d.instant o →
      (1901 < d.year ∨ (d.year = 1901 ∧ 2 ≤ d.month)) → (d.year < 2100 ∨ (d.year = 2100 ∧ d.month ≤ 2)) →
      (o = 0 ∨ (d.instant o + o) / usPerDay = d.instant o / usPerDay) →
      solarCalculatorDT valid l d = .ok (solarCalculatorAt ((Spec.julianTime (d.instant o) - 2451545) / 36525)
        (((d.instant o / 1000000 % 86400 : ℤ) : ℝ) / 86400) l.lat (degrees l.lng)) := by
  constructor
  · unfold solarCalculatorDT
    cases valid l <;> cases d.tz <;> simp
  · intro o ho hv hd ht h0 h1 hz
    have hz' : (d.instant o + o) / usPerDay - d.instant o / usPerDay = 0 := by
      rcases hz with rfl | hz
      · simp
      · rw [hz]; simp
    have hj := julian_of_date d hd o ht h0 h1
    rw [hz'] at hj
    unfold solarCalculatorDT
    rw [hv, ho]
    simp only [Bool.not_true, Bool.false_eq_true, if_false]
    have e : julianCentury d.year d.month d.day (d.instant o) = (Spec.julianTime (d.instant o) - 2451545) / 36525 := by
      unfold julianCentury
      rw [hj]
      simp
    rw [e]
    unfold fractionOfDay
    rw [Int.tdiv_eq_ediv_of_nonneg ht]
    rfl

/-- C148. For a zone in which it is another date, the code works with a Julian time that is wrong by exactly a day (zones are less than a
day from UTC). -/
theorem C148_wrong_day (d : DateTime) (hd : Spec.GoodTime d) (o : ℤ) (ho : |o| < usPerDay) (ht : 0 ≤ d.instant o)
    (h0 : 1901 < d.year ∨ (d.year = 1901 ∧ 2 ≤ d.month)) (h1 : d.year < 2100 ∨ (d.year = 2100 ∧ d.month ≤ 2))
    (hz : (d.instant o + o) / usPerDay ≠ d.instant o / usPerDay) :
    julianCentury d.year d.month d.day (d.instant o) = (Spec.julianTime (d.instant o) + 1 - 2451545) / 36525 ∧ 0 < o ∨
    julianCentury d.year d.month d.day (d.instant o) = (Spec.julianTime (d.instant o) - 1 - 2451545) / 36525 ∧ o < 0 := by
  have hj := julian_of_date d hd o ht h0 h1
  unfold julianCentury
  rw [hj]
  rw [abs_lt] at ho
  have : ((d.instant o + o) / usPerDay - d.instant o / usPerDay = 1 ∧ 0 < o) ∨
      ((d.instant o + o) / usPerDay - d.instant o / usPerDay = -1 ∧ o < 0) := by
    unfold usPerDay usPerSec at *
    omega
  rcases this with ⟨e, h⟩ | ⟨e, h⟩
  · left; rw [e]; exact ⟨by push_cast; rfl, h⟩
  · right; rw [e]; exact ⟨by push_cast; ring, h⟩

/-- C148. The documented default is not what happens: a zone given as `None` is not replaced by UTC, the datetime is naive, and the ephemeris
rejects it. -/
theorem C148_none_is_naive (valid : LatLng → Bool) (l : LatLng) (y m d h mi s us : ℤ) (r : DateTime)
    (hr : unitsDatetime y m d h mi s us none = .ok r) : r.tz = none ∧ solarCalculatorDT valid l r = .error .value := by
  have := C148_constructor y m d h mi s us none
  rw [hr] at this
  exact ⟨this.2.2.2.2, (C148_position_partial valid l r).1.2 (.inr this.2.2.2.2)⟩

/-- **C148**, the default zone (`units.py:320-359`): a datetime made without naming a zone is in UTC, and so is accepted by the solar
calculator wherever the place is valid. -/
theorem C148_default_utc (valid : LatLng → Bool) (l : LatLng) (hv : valid l = true) (y m d h mi s us : ℤ) (r : DateTime)
    (hr : unitsDatetime y m d h mi s us = .ok r) : r.tz = some 0 ∧ solarCalculatorDT valid l r ≠ .error .value := by
  have := C148_constructor y m d h mi s us (some 0)
  rw [hr] at this
  have hz : r.tz = some 0 := this.2.2.2.2
  refine ⟨hz, fun he => ?_⟩
  rcases (C148_position_partial valid l r).1.1 he with h | h
  · rw [hv] at h; cases h
  · rw [hz] at h; cases h

/-- Eight in the evening of 25 March 2013 in Greenwich, and the same instant in Tokyo. -/
def evening : DateTime := ⟨2013, 3, 25, 20 * 3600 * 1000000, some 0⟩
def tokyo : DateTime := ⟨2013, 3, 26, 5 * 3600 * 1000000, some (9 * 3600 * 1000000)⟩

theorem flux_falls {a b : ℝ} (h : a < b) (ha0 : 0 < a) (hb : b < 1) (k : ℤ)
    (h0 : 0 ≤ 357.52911 + a * (35999.05029 - 0.0001537 * a) - 360 * k)
    (h1 : 357.52911 + b * (35999.05029 - 0.0001537 * b) - 360 * k ≤ 90) (frac lat lng : ℝ) :
    (solarCalculatorAt b frac lat lng).flux < (solarCalculatorAt a frac lat lng).flux := by
  have hpi := Real.pi_pos
  have hm : ∀ x : ℝ, Real.cos (meanAnomalySun x) = Real.cos (radians (357.52911 + x * (35999.05029 - 0.0001537 * x) - 360 * k)) := by
    intro x
    unfold meanAnomalySun radians
    rw [← Real.cos_sub_int_mul_two_pi _ k]
    congr 1
    ring
  have hmono : 357.52911 + a * (35999.05029 - 0.0001537 * a) - 360 * k < 357.52911 + b * (35999.05029 - 0.0001537 * b) - 360 * k := by
    nlinarith
  have hc : Real.cos (radians (357.52911 + b * (35999.05029 - 0.0001537 * b) - 360 * k)) <
      Real.cos (radians (357.52911 + a * (35999.05029 - 0.0001537 * a) - 360 * k)) := by
    apply Real.cos_lt_cos_of_nonneg_of_le_pi
    · unfold radians; positivity
    · unfold radians; nlinarith
    · unfold radians
      have : 0 < Real.pi / 180 := by positivity
      nlinarith
  have hc0 : 0 ≤ Real.cos (radians (357.52911 + b * (35999.05029 - 0.0001537 * b) - 360 * k)) := by
    apply Real.cos_nonneg_of_neg_pi_div_two_le_of_le
    · unfold radians; nlinarith
    · unfold radians; nlinarith
  unfold solarCalculatorAt
  simp only
  rw [hm a, hm b]
  have he : eccentricity b ≤ eccentricity a ∧ 0 < eccentricity b ∧ eccentricity a < 1 := by
    unfold eccentricity
    refine ⟨by nlinarith, by nlinarith, by nlinarith⟩
  obtain ⟨e1, e2, e3⟩ := he
  generalize eccentricity a = ea at *
  generalize eccentricity b = eb at *
  have hq : (1 + eb) / (1 - eb) ≤ (1 + ea) / (1 - ea) := by
    rw [div_le_div_iff₀ (by linarith) (by linarith)]
    nlinarith
  have hq1 : 1 < (1 + eb) / (1 - eb) := by
    rw [lt_div_iff₀ (by linarith)]
    linarith
  generalize (1 + eb) / (1 - eb) = qb at *
  generalize (1 + ea) / (1 - ea) = qa at *
  generalize Real.cos (radians (357.52911 + b * (35999.05029 - 0.0001537 * b) - 360 * k)) = cb at *
  generalize Real.cos (radians (357.52911 + a * (35999.05029 - 0.0001537 * a) - 360 * k)) = ca at *
  have hs : qb ^ 2 - 1 ≤ qa ^ 2 - 1 := by nlinarith
  have hs1 : 0 < qb ^ 2 - 1 := by nlinarith
  have : (qb ^ 2 - 1) * cb < (qa ^ 2 - 1) * ca := by nlinarith
  nlinarith

/-- C148. So what is computed is not a function of the instant: everywhere on earth the sun's flux is less for the same instant expressed
in Tokyo's time. -/
theorem C148_flux_differs (valid : LatLng → Bool) (l : LatLng) (hv : valid l = true) : ∃ p q,
    evening.instant 0 = tokyo.instant (9 * 3600 * 1000000) ∧ evening.tz = some 0 ∧ tokyo.tz = some (9 * 3600 * 1000000) ∧
    solarCalculatorDT valid l evening = .ok p ∧ solarCalculatorDT valid l tokyo = .ok q ∧ q.flux < p.flux := by
  have hi : evening.instant 0 = 1364241600000000 := by decide
  have hi' : tokyo.instant (9 * 3600 * 1000000) = 1364241600000000 := by decide
  refine ⟨_, _, by rw [hi, hi'], rfl, rfl, by simp only [solarCalculatorDT, hv, evening]; rfl, by simp only [solarCalculatorDT, hv, tokyo]; rfl, ?_⟩
  have f1 : DateTime.instant ⟨2013, 3, 25, 20 * 3600 * 1000000, some 0⟩ 0 = 1364241600000000 := hi
  have f2 : DateTime.instant ⟨2013, 3, 26, 5 * 3600 * 1000000, some (9 * 3600 * 1000000)⟩ (9 * 3600 * 1000000) = 1364241600000000 := hi'
  simp only [f1, f2]
  have hf : fractionOfDay 1364241600000000 = 20 / 24 := by
    unfold fractionOfDay
    rw [show Int.emod (Int.tdiv 1364241600000000 usPerSec) 86400 = 72000 by decide]
    norm_num
  have j1 : julianCentury 2013 3 25 1364241600000000 = (2456376.5 + 20 / 24 - 2451545) / 36525 := by
    unfold julianCentury
    rw [hf, julianDayNumber_int]
    norm_num
  have j2 : julianCentury 2013 3 26 1364241600000000 = (2456377.5 + 20 / 24 - 2451545) / 36525 := by
    unfold julianCentury
    rw [hf, julianDayNumber_int]
    norm_num
  rw [j1, j2]
  apply flux_falls (k := 14) <;> norm_num

/-- The default bounds of `sample_time` are what the constants of the model say: 1 January 2011 and 31 December 2014. -/
example : ∃ a b, unitsDatetime 2011 1 1 = .ok a ∧ unitsDatetime 2014 12 31 = .ok b ∧ a.instant 0 = timeBegin ∧ b.instant 0 = timeEnd := by
  refine ⟨⟨2011, 1, 1, 0, some 0⟩, ⟨2014, 12, 31, 0, some 0⟩, by decide, by decide, by decide, by decide⟩

/-- Such datetimes, and such a calendar, exist. -/
example : Spec.GoodTime evening ∧ Spec.GoodTime tokyo ∧ Spec.StandardCalendar (fun t => Spec.civil (719162 + t / usPerDay).toNat) ∧
    (∃ r, unitsDatetime 2013 3 25 20 0 0 0 none = .ok r) := by
  refine ⟨?_, ?_, fun _ _ => rfl, ⟨⟨2013, 3, 25, 20 * 3600 * 1000000, none⟩, by decide⟩⟩ <;>
    · unfold Spec.GoodTime Spec.IsDate; decide

end BLE
