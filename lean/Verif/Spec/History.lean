import Mathlib.Data.Real.Basic

/-!
# Specification vocabulary for histories of readings and for daily events
-/

namespace Spec

/-- `r` is the most recent reading of the history `h` (oldest first) that lies outside `band`. -/
def MostRecentOutside (band : ℝ → Prop) (h : List ℝ) (r : ℝ) : Prop :=
  ∃ pre post, h = pre ++ r :: post ∧ ¬ band r ∧ ∀ x ∈ post, band x

/-- One day in microseconds. -/
def day : ℤ := 86400000000

/-- `t` is the earliest instant not before `now` among `base`, `base + 1 day`, `base + 2 days`, …  -/
def IsNext (base now t : ℤ) : Prop :=
  now ≤ t ∧ (∃ k : ℕ, t = base + k * day) ∧ ∀ k : ℕ, now ≤ base + k * day → t ≤ base + k * day

/-- The reading history says that descent must be blocked: the most recent reading outside the low
hysteresis band `[250, 300)` was below 250 Pa, or the most recent reading outside the high band
`[max-300, max-250)` was at or above `max - 250`. -/
def EnvelopeUnsafe (maxSp : ℝ) (readings : List ℝ) : Prop :=
  (∃ r, MostRecentOutside (fun x => 250 ≤ x ∧ x < 300) readings r ∧ r < 250) ∨
  (∃ r, MostRecentOutside (fun x => maxSp - 300 ≤ x ∧ x < maxSp - 250) readings r ∧ maxSp - 250 ≤ r)

/-- The altitude history says that descent must be blocked: the most recent altitude outside
`[50,500 ft, 51,000 ft)` was below 50,500 ft. -/
def TooLow (altitudes : List ℝ) : Prop :=
  ∃ r, MostRecentOutside (fun x => 50500 * 0.3048 ≤ x ∧ x < 51000 * 0.3048) altitudes r ∧
    r < 50500 * 0.3048

end Spec
