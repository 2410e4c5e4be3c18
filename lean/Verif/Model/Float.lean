import Verif.Model.Eval
import Verif.Model.Solar
import Verif.Model.Sampling
import Mathlib.Data.Int.Log

/-!
# Where integers are computed through floating-point numbers

The rest of the model computes over the real numbers. At the places below the code decides an *integer* — a slice bound, a
number of steps, a calendar day — through floating-point arithmetic. Here these computations are modelled with rounding:
`rd` is applied to the exact result of every operation. Python's `int / int`, `timedelta / timedelta` and
`timedelta.total_seconds()` all round the exact quotient of two integers once.
-/

namespace BLE

/-- The numbers with 53 significant bits (`float`, IEEE 754 binary64, without its limits on the exponent). -/
def IsFloat (x : ℝ) : Prop := ∃ m e : ℤ, |m| ≤ 2 ^ 53 ∧ x = m * (2 : ℝ) ^ e

/-- What is used about rounding to `float`: it yields floats, keeps floats and preserves order. Holds in every rounding mode
of IEEE 754. -/
structure Rounding (rd : ℝ → ℝ) : Prop where
  mono : Monotone rd
  exact : ∀ x, IsFloat x → rd x = x
  range : ∀ x, IsFloat (rd x)

/-- Python's `int(x)` of a float: truncation. (`eval.py:126-127`, `balloon.py:315-316`, `solar.py:67, 321`) -/
noncomputable def pyInt (x : ℝ) : ℤ := if 0 ≤ x then ⌊x⌋ else ⌈x⌉

/-- `eval.py:125-128` — the seeds of shard `i` of `n`, with the bounds as the code computes them. -/
noncomputable def shardF (rd : ℝ → ℝ) (seeds : List ℤ) (i n : ℕ) : List ℤ :=
  if n > 1 then
    let start := pyInt (rd (((seeds.length * i : ℕ) : ℝ) / n))
    let stop := pyInt (rd (((seeds.length * (i + 1) : ℕ) : ℝ) / n))
    (seeds.take stop.toNat).drop start.toNat
  else seeds

/-- `int(d.total_seconds())` (`balloon.py:315-316`, `sampling.py:80-82`) and `int(time.timestamp())` (`solar.py:67`), of `us`
microseconds. -/
noncomputable def secondsF (rd : ℝ → ℝ) (us : ℤ) : ℤ := pyInt (rd ((us : ℝ) / 1000000))

/-- `solar.py:321` — `int((max_time - min_time) / time_delta)`. -/
noncomputable def searchStepsF (rd : ℝ → ℝ) (tmin tmax delta : ℤ) : ℤ := pyInt (rd (((tmax - tmin : ℤ) : ℝ) / delta))

/-- `solar.py:509-512` — `math.ceil(elapsed_time / time_delta)`. -/
noncomputable def waitStepsF (rd : ℝ → ℝ) (elapsed delta : ℤ) : ℤ := ⌈rd ((elapsed : ℝ) / delta)⌉

/-- `balloon.py:263-328` — `simulate_step` with durations as the code computes them. -/
noncomputable def simulateStepF (rd : ℝ → ℝ) (sun : Sun) (α : ℝ) (u v : ℝ) (a : Command) (timeDelta stride : ℤ)
    (s0 : BState) : BState × Except Err Unit :=
  let s := { s0 with lastCommand := a }
  if s.status ≠ .ok then (s, .error .assertion)
  else
    match safetyChain α s a with
    | (s1, .error e) => (s1, .error e)
    | (s1, .ok eff) =>
      let outer := secondsF rd timeDelta
      let inner := secondsF rd stride
      if inner = 0 then (s1, .error .zeroDivision)
      else if Int.fmod outer inner ≠ 0 then (s1, .error .assertion)
      else substepLoop (substep sun α u v eff stride) (Int.fdiv outer inner).toNat s1

/-- `solar.py:71-75` — the Julian day number with every operation rounded, in the order of the code. -/
noncomputable def julianDayNumberF (rd : ℝ → ℝ) (year month day : ℤ) : ℝ :=
  let a : ℝ := ⌊rd (rd (7 * rd (year + ⌊rd (rd (month + 9) / 12)⌋)) / 4)⌋
  let c : ℝ := ⌊rd (rd (year + rd (rd (month - 9) / 7)) / 100)⌋
  let b : ℝ := ⌊rd (rd (3 * rd (c + 1)) / 4)⌋
  let d : ℝ := ⌊rd (rd (275 * month) / 9)⌋
  rd (rd (rd (rd (rd (rd (367 * year) - a) - b) + d) + day) + 1721028.5)

/-- Rounding towards zero, one of the modes. -/
noncomputable def roundToZero (x : ℝ) : ℝ :=
  if 0 ≤ x then ⌊x / (2 : ℝ) ^ (Int.log 2 x - 52)⌋ * (2 : ℝ) ^ (Int.log 2 x - 52)
  else -(⌊-x / (2 : ℝ) ^ (Int.log 2 (-x) - 52)⌋ * (2 : ℝ) ^ (Int.log 2 (-x) - 52))

end BLE
