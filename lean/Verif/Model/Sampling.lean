import Verif.Model.Atmosphere
import Verif.Model.Safety

/-!
# Sampling of episode parameters

`BLE/utils/sampling.py`. `jax.random.uniform(key, minval, maxval)` is modelled as
`minval + u * (maxval - minval)` for a draw `u` (the theorems assume `0 ≤ u < 1`).
-/

namespace BLE

/-- `jax.random.uniform` on an interval, as a function of the underlying unit draw. (`sampling.py:56, 60, 109`) -/
noncomputable def uniform (lo hi u : ℝ) : ℝ := lo + u * (hi - lo)

/-- `sampling.py:37-62` — `sample_location`: latitude and longitude in degrees. -/
noncomputable def sampleLocation (u1 u2 : ℝ) : ℝ × ℝ := (uniform (-10) 10 u1, uniform (-175) 175 u2)

/-- `sampling.py:65-83` — `sample_time`; `choice` is the integer drawn by
`jax.random.choice(key, int(total_seconds))`, i.e. in `0 … n-1`. Times in microseconds. -/
def sampleTime (beginRange : ℤ) (choice : ℕ) : ℤ := beginRange + choice * usPerSec

/-- `sampling.py:80-82` — number of alternatives offered to `jax.random.choice`. -/
def sampleTimeCount (beginRange endRange : ℤ) : ℤ := Int.tdiv (endRange - beginRange) usPerSec

/-- `sampling.py:86-111` — `sample_pressure`; `none` is "no atmosphere supplied". -/
noncomputable def samplePressure (u : ℝ) : Option ℝ → Except Err ℝ
  | some α =>
    match atHeight α minAltitude with
    | .ok v => .ok (uniform 6500 v.pressure u)
    | .error e => .error e
  | none => .ok (uniform 6500 11400 u)

/-- `sampling.py:114-152` — the rejection loop of `sample_upwelling_infrared` for the default
`logit_normal` distribution: `draws` is the sequence of values in `(0,1)` obtained from the
successive keys; the loop returns the first sample that is at least 225. `none` models not having
stopped within the given draws. -/
noncomputable def sampleUpwelling : List ℝ → Option ℝ
  | [] => none
  | d :: ds => if 315 * d ≥ 225 then some (315 * d) else sampleUpwelling ds

end BLE
