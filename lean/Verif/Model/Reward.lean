import Verif.Model.Balloon
import Verif.Model.Units
import Mathlib.Analysis.SpecialFunctions.Exp

/-!
# The reward: `BLE/env/balloon_env.py:43-102`
-/

namespace BLE

/-- `balloon_env.py:44-49` — the configurable parameters and their defaults. -/
structure RewardParams where
  radiusKm : ℝ
  dropoff : ℝ
  halflife : ℝ

/-- `balloon_env.py:47-49` — defaults. -/
noncomputable def RewardParams.default : RewardParams := { radiusKm := 50, dropoff := 0.4, halflife := 100 }

/-- `balloon_env.py:79-89` — the part that depends on the distance [m] to the station only. -/
noncomputable def baseReward (q : RewardParams) (d : ℝ) : Except Err ℝ :=
  if d ≤ q.radiusKm * 1000 then .ok 1
  else do
    let rate ← pyDiv (-0.69314718056) q.halflife
    return q.dropoff * Real.exp (rate * ((d - q.radiusKm * 1000) / 1000))

/-- `balloon_env.py:91-100` — the multiplier for the power used by the altitude control system [W]. -/
noncomputable def powerMultiplier (watts : ℝ) : Except Err ℝ := do
  let scale ← rescaleSat watts 100 300
  return 0.95 - 0.3 * scale

/-- `balloon_env.py:43-102` — `perciatelli_reward_function` (only the balloon state is read). -/
noncomputable def reward (sun : Sun) (q : RewardParams) (s : BState) : Except Err ℝ := do
  let r ← baseReward q (relativeDistance s.x s.y)
  if s.lastCommand = .down then
    let ex ← s.excessEnergy sun
    if !ex then
      let m ← powerMultiplier s.acsPower
      return r * m
    else return r
  else return r

end BLE
