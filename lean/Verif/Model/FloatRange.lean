import Verif.Model.Float
import Verif.Model.Features
import Verif.Model.Reward

/-!
# Rewards, features and the battery with floating-point rounding

The ranges a user relies on — rewards and features inside the declared boxes, a battery that is never over-full — are proved
elsewhere over the real numbers. Here the same computations are modelled operation by operation with rounding, in the order of
the code, so that the ranges can be proved of what the machine computes.
-/

namespace BLE

/-- The functions of `math` and NumPy the code calls, as the platform computes them (`balloon_env.py:88-89`,
`features.py:412-424, 513, 526`, `units.py:309`), with the float `math.pi`. -/
structure MathLib where
  exp : ℝ → ℝ
  sin : ℝ → ℝ
  cos : ℝ → ℝ
  acos : ℝ → ℝ
  atan2 : ℝ → ℝ → ℝ
  norm : ℝ → ℝ → ℝ
  pi : ℝ

/-- What is used of them: norms and π are floats, and the obvious ranges are respected. No accuracy is assumed. -/
structure MathLib.Sane (M : MathLib) : Prop where
  exp_range : ∀ x, x ≤ 0 → 0 ≤ M.exp x ∧ M.exp x ≤ 1
  sin_range : ∀ x, -1 ≤ M.sin x ∧ M.sin x ≤ 1
  cos_range : ∀ x, -1 ≤ M.cos x ∧ M.cos x ≤ 1
  acos_range : ∀ x, -1 ≤ x → x ≤ 1 → 0 ≤ M.acos x ∧ M.acos x ≤ M.pi
  norm_range : ∀ x y, 0 ≤ M.norm x y
  norm_float : ∀ x y, IsFloat (M.norm x y)
  pi_pos : 0 < M.pi
  pi_float : IsFloat M.pi

/-- `transforms.py:45-52` — `linear_rescale_with_extrapolation`. -/
noncomputable def rescaleF (rd : ℝ → ℝ) (x vmin vmax : ℝ) : Except Err ℝ :=
  if vmax ≤ vmin then .error .value else .ok (rd (rd (x - vmin) / rd (vmax - vmin)))

/-- `transforms.py:63-66` — `linear_rescale_with_saturation`; clipping does not round. -/
noncomputable def rescaleSatF (rd : ℝ → ℝ) (x vmin vmax : ℝ) : Except Err ℝ :=
  (rescaleF rd x vmin vmax).map fun y => clip y 0 1

/-- `transforms.py:24-28, 79-85` — `squash_to_unit_interval`. -/
noncomputable def squashF (rd : ℝ → ℝ) (x c : ℝ) : Except Err ℝ :=
  if c ≤ 0 then .error .value else if x < 0 then .error .value else .ok (rd (x / rd (x + c)))

/-- `balloon.py:222-229`, `units.py:221-225` — `battery_soc`. -/
noncomputable def socF (rd : ℝ → ℝ) (charge cap : ℝ) : Except Err ℝ :=
  if cap = 0 then .error .zeroDivision else .ok (rd (charge / cap))

/-- `balloon.py:248-251` — `pressure_ratio`. -/
noncomputable def pressureRatioF (rd : ℝ → ℝ) (p sp : ℝ) : Except Err ℝ :=
  if p = 0 then .error .zeroDivision else .ok (rd (rd (p + max sp 0) / p))

/-- `balloon.py:533-537`, `units.py:277-279, 312-317` — the battery after `us` microseconds: `Power * timedelta` multiplies by
`timedelta_to_hours`. -/
noncomputable def batteryF (rd : ℝ → ℝ) (charge solar load : ℝ) (us : ℤ) (cap : ℝ) : ℝ :=
  clip (rd (charge + rd (rd (solar - load) * rd (rd ((us : ℝ) / 1000000) / 3600)))) 0 cap

/-- `balloon.py:513-517` — the air in the ballonet after `us` microseconds. -/
noncomputable def molsAirF (rd : ℝ → ℝ) (mols flow : ℝ) (us : ℤ) : ℝ :=
  max (rd (mols + rd (rd (flow / rd airM) * rd ((us : ℝ) / 1000000)))) 0

/-- `units.py:36-38` — `Distance(km=…)` in metres; the other arguments are 0 and adding them changes nothing. -/
noncomputable def kmF (rd : ℝ → ℝ) (km : ℝ) : ℝ := rd (km * 1000)

/-- `balloon_env.py:79-89` — the part of the reward that depends on the distance `d` [m]. A literal is the rounded decimal. -/
noncomputable def baseRewardF (rd : ℝ → ℝ) (M : MathLib) (q : RewardParams) (d : ℝ) : Except Err ℝ :=
  if d ≤ kmF rd q.radiusKm then .ok 1
  else if q.halflife = 0 then .error .zeroDivision
  else
    let rate := rd (rd (-0.69314718056) / q.halflife)
    .ok (rd (q.dropoff * M.exp (rd (rate * rd (rd (d - kmF rd q.radiusKm) / 1000)))))

/-- `balloon_env.py:94-99` — the multiplier for the power used by the altitude control system [W]. -/
noncomputable def powerMultiplierF (rd : ℝ → ℝ) (watts : ℝ) : Except Err ℝ := do
  let scale ← rescaleSatF rd watts 100 300
  return rd (rd 0.95 - rd (rd 0.3 * scale))

/-- `balloon_env.py:43-102` — `perciatelli_reward_function`, with the value of `excess_energy` given. -/
noncomputable def rewardF (rd : ℝ → ℝ) (M : MathLib) (q : RewardParams) (x y : ℝ) (cmd : Command) (excess : Bool)
    (watts : ℝ) : Except Err ℝ := do
  let r ← baseRewardF rd M q (M.norm x y)
  if cmd = .down ∧ excess = false then
    let m ← powerMultiplierF rd watts
    return rd (r * m)
  else return r

/-- What `_add_ambient_features` reads (`features.py:392-455`): the balloon state, the solar angle, the sunrise time and the
power table, with arbitrary answers. -/
structure AmbientInput where
  pressure : ℝ
  sp : ℝ
  charge : ℝ
  cap : ℝ
  x : ℝ
  y : ℝ
  lastCommand : Command
  paused : Bool
  excess : Bool
  solarAngle : ℝ
  sunrise : Except Err ℝ
  power : ℝ → ℝ → Except Err ℝ

/-- `features.py:382-455` — the sixteen ambient features, before they are stored. -/
noncomputable def ambientF (rd : ℝ → ℝ) (M : MathLib) (a : AmbientInput) : Except Err (List ℝ) := do
  let f0 ← rescaleSatF rd a.pressure 5000 14000
  let soc ← socF rd a.charge a.cap
  let f2 ← rescaleSatF rd a.solarAngle (-90) 90
  let st ← a.sunrise
  if ¬ (0 ≤ st ∧ st ≤ rd (rd (2 * M.pi) + rd 1e-6)) then throw .assertion
  let heading := M.atan2 (-rd (a.x / 1000)) (-rd (a.y / 1000))
  let f7 ← squashF rd (rd (M.norm a.x a.y / 1000)) 250
  let ratio ← pressureRatioF rd a.pressure a.sp
  let pw ← a.power ratio soc
  let f14 ← rescaleSatF rd pw 100 300
  return [f0, soc, f2, M.sin st, M.cos st, M.sin heading, M.cos heading, f7,
    floatOf (a.lastCommand = .up), floatOf (a.lastCommand = .stay), floatOf (a.lastCommand = .down),
    floatOf a.paused, floatOf (!a.paused), floatOf a.excess, f14, ratio]

/-- `features.py:499-528` — the angle between wind and station direction for a wind `w` whose cosine came out as `cosine`
(before clipping). -/
noncomputable def angleErrorF (rd : ℝ → ℝ) (M : MathLib) (dist mag cosine : ℝ) : ℝ :=
  if dist < rd 1e-5 then 0
  else if mag < rd 1e-5 then M.pi
  else M.acos (clip cosine (-1) 1)

/-- `features.py:530-532` — the bearing and magnitude features of one level. -/
noncomputable def windPairF (rd : ℝ → ℝ) (M : MathLib) (dist cosine u v : ℝ) : Except Err (ℝ × ℝ) := do
  let a ← rescaleF rd (angleErrorF rd M dist (M.norm u v) cosine) 0 M.pi
  let m ← squashF rd (M.norm u v) 30
  return (a, m)

/-- Storing a `float` in a `float32` array (`features.py:326, 393-455, 547-549`): some order-preserving function that keeps
−1, 0 and 1. -/
structure Narrowing (st : ℝ → ℝ) : Prop where
  mono : Monotone st
  neg_one : st (-1) = -1
  zero : st 0 = 0
  one : st 1 = 1

end BLE
