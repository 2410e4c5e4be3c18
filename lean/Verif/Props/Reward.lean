import Verif.Model.Reward
import Verif.Props.Units
import Verif.Lemmas.Demo
import Verif.Props.Thermal
import Mathlib.Analysis.SpecialFunctions.Pow.Real
import Mathlib.Analysis.Complex.ExponentialBounds

/-!
# Rewards: C19, C20
-/

namespace BLE

/-- The reward without the power penalty, written independently of the code: one inside the radius,
otherwise a drop followed by exponential decay with the given rate constant. -/
noncomputable def Spec.shape (rate : ℝ) (q : RewardParams) (d : ℝ) : ℝ :=
  if d ≤ q.radiusKm * 1000 then 1
  else q.dropoff * Real.exp (-(rate * ((d - q.radiusKm * 1000) / 1000 / q.halflife)))

/-- The penalty applies. -/
def Spec.Penalised (sun : Sun) (s : BState) : Prop :=
  s.lastCommand = .down ∧ s.excessEnergy sun = .ok false

theorem baseReward_eq (q : RewardParams) (hq : q.halflife ≠ 0) (d : ℝ) :
    baseReward q d = .ok (Spec.shape 0.69314718056 q d) := by
  unfold baseReward Spec.shape
  split
  · rfl
  · simp only [pyDiv, if_neg hq, bind, Except.bind, pure, Except.pure, Except.ok.injEq]
    congr 2
    field_simp

theorem powerMultiplier_eq (w : ℝ) : ∃ m, powerMultiplier w = .ok m ∧ 0.65 ≤ m ∧ m ≤ 0.95 ∧
    (w ≤ 100 → m = 0.95) ∧ (300 ≤ w → m = 0.65) ∧
    (100 ≤ w → w ≤ 300 → m = 0.95 - 0.3 * ((w - 100) / 200)) := by
  obtain ⟨y, h1, h2, h3, h4, h5, h6⟩ := C56_saturation w 100 300 (by norm_num)
  refine ⟨0.95 - 0.3 * y, by simp [powerMultiplier, h1, bind, Except.bind, pure, Except.pure], by linarith,
    by linarith, fun h => by rw [h4 h]; norm_num, fun h => by rw [h5 h]; norm_num, fun a b => ?_⟩
  have := h6 a b
  rw [rescale, if_neg (by norm_num), Except.ok.injEq] at this
  rw [← this]; norm_num

theorem reward_cases (sun : Sun) (q : RewardParams) (hq : q.halflife ≠ 0) (s : BState) :
    (s.lastCommand ≠ .down → reward sun q s = .ok (Spec.shape 0.69314718056 q (relativeDistance s.x s.y))) ∧
    (∀ e, s.lastCommand = .down → s.excessEnergy sun = .error e → reward sun q s = .error e) ∧
    (s.excessEnergy sun = .ok true → reward sun q s = .ok (Spec.shape 0.69314718056 q (relativeDistance s.x s.y))) ∧
    (Spec.Penalised sun s → ∀ m, powerMultiplier s.acsPower = .ok m →
      reward sun q s = .ok (Spec.shape 0.69314718056 q (relativeDistance s.x s.y) * m)) := by
  have hb := baseReward_eq q hq (relativeDistance s.x s.y)
  refine ⟨fun h => ?_, fun e h he => ?_, fun he => ?_, fun h m hm => ?_⟩
  · simp [reward, hb, h, bind, Except.bind, pure, Except.pure]
  · simp [reward, hb, h, he, bind, Except.bind]
  · by_cases h : s.lastCommand = .down
    · simp [reward, hb, h, he, bind, Except.bind, pure, Except.pure]
    · simp [reward, hb, h, bind, Except.bind, pure, Except.pure]
  · simp [reward, hb, h.1, h.2, hm, bind, Except.bind, pure, Except.pure]

theorem shape_range (q : RewardParams) (h0 : 0 ≤ q.dropoff) (h1 : q.dropoff ≤ 1) (hh : 0 < q.halflife) (d : ℝ) :
    0 ≤ Spec.shape 0.69314718056 q d ∧ Spec.shape 0.69314718056 q d ≤ 1 ∧
    (0 < q.dropoff → 0 < Spec.shape 0.69314718056 q d) := by
  unfold Spec.shape
  split
  · norm_num
  · rename_i h
    have hx : 0 ≤ (d - q.radiusKm * 1000) / 1000 / q.halflife := by
      have : 0 < d - q.radiusKm * 1000 := by linarith
      positivity
    have he := Real.exp_le_one_iff.2 (show -(0.69314718056 * ((d - q.radiusKm * 1000) / 1000 / q.halflife)) ≤ 0 by
      linarith [mul_nonneg (show (0:ℝ) ≤ 0.69314718056 by norm_num) hx])
    have hp := Real.exp_pos (-(0.69314718056 * ((d - q.radiusKm * 1000) / 1000 / q.halflife)))
    exact ⟨by positivity, by nlinarith, fun h => by positivity⟩

/-! ## C19 -/

/-- Every reward that is produced lies in [0,1], the range the environment advertises, and is positive
when the drop-off is. -/
theorem C19_in_range (sun : Sun) (q : RewardParams) (h0 : 0 ≤ q.dropoff) (h1 : q.dropoff ≤ 1) (hh : 0 < q.halflife)
    (s : BState) (r : ℝ) (hr : reward sun q s = .ok r) : 0 ≤ r ∧ r ≤ 1 ∧ (0 < q.dropoff → 0 < r) := by
  obtain ⟨c1, c2, c3, c4⟩ := reward_cases sun q hh.ne' s
  obtain ⟨b0, b1, b2⟩ := shape_range q h0 h1 hh (relativeDistance s.x s.y)
  by_cases hd : s.lastCommand = .down
  · rcases hx : s.excessEnergy sun with e | b
    · rw [c2 e hd hx] at hr; cases hr
    · cases b
      · obtain ⟨m, hm, m0, m1, _⟩ := powerMultiplier_eq s.acsPower
        rw [c4 ⟨hd, hx⟩ m hm, Except.ok.injEq] at hr
        rw [← hr]
        refine ⟨by nlinarith, by nlinarith, fun h => ?_⟩
        have := b2 h
        nlinarith
      · rw [c3 hx, Except.ok.injEq] at hr
        rw [← hr]; exact ⟨b0, b1, b2⟩
  · rw [c1 hd, Except.ok.injEq] at hr
    rw [← hr]; exact ⟨b0, b1, b2⟩

/-- A reward is produced for every state whose pressure is non-negative and whose battery capacity is not
zero, whatever the (physically possible) position of the sun (pressures up to sea level). -/
theorem C19_total (sun : Sun) (hsun : ∀ l t, -90 ≤ (sun l t).el ∧ (sun l t).el ≤ 90) (q : RewardParams)
    (hh : 0 < q.halflife) (s : BState) (hp : 0 ≤ s.pressure) (hp' : s.pressure ≤ 101325) (hc : s.cap ≠ 0) :
    ∃ r, reward sun q s = .ok r := by
  obtain ⟨c1, c2, c3, c4⟩ := reward_cases sun q hh.ne' s
  by_cases hd : s.lastCommand = .down
  · have : ∃ b, s.excessEnergy sun = .ok b := by
      obtain ⟨w, hw⟩ := solarPower_ok (hsun s.latlng s.dateTime).1 (hsun s.latlng s.dateTime).2 hp hp'
      simp only [BState.excessEnergy, hw, bind, Except.bind, BState.soc, pyDiv, if_neg hc, pure, Except.pure]
      split <;> exact ⟨_, rfl⟩
    obtain ⟨b, hb⟩ := this
    cases b
    · obtain ⟨m, hm, _⟩ := powerMultiplier_eq s.acsPower
      exact ⟨_, c4 ⟨hd, hb⟩ m hm⟩
    · exact ⟨_, c3 hb⟩
  · exact ⟨_, c1 hd⟩

/-! ## C20 -/

/-- The constant in the code is `ln 2` rounded up in the fourteenth decimal. -/
theorem log_two_rounded : 0 ≤ 0.69314718056 - Real.log 2 ∧ 0.69314718056 - Real.log 2 ≤ 1e-13 := by
  have t : |(2⁻¹ : ℝ)| = 2⁻¹ := by rw [abs_of_pos]; norm_num
  have z := Real.abs_log_sub_add_sum_range_le (show |(2⁻¹ : ℝ)| < 1 by rw [t]; norm_num) 46
  rw [t] at z
  norm_num1 at z
  rw [one_div (2 : ℝ), Real.log_inv, ← sub_eq_add_neg, _root_.abs_sub_comm] at z
  rw [abs_le] at z
  constructor
  · linarith [z.1, z.2]
  · linarith [z.1, z.2]

theorem exp_gap {a b x : ℝ} (ha : 1 / 2 ≤ a) (hab : a ≤ b) (hx : 0 ≤ x) :
    0 ≤ Real.exp (-(a * x)) - Real.exp (-(b * x)) ∧ Real.exp (-(a * x)) - Real.exp (-(b * x)) ≤ 2 * (b - a) := by
  have hp := Real.exp_pos (-(a * x))
  have e : Real.exp (-(b * x)) = Real.exp (-(a * x)) * Real.exp (-((b - a) * x)) := by
    rw [← Real.exp_add]; congr 1; ring
  have h1 : 1 - (b - a) * x ≤ Real.exp (-((b - a) * x)) := by
    have := Real.add_one_le_exp (-((b - a) * x)); linarith
  have h2 : Real.exp (-((b - a) * x)) ≤ 1 := Real.exp_le_one_iff.2 (by nlinarith)
  have h3 : Real.exp (-(a * x)) * x ≤ 2 := by
    have := Real.add_one_le_exp (a * x)
    rw [Real.exp_neg, inv_mul_le_iff₀ (Real.exp_pos _)]
    nlinarith
  rw [e]
  constructor
  · nlinarith
  · nlinarith [mul_le_mul_of_nonneg_left h1 hp.le, mul_le_mul_of_nonneg_right h3 (sub_nonneg.2 hab)]

/-- Shape: without the penalty (the last command was not DOWN, or there is excess energy) the reward is
1 within the radius and, outside, differs from `dropoff · 2^(-(d - r)/halflife)` by less than
`1e-11 · |dropoff|`. -/
theorem C20_shape (sun : Sun) (q : RewardParams) (hh : 0 < q.halflife) (s : BState)
    (hn : s.lastCommand ≠ .down ∨ s.excessEnergy sun = .ok true) (d : ℝ) (hd : d = Real.sqrt (s.x ^ 2 + s.y ^ 2)) :
    (d ≤ q.radiusKm * 1000 → reward sun q s = .ok 1) ∧
    (q.radiusKm * 1000 < d → ∃ r, reward sun q s = .ok r ∧
      |r - q.dropoff * 2 ^ (-((d / 1000 - q.radiusKm) / q.halflife) : ℝ)| ≤ 1e-11 * |q.dropoff|) := by
  obtain ⟨c1, _, c3, _⟩ := reward_cases sun q hh.ne' s
  have hr : reward sun q s = .ok (Spec.shape 0.69314718056 q d) := by
    rw [hd]
    rcases hn with h | h
    · exact c1 h
    · exact c3 h
  rw [hr]
  constructor
  · intro h; rw [Spec.shape, if_pos h]
  · intro h
    refine ⟨_, rfl, ?_⟩
    rw [Spec.shape, if_neg (not_le.2 h), ← mul_sub, abs_mul, mul_comm]
    refine mul_le_mul_of_nonneg_right ?_ (abs_nonneg _)
    have hx : 0 ≤ (d - q.radiusKm * 1000) / 1000 / q.halflife := by
      have : 0 < d - q.radiusKm * 1000 := by linarith
      positivity
    have hl := log_two_rounded
    obtain ⟨g1, g2⟩ := exp_gap (a := Real.log 2) (b := 0.69314718056) (by linarith) (by linarith) hx
    rw [Real.rpow_def_of_pos (by norm_num : (0:ℝ) < 2)]
    have : Real.log 2 * -((d / 1000 - q.radiusKm) / q.halflife) =
        -(Real.log 2 * ((d - q.radiusKm * 1000) / 1000 / q.halflife)) := by field_simp
    rw [this, abs_sub_comm, abs_of_nonneg g1]
    linarith

/-- Without the penalty the reward never increases with the distance from the station. -/
theorem C20_monotone (sun : Sun) (q : RewardParams) (h0 : 0 ≤ q.dropoff) (h1 : q.dropoff ≤ 1) (hh : 0 < q.halflife)
    (s s' : BState) (r r' : ℝ) (hn : ¬ Spec.Penalised sun s) (hn' : ¬ Spec.Penalised sun s')
    (hr : reward sun q s = .ok r) (hr' : reward sun q s' = .ok r')
    (hd : Real.sqrt (s.x ^ 2 + s.y ^ 2) ≤ Real.sqrt (s'.x ^ 2 + s'.y ^ 2)) : r' ≤ r := by
  have key : ∀ (s : BState) (r : ℝ), ¬ Spec.Penalised sun s → reward sun q s = .ok r →
      r = Spec.shape 0.69314718056 q (Real.sqrt (s.x ^ 2 + s.y ^ 2)) := by
    intro s r hn hr
    obtain ⟨c1, c2, c3, _⟩ := reward_cases sun q hh.ne' s
    by_cases hd : s.lastCommand = .down
    · rcases hx : s.excessEnergy sun with e | b
      · rw [c2 e hd hx] at hr; cases hr
      · cases b
        · exact absurd ⟨hd, hx⟩ hn
        · rw [c3 hx, Except.ok.injEq] at hr; exact hr.symm
    · rw [c1 hd, Except.ok.injEq] at hr; exact hr.symm
  rw [key s r hn hr, key s' r' hn' hr']
  generalize Real.sqrt (s.x ^ 2 + s.y ^ 2) = d at *
  generalize Real.sqrt (s'.x ^ 2 + s'.y ^ 2) = d' at *
  obtain ⟨_, b1, _⟩ := shape_range q h0 h1 hh d'
  by_cases c : d ≤ q.radiusKm * 1000
  · rw [show Spec.shape 0.69314718056 q d = 1 by rw [Spec.shape, if_pos c]]; exact b1
  · rw [Spec.shape, Spec.shape, if_neg c, if_neg (by linarith)]
    refine mul_le_mul_of_nonneg_left (Real.exp_le_exp.2 (neg_le_neg ?_)) h0
    gcongr

/-- Penalty: it applies exactly when the last command is DOWN and there is no excess energy; it multiplies
the unpenalised reward by a factor between 0.65 and 0.95. -/
theorem C20_penalty (sun : Sun) (q : RewardParams) (hh : 0 < q.halflife) (s s₀ : BState) (r₀ : ℝ)
    (hs₀ : s₀ = { s with lastCommand := .stay }) (hr₀ : reward sun q s₀ = .ok r₀) :
    (¬ (s.lastCommand = .down ∧ s.excessEnergy sun = .ok false) → ∀ r, reward sun q s = .ok r → r = r₀) ∧
    (s.lastCommand = .down ∧ s.excessEnergy sun = .ok false →
      ∃ m, 0.65 ≤ m ∧ m ≤ 0.95 ∧ reward sun q s = .ok (r₀ * m)) := by
  obtain ⟨c1, c2, c3, c4⟩ := reward_cases sun q hh.ne' s
  have h0 : r₀ = Spec.shape 0.69314718056 q (relativeDistance s.x s.y) := by
    subst hs₀
    have := (reward_cases sun q hh.ne' { s with lastCommand := .stay }).1 (by simp)
    rw [this, Except.ok.injEq] at hr₀
    exact hr₀.symm
  constructor
  · intro hn r hr
    rw [h0]
    by_cases hd : s.lastCommand = .down
    · rcases hx : s.excessEnergy sun with e | b
      · rw [c2 e hd hx] at hr; cases hr
      · cases b
        · exact absurd ⟨hd, hx⟩ hn
        · rw [c3 hx, Except.ok.injEq] at hr; exact hr.symm
    · rw [c1 hd, Except.ok.injEq] at hr; exact hr.symm
  · intro h
    obtain ⟨m, hm, m0, m1, _⟩ := powerMultiplier_eq s.acsPower
    exact ⟨m, m0, m1, by rw [c4 h m hm, h0]⟩

/-- C20, what excess energy means: the panels deliver more than the daytime load and the battery holds more than 99 % of
its capacity. -/
theorem C20_excess_energy (sun : Sun) (s : BState) (hc : 0 < s.cap) (b : Bool) (h : s.excessEnergy sun = .ok b) :
    b = true ↔ (∃ w, solarPower (sun s.latlng s.dateTime).el s.pressure = .ok w ∧ s.dayLoad < w) ∧
      0.99 * s.cap < s.charge := by
  unfold BState.excessEnergy at h
  rcases hw : solarPower (sun s.latlng s.dateTime).el s.pressure with e | w
  · rw [hw] at h; cases h
  rw [hw] at h
  simp only [bind, Except.bind, BState.soc, pyDiv, if_neg hc.ne', pure, Except.pure] at h
  split at h
  · rename_i hl
    injection h with h
    rw [← h, decide_eq_true_iff, gt_iff_lt, lt_div_iff₀ hc]
    exact ⟨fun h => ⟨⟨w, rfl, hl⟩, h⟩, fun h => h.2⟩
  · rename_i hl
    injection h with h
    rw [← h]
    constructor
    · intro h; cases h
    · rintro ⟨⟨w', hw', hl'⟩, _⟩
      injection hw' with hw'
      exact absurd (hw' ▸ hl') hl

/-- A demo balloon with a 95 % full battery has no excess energy whatever the sun delivers. -/
example (sun : Sun) (b : Bool) (h : demo.excessEnergy sun = .ok b) : b = false := by
  by_contra hb
  rw [Bool.not_eq_false] at hb
  have := ((C20_excess_energy sun demo (by norm_num [demo]) b h).1 hb).2
  norm_num [demo] at this

/-- Using more power never raises the reward. -/
theorem C20_power (sun : Sun) (q : RewardParams) (h0 : 0 ≤ q.dropoff) (h1 : q.dropoff ≤ 1) (hh : 0 < q.halflife)
    (s s' : BState) (w : ℝ) (hw : s.acsPower ≤ w) (hs' : s' = { s with acsPower := w }) (r r' : ℝ)
    (hr : reward sun q s = .ok r) (hr' : reward sun q s' = .ok r') : r' ≤ r := by
  obtain ⟨c1, c2, c3, c4⟩ := reward_cases sun q hh.ne' s
  obtain ⟨d1, d2, d3, d4⟩ := reward_cases sun q hh.ne' s'
  have hx' : s'.excessEnergy sun = s.excessEnergy sun := by rw [hs']; rfl
  have hd' : s'.lastCommand = s.lastCommand := by rw [hs']
  have hdist : relativeDistance s'.x s'.y = relativeDistance s.x s.y := by rw [hs']
  have hw' : s'.acsPower = w := by rw [hs']
  obtain ⟨b0, b1, _⟩ := shape_range q h0 h1 hh (relativeDistance s.x s.y)
  rw [hdist] at d1 d3 d4
  rw [hx'] at d3
  rw [hd'] at d1
  by_cases hd : s.lastCommand = .down
  · rcases hx : s.excessEnergy sun with e | b
    · rw [c2 e hd hx] at hr; cases hr
    · cases b
      · obtain ⟨m, hm, _⟩ := powerMultiplier_eq s.acsPower
        obtain ⟨m', hm', _⟩ := powerMultiplier_eq w
        have hp : Spec.Penalised sun s' := ⟨hd'.trans hd, hx'.trans hx⟩
        rw [c4 ⟨hd, hx⟩ m hm, Except.ok.injEq] at hr
        rw [d4 hp m' (by rw [hw']; exact hm'), Except.ok.injEq] at hr'
        rw [← hr, ← hr']
        refine mul_le_mul_of_nonneg_left ?_ b0
        simp only [powerMultiplier, rescaleSat, rescale, if_neg (show ¬ (300:ℝ) ≤ 100 by norm_num), Except.map, bind,
          Except.bind, pure, Except.pure, Except.ok.injEq] at hm hm'
        rw [← hm, ← hm']
        have : clip ((s.acsPower - 100) / (300 - 100)) 0 1 ≤ clip ((w - 100) / (300 - 100)) 0 1 := by
          unfold clip; gcongr
        linarith
      · rw [c3 hx, Except.ok.injEq] at hr
        rw [d3 hx, Except.ok.injEq] at hr'
        rw [← hr, ← hr']
  · rw [c1 hd, Except.ok.injEq] at hr
    rw [d1 hd, Except.ok.injEq] at hr'
    rw [← hr, ← hr']

/-- The night-time demo balloon has no excess energy. -/
theorem demo_no_excess (lc : Command) (w x y : ℝ) :
    BState.excessEnergy nightSun { demo with lastCommand := lc, acsPower := w, x := x, y := y } = .ok false := by
  obtain ⟨p, hp⟩ := solarPower_ok (el := -90) (p := 6000) (by norm_num) (by norm_num) (by norm_num) (by norm_num)
  have h0 := (C51_solar_power _ _ _ hp)
  have : p = 0 := h0.2.2.1 (by norm_num)
  subst this
  have hp' : solarPower (nightSun (BState.latlng { demo with lastCommand := lc, acsPower := w, x := x, y := y }) demo.dateTime).el
      demo.pressure = .ok 0 := hp
  simp only [BState.excessEnergy]
  rw [hp']
  simp only [bind, Except.bind]
  rw [if_neg (by norm_num [demo])]
  rfl

/-- **C20**, the shipped parameters (`balloon_env.py:47-49`): a balloon that does not pay for descending gets 1 within 50 km, and beyond
0.4, halved for every further 100 km. -/
theorem C20_default (sun : Sun) (s : BState) (hn : s.lastCommand ≠ .down ∨ s.excessEnergy sun = .ok true) (d : ℝ)
    (hd : d = Real.sqrt (s.x ^ 2 + s.y ^ 2)) :
    (d ≤ 50000 → reward sun .default s = .ok 1) ∧
    (50000 < d → ∃ r, reward sun .default s = .ok r ∧ |r - 0.4 * 2 ^ (-((d - 50000) / 100000) : ℝ)| ≤ 1e-11) := by
  obtain ⟨h1, h2⟩ := C20_shape sun .default (by norm_num [RewardParams.default]) s hn d hd
  have hr : RewardParams.default.radiusKm = 50 := rfl
  have hp : RewardParams.default.dropoff = 0.4 := rfl
  have hh : RewardParams.default.halflife = 100 := rfl
  rw [hr] at h1 h2
  rw [hp, hh] at h2
  refine ⟨fun h => h1 (by linarith), fun h => ?_⟩
  obtain ⟨r, e, b⟩ := h2 (by linarith)
  refine ⟨r, e, ?_⟩
  rw [show (d / 1000 - 50) / 100 = (d - 50000) / 100000 by ring] at b
  refine b.trans ?_
  norm_num [abs_of_pos]

/-- Non-trivial instances: inside the radius, descending at 200 W, the reward is 0.8; at 250 km without
descending it is within 1e-11 of a tenth. -/
example : reward nightSun .default { demo with lastCommand := .down, acsPower := 200, x := 0, y := 0 } = .ok 0.8 ∧
    ∃ r, reward nightSun .default { demo with x := 250000 } = .ok r ∧ |r - 0.1| ≤ 1e-11 := by
  constructor
  · obtain ⟨_, _, _, c4⟩ := reward_cases nightSun .default (by norm_num [RewardParams.default])
      { demo with lastCommand := .down, acsPower := 200, x := 0, y := 0 }
    obtain ⟨m, hm, _, _, _, _, h⟩ := powerMultiplier_eq 200
    rw [c4 ⟨rfl, demo_no_excess _ _ _ _⟩ m hm]
    rw [h (by norm_num) (by norm_num)]
    have : Spec.shape 0.69314718056 .default (relativeDistance 0 0) = 1 := by
      rw [Spec.shape, if_pos (by norm_num [relativeDistance, RewardParams.default])]
    refine congrArg Except.ok ?_
    refine (congrArg (· * _) this).trans ?_
    norm_num
  · have hd : (250000 : ℝ) = Real.sqrt (250000 ^ 2 + demo.y ^ 2) := by
      rw [show demo.y = 0 from rfl, show (250000:ℝ) ^ 2 + 0 ^ 2 = 250000 ^ 2 by ring,
        Real.sqrt_sq (by norm_num)]
    obtain ⟨r, h1, h2⟩ := (C20_shape nightSun .default (by norm_num [RewardParams.default])
      { demo with x := 250000 } (Or.inl (by simp [demo])) 250000 hd).2 (by norm_num [RewardParams.default])
    refine ⟨r, h1, ?_⟩
    have e : (2:ℝ) ^ (-(((250000:ℝ) / 1000 - 50) / 100) : ℝ) = 1 / 4 := by
      rw [show (-(((250000:ℝ) / 1000 - 50) / 100) : ℝ) = ((-2 : ℤ) : ℝ) by norm_num, Real.rpow_intCast]
      norm_num
    simp only [RewardParams.default] at h2
    rw [e] at h2
    norm_num at h2 ⊢
    linarith

end BLE
