import Verif.Model.Float
import Verif.Props.Ephemeris

/-!
# C115: integers computed through floating-point numbers come out right
-/

namespace BLE

/-! ## Rounding quotients of integers -/

theorem isFloat_int (n : ℤ) (h : |n| ≤ 2 ^ 53) : IsFloat n := ⟨n, 0, h, by simp⟩

/-- A power of two between `b` and `2 b`. -/
theorem exists_pow_two (b : ℤ) (hb : 0 < b) : ∃ j : ℕ, b ≤ 2 ^ j ∧ (2 : ℤ) ^ j < 2 * b := by
  obtain ⟨n, rfl⟩ := Int.eq_ofNat_of_zero_le hb.le
  have hn : n ≠ 0 := by omega
  have h1 := Nat.lt_pow_succ_log_self (b := 2) (by norm_num) n
  have h2 := Nat.pow_log_le_self 2 hn
  rcases h2.eq_or_lt with h | h
  · refine ⟨Nat.log 2 n, ?_, ?_⟩ <;> zify at h <;> omega
  · refine ⟨Nat.log 2 n + 1, ?_, ?_⟩
    · zify at h1; exact h1.le
    · zify at h; rw [pow_succ]; omega

/-- Rounding the quotient of two integers never reaches the next integer. -/
theorem floor_rd {rd : ℝ → ℝ} (h : Rounding rd) (a b : ℤ) (hb : 0 < b) (hab : |a| + b ≤ 2 ^ 52) :
    ⌊rd ((a : ℝ) / b)⌋ = a / b := by
  have hbr : (0 : ℝ) < b := by exact_mod_cast hb
  have k0 : a / b * b ≤ a := Int.ediv_mul_le a hb.ne'
  have k1 : a < (a / b + 1) * b := Int.lt_ediv_add_one_mul_self a hb
  generalize a / b = k at k0 k1 ⊢
  obtain ⟨j, j0, j1⟩ := exists_pow_two b hb
  have hk : |k| ≤ |a| + b := by
    have p1 := le_abs_self a
    have p2 := neg_le_abs a
    rcases le_or_gt 0 k with hk0 | hk0
    · rw [abs_of_nonneg hk0]
      nlinarith [mul_nonneg hk0 (show 0 ≤ b - 1 by omega)]
    · rw [abs_of_neg hk0]
      nlinarith [mul_nonneg (show 0 ≤ -(k + 1) by omega) (show 0 ≤ b - 1 by omega)]
  have e0 : rd k = k := h.exact _ (isFloat_int k (by omega))
  rw [Int.floor_eq_iff]
  constructor
  · rw [← e0]
    apply h.mono
    rw [le_div_iff₀ hbr]
    exact_mod_cast k0
  · have hN : (0 : ℝ) < (2 : ℝ) ^ j := by positivity
    have hr : IsFloat ((k : ℝ) + 1 - 1 / 2 ^ j) := by
      refine ⟨(k + 1) * 2 ^ j - 1, -(j : ℤ), ?_, ?_⟩
      · have hj : (0 : ℤ) < 2 ^ j := by positivity
        rw [abs_le]
        rcases le_or_gt 0 k with hk0 | hk0
        · have p0 : 0 ≤ (k + 1) * 2 ^ j := by positivity
          have p1 : (k + 1) * 2 ^ j ≤ (k + 1) * (2 * b) := mul_le_mul_of_nonneg_left j1.le (by omega)
          have p2 : (k + 1) * (2 * b) = 2 * (k * b + b) := by ring
          have p3 : a ≤ |a| := le_abs_self a
          constructor <;> omega
        · have p0 : (k + 1) * 2 ^ j ≤ 0 := mul_nonpos_of_nonpos_of_nonneg (by omega) hj.le
          have p1 : (k + 1) * (2 * b) ≤ (k + 1) * 2 ^ j := mul_le_mul_of_nonpos_left j1.le (by omega)
          have p2 : (k + 1) * (2 * b) = 2 * ((k + 1) * b) := by ring
          have p3 : -a ≤ |a| := neg_le_abs a
          constructor <;> omega
      · push_cast
        rw [zpow_neg, zpow_natCast]
        field_simp
    have hle : (a : ℝ) / b ≤ (k : ℝ) + 1 - 1 / 2 ^ j := by
      rw [div_le_iff₀ hbr]
      have q1 : (a : ℝ) + 1 ≤ (k + 1) * b := by exact_mod_cast k1
      have q2 : 1 / (2 : ℝ) ^ j * b ≤ 1 := by
        rw [div_mul_eq_mul_div, one_mul, div_le_one hN]
        exact_mod_cast j0
      nlinarith
    calc rd ((a : ℝ) / b) ≤ rd ((k : ℝ) + 1 - 1 / 2 ^ j) := h.mono hle
      _ = (k : ℝ) + 1 - 1 / 2 ^ j := h.exact _ hr
      _ < k + 1 := by have : (0 : ℝ) < 1 / 2 ^ j := by positivity
                      linarith

/-- The mirrored rounding. -/
theorem rounding_neg {rd : ℝ → ℝ} (h : Rounding rd) : Rounding fun x => -rd (-x) := by
  have hf : ∀ x, IsFloat x → IsFloat (-x) := by
    rintro x ⟨m, e, hm, rfl⟩
    exact ⟨-m, e, by rwa [abs_neg], by push_cast; ring⟩
  refine ⟨fun x y hxy => ?_, fun x hx => ?_, fun x => hf _ (h.range _)⟩
  · exact neg_le_neg (h.mono (neg_le_neg hxy))
  · rw [h.exact _ (hf x hx), neg_neg]

theorem ceil_rd {rd : ℝ → ℝ} (h : Rounding rd) (a b : ℤ) (hb : 0 < b) (hab : |a| + b ≤ 2 ^ 52) :
    ⌈rd ((a : ℝ) / b)⌉ = -((-a) / b) := by
  have := floor_rd (rounding_neg h) (-a) b hb (by rwa [abs_neg])
  rw [← this]
  rw [Int.floor_neg, neg_neg]
  congr 2
  push_cast
  ring

/-- C115. `int(a / b)` of two integers with a + b up to 2⁵² is exactly the truncated quotient, whatever the rounding mode. -/
theorem C115_int_of_quotient (rd : ℝ → ℝ) (h : Rounding rd) (a b : ℤ) (hb : 0 < b) (hab : |a| + b ≤ 2 ^ 52) :
    pyInt (rd ((a : ℝ) / b)) = Int.tdiv a b := by
  have hbr : (0 : ℝ) < b := by exact_mod_cast hb
  have h0 : rd 0 = 0 := by
    have := h.exact _ (isFloat_int 0 (by norm_num))
    simpa using this
  unfold pyInt
  rcases le_or_gt 0 a with ha | ha
  · have : 0 ≤ rd ((a : ℝ) / b) := by
      rw [← h0]
      exact h.mono (div_nonneg (by exact_mod_cast ha) hbr.le)
    rw [if_pos this, floor_rd h a b hb hab, Int.tdiv_eq_ediv_of_nonneg ha]
  · have hle : rd ((a : ℝ) / b) ≤ 0 := by
      rw [← h0]
      exact h.mono (div_nonpos_of_nonpos_of_nonneg (by exact_mod_cast ha.le) hbr.le)
    have hc := ceil_rd h a b hb hab
    have ht : Int.tdiv a b = -((-a) / b) := by
      rw [← Int.tdiv_eq_ediv_of_nonneg (by omega), Int.neg_tdiv, neg_neg]
    split_ifs with hs
    · have e : rd ((a : ℝ) / b) = 0 := le_antisymm hle hs
      rw [ht, ← hc, e]; simp
    · rw [hc, ht]

/-- C115. The shards of an evaluation are cut at the exact positions, for suites and shard counts up to 10¹⁵. -/
theorem C115_shards (rd : ℝ → ℝ) (h : Rounding rd) (seeds : List ℤ) (i n : ℕ)
    (hb : seeds.length * (i + 1) + n ≤ 2 ^ 52) : shardF rd seeds i n = shard seeds i n := by
  unfold shardF shard shardStart
  split_ifs with hn
  · have key : ∀ m : ℕ, m + n ≤ 2 ^ 52 → (pyInt (rd ((m : ℝ) / n))).toNat = m / n := by
      intro m hm
      have := C115_int_of_quotient rd h m n (by exact_mod_cast (by omega : 0 < n)) (by
        rw [abs_of_nonneg (by positivity)]; exact_mod_cast hm)
      push_cast at this
      rw [this, Int.tdiv_eq_ediv_of_nonneg (by positivity)]
      norm_cast
    have hle : seeds.length * i ≤ seeds.length * (i + 1) := Nat.mul_le_mul_left _ (by omega)
    simp only
    rw [key _ (by omega), key _ hb, List.drop_take]
  · rfl

/-- C115. Durations and instants of up to 142 years are cut to whole seconds exactly: a call of `simulate_step` with such
durations does exactly what the model says, `sample_time` offers the exact number of seconds, and the second of the day is
right. -/
theorem C115_seconds (rd : ℝ → ℝ) (h : Rounding rd) :
    (∀ us : ℤ, |us| ≤ 4500000000000000 → secondsF rd us = Int.tdiv us 1000000) ∧
    (∀ sun α u v a timeDelta stride s, |timeDelta| ≤ 4500000000000000 → |stride| ≤ 4500000000000000 →
      simulateStepF rd sun α u v a timeDelta stride s = simulateStep sun α u v a timeDelta stride s) ∧
    (∀ b e : ℤ, |e - b| ≤ 4500000000000000 → secondsF rd (e - b) = sampleTimeCount b e) ∧
    (∀ now : ℤ, |now| ≤ 4500000000000000 → ((secondsF rd now % 86400 : ℤ) : ℝ) / 86400 = fractionOfDay now) := by
  have key : ∀ us : ℤ, |us| ≤ 4500000000000000 → secondsF rd us = Int.tdiv us 1000000 := by
    intro us hus
    have := C115_int_of_quotient rd h us 1000000 (by norm_num) (by norm_num; omega)
    push_cast at this
    exact this
  refine ⟨key, ?_, fun b e hbe => key _ hbe, fun now hn => ?_⟩
  · intro sun α u v a timeDelta stride s h1 h2
    unfold simulateStepF simulateStep
    rw [key _ h1, key _ h2]
    rfl
  · rw [key _ hn]
    rfl

/-- C115. The number of steps of the solar search and the number of steps to sunrise are exact as well. -/
theorem C115_search (rd : ℝ → ℝ) (h : Rounding rd) (delta : ℤ) (hd : 0 < delta) :
    (∀ tmin tmax : ℤ, |tmax - tmin| + delta ≤ 2 ^ 52 → searchStepsF rd tmin tmax delta = Int.tdiv (tmax - tmin) delta) ∧
    (∀ (el : ℤ → ℝ) (latDeg : ℝ) (t sunrise sunset : ℤ), el t < minSolarEl →
      nextSunriseSunset el latDeg t delta = .ok (sunrise, sunset) → |sunrise - t| + delta ≤ 2 ^ 52 →
      stepsToSunrise el latDeg t delta = .ok (waitStepsF rd (sunrise - t) delta)) := by
  constructor
  · intro tmin tmax hb
    exact C115_int_of_quotient rd h (tmax - tmin) delta hd hb
  · intro el latDeg t sunrise sunset hel hs hb
    unfold stepsToSunrise
    rw [if_neg (not_le.2 hel), hs]
    simp only
    unfold waitStepsF
    have e := ceil_rd h (sunrise - t) delta hd hb
    rw [e]
    congr 1
    obtain ⟨n, rfl⟩ := Int.eq_ofNat_of_zero_le hd.le
    have := Rat.floor_intCast_div_natCast (-(sunrise - t)) n
    rw [← this, ← Int.ceil_neg]
    congr 1
    push_cast
    ring

/-! ## The Julian day -/

theorem rd_int {rd : ℝ → ℝ} (h : Rounding rd) (n : ℤ) (hn : |n| ≤ 2 ^ 53) : rd n = n := h.exact _ (isFloat_int n hn)

theorem floor_between {rd : ℝ → ℝ} (h : Rounding rd) {x : ℝ} (k : ℤ) (hk : |k| ≤ 2 ^ 40) (h0 : (k : ℝ) ≤ x)
    (h1 : x ≤ k + 1 - 1 / 1024) : ⌊rd x⌋ = k := by
  rw [Int.floor_eq_iff]
  have hk' := abs_le.1 hk
  constructor
  · rw [← rd_int h k (by omega)]
    exact h.mono h0
  · have e : IsFloat ((k : ℝ) + 1 - 1 / 1024) := by
      refine ⟨1024 * k + 1023, -10, ?_, ?_⟩
      · rw [abs_le]; constructor <;> omega
      · push_cast; norm_num; ring
    have := h.mono h1
    rw [h.exact _ e] at this
    linarith

/-- C115. The Julian day number computed in floating point is the exact one, for every date `datetime` can represent. -/
theorem C115_julian_day (rd : ℝ → ℝ) (h : Rounding rd) (year month day : ℤ) (hy0 : 1 ≤ year) (hy1 : year ≤ 9999)
    (hm0 : 1 ≤ month) (hm1 : month ≤ 12) (hd0 : 1 ≤ day) (hd1 : day ≤ 31) :
    julianDayNumberF rd year month day = ((julianDayNumber year month day : ℚ) : ℝ) := by
  have I : ∀ n : ℤ, |n| ≤ 2 ^ 53 → rd n = n := rd_int h
  have F4 : ∀ n : ℤ, -(2 ^ 40) ≤ n → n ≤ 2 ^ 40 → ⌊rd ((n : ℝ) / 4)⌋ = n / 4 := by
    intro n h0 h1
    have := floor_rd h n 4 (by norm_num) (by have := abs_le.2 ⟨h0, h1⟩; omega)
    push_cast at this
    exact this
  have bnd : ∀ n : ℤ, -(2 ^ 40) ≤ n → n ≤ 2 ^ 40 → |n| ≤ 2 ^ 53 := by
    intro n h0 h1; rw [abs_le]; constructor <;> omega
  unfold julianDayNumberF
  have e1 : rd ((month : ℝ) + 9) = ((month + 9 : ℤ) : ℝ) := by
    rw [← I (month + 9) (bnd _ (by omega) (by omega))]; push_cast; rfl
  have e2 : ⌊rd (((month + 9 : ℤ) : ℝ) / 12)⌋ = (month + 9) / 12 := by
    have := floor_rd h (month + 9) 12 (by norm_num) (by rw [abs_of_nonneg (by omega)]; omega)
    push_cast at this ⊢
    exact this
  have e3 : rd ((year : ℝ) + (((month + 9) / 12 : ℤ) : ℝ)) = ((year + (month + 9) / 12 : ℤ) : ℝ) := by
    rw [← I (year + (month + 9) / 12) (bnd _ (by omega) (by omega))]; push_cast; rfl
  have e4 : rd (7 * ((year + (month + 9) / 12 : ℤ) : ℝ)) = ((7 * (year + (month + 9) / 12) : ℤ) : ℝ) := by
    rw [← I (7 * (year + (month + 9) / 12)) (bnd _ (by omega) (by omega))]; push_cast; rfl
  have e5 := F4 (7 * (year + (month + 9) / 12)) (by omega) (by omega)
  have f1 : rd ((month : ℝ) - 9) = ((month - 9 : ℤ) : ℝ) := by
    rw [← I (month - 9) (bnd _ (by omega) (by omega))]; push_cast; rfl
  -- the month's contribution to the century lies within 7/8 of its floor
  have f2 : (((month - 9) / 7 : ℤ) : ℝ) ≤ rd (((month - 9 : ℤ) : ℝ) / 7) ∧
      rd (((month - 9 : ℤ) : ℝ) / 7) ≤ (((month - 9) / 7 : ℤ) : ℝ) + 7 / 8 := by
    have q0 : (month - 9) / 7 * 7 ≤ month - 9 := by omega
    have q1 : month - 9 ≤ (month - 9) / 7 * 7 + 6 := by omega
    have q0' : (((month - 9) / 7 : ℤ) : ℝ) * 7 ≤ ((month - 9 : ℤ) : ℝ) := by exact_mod_cast q0
    have q1' : ((month - 9 : ℤ) : ℝ) ≤ (((month - 9) / 7 : ℤ) : ℝ) * 7 + 6 := by exact_mod_cast q1
    constructor
    · rw [← I ((month - 9) / 7) (bnd _ (by omega) (by omega))]
      apply h.mono
      rw [le_div_iff₀ (by norm_num)]
      exact q0'
    · have e : IsFloat ((((month - 9) / 7 : ℤ) : ℝ) + 7 / 8) := by
        refine ⟨8 * ((month - 9) / 7) + 7, -3, ?_, ?_⟩
        · rw [abs_le]; constructor <;> omega
        · push_cast; norm_num; ring
      rw [← h.exact _ e]
      apply h.mono
      rw [div_le_iff₀ (by norm_num)]
      linarith
  have f3 : ((year + (month - 9) / 7 : ℤ) : ℝ) ≤ rd ((year : ℝ) + rd (((month - 9 : ℤ) : ℝ) / 7)) ∧
      rd ((year : ℝ) + rd (((month - 9 : ℤ) : ℝ) / 7)) ≤ ((year + (month - 9) / 7 : ℤ) : ℝ) + 7 / 8 := by
    constructor
    · rw [← I (year + (month - 9) / 7) (bnd _ (by omega) (by omega))]
      apply h.mono
      push_cast at f2 ⊢
      linarith [f2.1]
    · have e : IsFloat (((year + (month - 9) / 7 : ℤ) : ℝ) + 7 / 8) := by
        refine ⟨8 * (year + (month - 9) / 7) + 7, -3, ?_, ?_⟩
        · rw [abs_le]; constructor <;> omega
        · push_cast; norm_num; ring
      rw [← h.exact _ e]
      apply h.mono
      push_cast at f2 ⊢
      linarith [f2.2]
  have f4 : ⌊rd (rd ((year : ℝ) + rd (((month - 9 : ℤ) : ℝ) / 7)) / 100)⌋ = (7 * year + month - 9) / 700 := by
    have hn : (7 * year + month - 9) / 700 = (year + (month - 9) / 7) / 100 := by omega
    rw [hn]
    generalize year + (month - 9) / 7 = n at f3 hn
    have q0 : n / 100 * 100 ≤ n := by omega
    have q1 : n ≤ n / 100 * 100 + 99 := by omega
    have q0' : ((n / 100 : ℤ) : ℝ) * 100 ≤ (n : ℝ) := by exact_mod_cast q0
    have q1' : (n : ℝ) ≤ ((n / 100 : ℤ) : ℝ) * 100 + 99 := by exact_mod_cast q1
    refine floor_between h (n / 100) ?_ ?_ ?_
    · rw [← hn, abs_le]; constructor <;> omega
    · rw [le_div_iff₀ (by norm_num)]; linarith [f3.1]
    · rw [div_le_iff₀ (by norm_num)]; linarith [f3.2]
  generalize hc : (7 * year + month - 9) / 700 = c at f4
  have hc0 : -1 ≤ c := by omega
  have hc1 : c ≤ 100 := by omega
  have g1 : rd ((c : ℝ) + 1) = ((c + 1 : ℤ) : ℝ) := by
    rw [← I (c + 1) (bnd _ (by omega) (by omega))]; push_cast; rfl
  have g2 : rd (3 * ((c + 1 : ℤ) : ℝ)) = ((3 * (c + 1) : ℤ) : ℝ) := by
    rw [← I (3 * (c + 1)) (bnd _ (by omega) (by omega))]; push_cast; rfl
  have g3 := F4 (3 * (c + 1)) (by omega) (by omega)
  have k1 : rd (275 * (month : ℝ)) = ((275 * month : ℤ) : ℝ) := by
    rw [← I (275 * month) (bnd _ (by omega) (by omega))]; push_cast; rfl
  have k2 : ⌊rd (((275 * month : ℤ) : ℝ) / 9)⌋ = 275 * month / 9 := by
    have := floor_rd h (275 * month) 9 (by norm_num) (by rw [abs_of_nonneg (by omega)]; omega)
    push_cast at this ⊢
    exact this
  have k3 : rd (367 * (year : ℝ)) = ((367 * year : ℤ) : ℝ) := by
    rw [← I (367 * year) (bnd _ (by omega) (by omega))]; push_cast; rfl
  simp only
  rw [f1, f4, g1, g2, g3, k1, k2, k3, e1, e2, e3, e4, e5]
  have A : ∀ x y : ℤ, |x - y| ≤ 2 ^ 53 → rd ((x : ℝ) - (y : ℝ)) = ((x - y : ℤ) : ℝ) := by
    intro x y hxy; rw [← I (x - y) hxy]; push_cast; rfl
  have B : ∀ x y : ℤ, |x + y| ≤ 2 ^ 53 → rd ((x : ℝ) + (y : ℝ)) = ((x + y : ℤ) : ℝ) := by
    intro x y hxy; rw [← I (x + y) hxy]; push_cast; rfl
  rw [A _ _ (bnd _ (by omega) (by omega)), A _ _ (bnd _ (by omega) (by omega)), B _ _ (bnd _ (by omega) (by omega)),
    B _ _ (bnd _ (by omega) (by omega))]
  rw [julianDayNumber_int, hc]
  have hs : ∀ s : ℤ, |s| ≤ 2 ^ 41 → rd ((s : ℝ) + 1721028.5) = s + 1721028.5 := by
    intro s hs
    refine h.exact _ ⟨2 * s + 3442057, -1, ?_, ?_⟩
    · rw [abs_le] at hs ⊢; constructor <;> omega
    · push_cast; norm_num; ring
  rw [hs _ (by rw [abs_le]; constructor <;> omega)]
  push_cast
  norm_num

/-! ## Rounding modes exist, and the bound on the size is needed -/

theorem pow_log_bounds {x : ℝ} (hx : 0 < x) :
    (2 : ℝ) ^ 52 ≤ x / (2 : ℝ) ^ (Int.log 2 x - 52) ∧ x / (2 : ℝ) ^ (Int.log 2 x - 52) < 2 ^ 53 := by
  have h1 := Int.zpow_log_le_self (b := 2) (by norm_num) hx
  have h2 := Int.lt_zpow_succ_log_self (b := 2) (by norm_num) x
  push_cast at h1 h2
  have hp : (0 : ℝ) < (2 : ℝ) ^ (Int.log 2 x - 52) := by positivity
  constructor
  · rw [le_div_iff₀ hp]
    calc (2 : ℝ) ^ 52 * 2 ^ (Int.log 2 x - 52) = 2 ^ (Int.log 2 x) := by
          rw [← zpow_natCast, ← zpow_add₀ (by norm_num)]; congr 1; push_cast; ring
      _ ≤ x := h1
  · rw [div_lt_iff₀ hp]
    calc x < 2 ^ (Int.log 2 x + 1) := h2
      _ = (2 : ℝ) ^ 53 * 2 ^ (Int.log 2 x - 52) := by
          rw [← zpow_natCast, ← zpow_add₀ (by norm_num)]; congr 1; push_cast; ring

/-- Rounding towards zero is a rounding: the hypotheses of the theorems above are satisfiable. -/
theorem roundToZero_rounding : Rounding roundToZero := by
  have hle : ∀ x : ℝ, 0 ≤ x → roundToZero x ≤ x ∧ 0 ≤ roundToZero x := by
    intro x hx
    unfold roundToZero
    rw [if_pos hx]
    have hp : (0 : ℝ) < (2 : ℝ) ^ (Int.log 2 x - 52) := by positivity
    constructor
    · have := Int.floor_le (x / (2 : ℝ) ^ (Int.log 2 x - 52))
      rwa [le_div_iff₀ hp] at this
    · have : (0 : ℤ) ≤ ⌊x / (2 : ℝ) ^ (Int.log 2 x - 52)⌋ := Int.floor_nonneg.2 (by positivity)
      have : (0 : ℝ) ≤ ((⌊x / (2 : ℝ) ^ (Int.log 2 x - 52)⌋ : ℤ) : ℝ) := by exact_mod_cast this
      positivity
  have hodd : ∀ x : ℝ, x < 0 → roundToZero x = -roundToZero (-x) := by
    intro x hx
    unfold roundToZero
    rw [if_neg (not_le.2 hx), if_pos (by linarith)]
  have hpos : ∀ x : ℝ, 0 ≤ x → IsFloat (roundToZero x) := by
    intro x hx
    rcases hx.eq_or_lt with rfl | hx'
    · refine ⟨0, 0, by norm_num, ?_⟩
      simp [roundToZero]
    · obtain ⟨b0, b1⟩ := pow_log_bounds hx'
      refine ⟨⌊x / (2 : ℝ) ^ (Int.log 2 x - 52)⌋, Int.log 2 x - 52, ?_, ?_⟩
      · rw [abs_of_nonneg (Int.floor_nonneg.2 (by positivity))]
        have : ((⌊x / (2 : ℝ) ^ (Int.log 2 x - 52)⌋ : ℤ) : ℝ) < 2 ^ 53 := (Int.floor_le _).trans_lt b1
        exact_mod_cast this.le
      · unfold roundToZero; rw [if_pos hx]
  have hmono : ∀ x y : ℝ, 0 ≤ x → x ≤ y → roundToZero x ≤ roundToZero y := by
    intro x y hx hxy
    rcases hx.eq_or_lt with rfl | hx'
    · have : roundToZero 0 = 0 := by simp [roundToZero]
      rw [this]; exact (hle y hxy).2
    · have hlog := Int.log_mono_right (b := 2) hx' hxy
      rcases hlog.eq_or_lt with he | hlt
      · unfold roundToZero
        rw [if_pos hx, if_pos (hx.trans hxy), he]
        have hp : (0 : ℝ) < (2 : ℝ) ^ (Int.log 2 y - 52) := by positivity
        apply mul_le_mul_of_nonneg_right _ hp.le
        exact_mod_cast Int.floor_le_floor (div_le_div_of_nonneg_right hxy hp.le)
      · obtain ⟨b0, -⟩ := pow_log_bounds (hx'.trans_le hxy)
        have h2 := Int.lt_zpow_succ_log_self (b := 2) (by norm_num) x
        push_cast at h2
        have hp : (0 : ℝ) < (2 : ℝ) ^ (Int.log 2 y - 52) := by positivity
        calc roundToZero x ≤ x := (hle x hx).1
          _ ≤ 2 ^ (Int.log 2 x + 1) := h2.le
          _ ≤ 2 ^ (Int.log 2 y) := zpow_le_zpow_right₀ (by norm_num) (by omega)
          _ = (2 : ℝ) ^ 52 * 2 ^ (Int.log 2 y - 52) := by
            rw [← zpow_natCast, ← zpow_add₀ (by norm_num)]; congr 1; push_cast; ring
          _ ≤ roundToZero y := by
            unfold roundToZero
            rw [if_pos (hx.trans hxy)]
            apply mul_le_mul_of_nonneg_right _ hp.le
            have : (2 ^ 52 : ℤ) ≤ ⌊y / (2 : ℝ) ^ (Int.log 2 y - 52)⌋ := Int.le_floor.2 (by push_cast; norm_num at b0 ⊢; exact b0)
            exact_mod_cast this
  have hexact : ∀ x : ℝ, 0 ≤ x → IsFloat x → roundToZero x = x := by
    rintro x hx ⟨m, e, hm, hxe⟩
    rcases hx.eq_or_lt with rfl | hx'
    · simp [roundToZero]
    · have hp : (0 : ℝ) < (2 : ℝ) ^ (Int.log 2 x - 52) := by positivity
      have hint : ∃ n : ℤ, x / (2 : ℝ) ^ (Int.log 2 x - 52) = n := by
        obtain ⟨b0, -⟩ := pow_log_bounds hx'
        rw [le_div_iff₀ hp] at b0
        have he : (0 : ℝ) < (2 : ℝ) ^ e := by positivity
        have hm' : (m : ℝ) ≤ 2 ^ 53 := by exact_mod_cast (le_abs_self m).trans hm
        have hq : x ≤ (2 : ℝ) ^ 53 * 2 ^ e := by rw [hxe]; exact mul_le_mul_of_nonneg_right hm' he.le
        rcases le_or_gt (Int.log 2 x - 52) e with hc | hc
        · obtain ⟨k, hk⟩ := Int.eq_ofNat_of_zero_le (sub_nonneg.2 hc)
          refine ⟨m * 2 ^ k, ?_⟩
          rw [hxe, mul_div_assoc, ← zpow_sub₀ (by norm_num)]
          rw [← hxe, hk]
          push_cast
          rw [← zpow_natCast]
        · -- then x is 2⁵³·2ᵉ
          have h1 : (2 : ℝ) ^ 52 * 2 ^ (e + 1) ≤ (2 : ℝ) ^ 52 * 2 ^ (Int.log 2 x - 52) :=
            mul_le_mul_of_nonneg_left (zpow_le_zpow_right₀ (by norm_num) (by omega)) (by positivity)
          have h2 : (2 : ℝ) ^ 52 * 2 ^ (e + 1) = (2 : ℝ) ^ 53 * 2 ^ e := by
            rw [zpow_add₀ (by norm_num)]; norm_num; ring
          have h3 : x = (2 : ℝ) ^ 52 * 2 ^ (Int.log 2 x - 52) := by linarith
          refine ⟨2 ^ 52, ?_⟩
          rw [div_eq_iff hp.ne']
          push_cast
          norm_num at h3 ⊢
          exact h3
      obtain ⟨n, hn⟩ := hint
      unfold roundToZero
      rw [if_pos hx, hn, Int.floor_intCast, ← hn]
      field_simp
  have hneg : ∀ x, IsFloat x → IsFloat (-x) := by
    rintro x ⟨m, e, hm, rfl⟩
    exact ⟨-m, e, by rwa [abs_neg], by push_cast; ring⟩
  refine ⟨fun x y hxy => ?_, fun x hx => ?_, fun x => ?_⟩
  · rcases le_or_gt 0 x with h0 | h0
    · exact hmono x y h0 hxy
    · rcases le_or_gt 0 y with h1 | h1
      · rw [hodd x h0]
        linarith [(hle (-x) (by linarith)).2, (hle y h1).2]
      · rw [hodd x h0, hodd y h1]
        linarith [hmono (-y) (-x) (by linarith) (by linarith)]
  · rcases le_or_gt 0 x with h0 | h0
    · exact hexact x h0 hx
    · rw [hodd x h0, hexact (-x) (by linarith) (hneg x hx), neg_neg]
  · rcases le_or_gt 0 x with h0 | h0
    · exact hpos x h0
    · rw [hodd x h0]
      exact hneg _ (hpos _ (by linarith))

/-- A bound on the size is needed: no rounding keeps 2⁵⁴ − 1, so `int((2⁵⁴ − 1) / 1)` is wrong in floating point. -/
theorem C115_bound_needed (rd : ℝ → ℝ) (h : Rounding rd) : pyInt (rd (((2 ^ 54 - 1 : ℤ) : ℝ) / ((1 : ℤ) : ℝ))) ≠ 2 ^ 54 - 1 := by
  intro hc
  have hge : (0 : ℝ) ≤ rd (((2 ^ 54 - 1 : ℤ) : ℝ) / ((1 : ℤ) : ℝ)) := by
    have h0 : rd 0 = 0 := by simpa using h.exact _ (isFloat_int 0 (by norm_num))
    rw [← h0]; apply h.mono; norm_num
  unfold pyInt at hc
  rw [if_pos hge, Int.floor_eq_iff] at hc
  obtain ⟨m, e, hm, hx⟩ := h.range (((2 ^ 54 - 1 : ℤ) : ℝ) / ((1 : ℤ) : ℝ))
  have hup : rd (((2 ^ 54 - 1 : ℤ) : ℝ) / ((1 : ℤ) : ℝ)) ≤ 2 ^ 54 := by
    have e54 : IsFloat ((2 : ℝ) ^ 54) := ⟨2 ^ 53, 1, by norm_num, by norm_num⟩
    rw [← h.exact _ e54]
    apply h.mono
    norm_num
  obtain ⟨c1, c2⟩ := hc
  rw [hx] at c1 c2
  have hm' : (m : ℝ) ≤ 2 ^ 53 := by exact_mod_cast (le_abs_self m).trans hm
  have he : (0 : ℝ) < (2 : ℝ) ^ e := by positivity
  -- the exponent is positive, so the value is even
  rcases le_or_gt e 0 with h0 | h0
  · have : (2 : ℝ) ^ e ≤ 1 := zpow_le_one_of_nonpos₀ (by norm_num) h0
    have : (m : ℝ) * 2 ^ e ≤ 2 ^ 53 * 1 := by
      rcases le_or_gt (m : ℝ) 0 with hm0 | hm0
      · nlinarith
      · exact mul_le_mul hm' this he.le (by positivity)
    push_cast at c1
    norm_num at c1 this
    linarith
  · obtain ⟨k, hk⟩ := Int.eq_ofNat_of_zero_le (show 0 ≤ e - 1 by omega)
    have hval : (m : ℝ) * 2 ^ e = ((2 * (m * 2 ^ k) : ℤ) : ℝ) := by
      have : e = (k : ℤ) + 1 := by omega
      rw [this, zpow_add₀ (by norm_num)]
      push_cast
      rw [zpow_natCast]
      ring
    rw [hval] at c1 c2
    have d1 : (2 ^ 54 - 1 : ℤ) ≤ 2 * (m * 2 ^ k) := by exact_mod_cast c1
    have d2 : 2 * (m * 2 ^ k) < (2 ^ 54 - 1 : ℤ) + 1 := by exact_mod_cast c2
    omega

/-- 10,000 seeds in 7 shards, rounding towards zero: the third shard has seeds 2857 to 4284. -/
example (seeds : List ℤ) (h : seeds.length = 10000) : shardF roundToZero seeds 2 7 = (seeds.drop 2857).take 1428 := by
  rw [C115_shards roundToZero roundToZero_rounding seeds 2 7 (by rw [h]; norm_num)]
  unfold shard shardStart
  rw [h]
  rfl

/-- 15 October 2021 in floating point. -/
example : julianDayNumberF roundToZero 2021 10 15 = 2459502.5 := by
  rw [C115_julian_day roundToZero roundToZero_rounding 2021 10 15 (by norm_num) (by norm_num) (by norm_num) (by norm_num)
    (by norm_num) (by norm_num), julianDayNumber_int]
  norm_num

end BLE
