import Verif.Model.Solar
import Mathlib.Tactic.Linarith
import Mathlib.Tactic.NormNum
import Mathlib.Tactic.Positivity
import Mathlib.Tactic.Ring
import Mathlib.Tactic.FieldSimp

/-!
# C32, C49, C50, C84: searching for solar events
-/

namespace BLE

/-! ## C49 — the bracketing search -/

theorem bracketLoop_spec (f : ℤ → ℝ) (low high : ℤ) (h : low < high) :
    low ≤ (bracketLoop f low high).1 ∧ (bracketLoop f low high).2 = (bracketLoop f low high).1 + 1 ∧
      (bracketLoop f low high).2 ≤ high := by
  fun_induction bracketLoop f low high with
  | case1 low high h1 h2 ih => obtain ⟨a, b, c⟩ := ih (by omega); exact ⟨a, b, by omega⟩
  | case2 low high h1 h2 ih => obtain ⟨a, b, c⟩ := ih (by omega); exact ⟨by omega, b, c⟩
  | case3 low high h1 => simp only; omega

theorem bracketLoop_congr {f g : ℤ → ℝ} (low high : ℤ) (hlt : low < high)
    (h : ∀ i, low ≤ i → i ≤ high → f i = g i) : bracketLoop f low high = bracketLoop g low high := by
  fun_induction bracketLoop f low high with
  | case1 low high h1 h2 ih =>
    rw [ih (by omega) fun i a b => h i a (by omega)]
    conv_rhs => rw [bracketLoop]
    rw [dif_pos h1, if_pos (by rwa [← h low (by omega) (by omega), ← h high (by omega) (by omega)])]
  | case2 low high h1 h2 ih =>
    rw [ih (by omega) fun i a b => h i (by omega) b]
    conv_rhs => rw [bracketLoop]
    rw [dif_pos h1, if_neg (by rwa [← h low (by omega) (by omega), ← h high (by omega) (by omega)])]
  | case3 low high h1 =>
    conv_rhs => rw [bracketLoop]
    rw [dif_neg h1]

/-- The search (which terminates: it is a total function here) returns an index of the window that is
the better of two adjacent ones, and looks at the objective inside the window only. -/
theorem C49_search (f : ℤ → ℝ) (n : ℤ) (hn : 0 < n) :
    0 ≤ searchIndex f n ∧ searchIndex f n ≤ n ∧
    (∃ i, 0 ≤ i ∧ i + 1 ≤ n ∧ (searchIndex f n = i ∨ searchIndex f n = i + 1) ∧
      f (searchIndex f n) ≤ f i ∧ f (searchIndex f n) ≤ f (i + 1)) ∧
    (∀ g : ℤ → ℝ, (∀ i, 0 ≤ i → i ≤ n → f i = g i) → searchIndex f n = searchIndex g n) := by
  obtain ⟨a, b, c⟩ := bracketLoop_spec f 0 n hn
  have hpick : (searchIndex f n = (bracketLoop f 0 n).1 ∧ f (bracketLoop f 0 n).1 < f (bracketLoop f 0 n).2) ∨
      (searchIndex f n = (bracketLoop f 0 n).2 ∧ f (bracketLoop f 0 n).2 ≤ f (bracketLoop f 0 n).1) := by
    unfold searchIndex
    by_cases h : f (bracketLoop f 0 n).1 < f (bracketLoop f 0 n).2
    · left; simp only [if_pos h]; exact ⟨trivial, h⟩
    · right; simp only [if_neg h]; exact ⟨trivial, not_lt.1 h⟩
  refine ⟨?_, ?_, ⟨(bracketLoop f 0 n).1, a, by omega, ?_, ?_, ?_⟩, ?_⟩
  · rcases hpick with ⟨h, _⟩ | ⟨h, _⟩ <;> rw [h] <;> omega
  · rcases hpick with ⟨h, _⟩ | ⟨h, _⟩ <;> rw [h] <;> omega
  · rcases hpick with ⟨h, _⟩ | ⟨h, _⟩
    · exact Or.inl h
    · exact Or.inr (by omega)
  · rcases hpick with ⟨h, h'⟩ | ⟨h, h'⟩ <;> rw [h]
    exact h'
  · rw [← b]
    rcases hpick with ⟨h, h'⟩ | ⟨h, h'⟩ <;> rw [h]
    exact h'.le
  · intro g hg
    unfold searchIndex
    rw [bracketLoop_congr 0 n hn hg] at *
    simp only
    rw [hg _ (by omega) (by omega), hg _ (by omega) (by omega)]

theorem bracketLoop_symmetric (g : ℝ → ℝ) (hg : ∀ x y, 0 ≤ x → x < y → g x < g y) (c : ℝ) (f : ℤ → ℝ)
    (hf : ∀ i : ℤ, f i = g |(i : ℝ) - c|) (low high : ℤ) (hlt : low < high) :
    (∀ j, low ≤ j → j ≤ high → ∃ k, (k = (bracketLoop f low high).1 ∨ k = (bracketLoop f low high).2) ∧ f k ≤ f j) := by
  have mono : ∀ i j : ℤ, |(i : ℝ) - c| ≤ |(j : ℝ) - c| → f i ≤ f j := by
    intro i j h
    rw [hf, hf]
    rcases h.lt_or_eq with h | h
    · exact (hg _ _ (abs_nonneg _) h).le
    · rw [h]
  have refl' : ∀ i j : ℤ, f i < f j → |(i : ℝ) - c| < |(j : ℝ) - c| := by
    intro i j h
    by_contra hc
    exact absurd (mono j i (not_lt.1 hc)) (not_le.2 h)
  fun_induction bracketLoop f low high with
  | case1 low high h1 h2 ih =>
    intro j hj1 hj2
    by_cases hj : j ≤ low + (high - low + 1) / 2
    · exact ih (by omega) j hj1 hj
    · -- the centre is left of the midpoint, so `ceil(midpoint)` is at least as good as `j`
      obtain ⟨k, hk, hkf⟩ := ih (by omega) (low + (high - low + 1) / 2) (by omega) (le_refl _)
      refine ⟨k, hk, hkf.trans (mono _ _ ?_)⟩
      have hc := refl' _ _ h2
      have hc2 : 2 * c < low + high := by
        have hl : (low : ℝ) < high := by exact_mod_cast hlt
        rcases abs_cases ((low : ℝ) - c) with ⟨e1, e1'⟩ | ⟨e1, e1'⟩ <;>
          rcases abs_cases ((high : ℝ) - c) with ⟨e2, e2'⟩ | ⟨e2, e2'⟩ <;> rw [e1, e2] at hc <;> linarith
      have hm : ((low + (high - low + 1) / 2 : ℤ) : ℝ) < j := by exact_mod_cast not_le.1 hj
      have hm2 : (low + high : ℝ) ≤ 2 * ((low + (high - low + 1) / 2 : ℤ) : ℝ) := by
        have : low + high ≤ 2 * (low + (high - low + 1) / 2) := by omega
        exact_mod_cast this
      rw [abs_of_nonneg (by linarith), abs_of_nonneg (by linarith)]
      linarith
  | case2 low high h1 h2 ih =>
    intro j hj1 hj2
    by_cases hj : low + (high - low) / 2 ≤ j
    · exact ih (by omega) j hj hj2
    · obtain ⟨k, hk, hkf⟩ := ih (by omega) (low + (high - low) / 2) (le_refl _) (by omega)
      refine ⟨k, hk, hkf.trans (mono _ _ ?_)⟩
      have hc : |(high : ℝ) - c| ≤ |(low : ℝ) - c| := by
        by_contra hcon
        have := hg _ _ (abs_nonneg _) (not_le.1 hcon)
        rw [← hf, ← hf] at this
        exact h2 this
      have hl : (low : ℝ) < high := by exact_mod_cast hlt
      have hc2 : (low + high : ℝ) ≤ 2 * c := by
        rcases abs_cases ((low : ℝ) - c) with ⟨e1, e1'⟩ | ⟨e1, e1'⟩ <;>
          rcases abs_cases ((high : ℝ) - c) with ⟨e2, e2'⟩ | ⟨e2, e2'⟩ <;> rw [e1, e2] at hc <;> linarith
      have hm : (j : ℝ) < ((low + (high - low) / 2 : ℤ) : ℝ) := by exact_mod_cast not_le.1 hj
      have hm2 : 2 * ((low + (high - low) / 2 : ℤ) : ℝ) ≤ (low + high : ℝ) := by
        have : 2 * (low + (high - low) / 2) ≤ low + high := by omega
        exact_mod_cast this
      rw [abs_of_nonpos (by linarith), abs_of_nonpos (by linarith)]
      linarith
  | case3 low high h1 =>
    intro j hj1 hj2
    refine ⟨j, ?_, le_refl _⟩
    simp only
    omega

/-- For an objective symmetric about a centre (anywhere, also between grid points or outside the
window) and strictly increasing away from it, the search returns a global minimiser over the grid. -/
theorem C49_symmetric_minimiser (g : ℝ → ℝ) (hg : ∀ x y, 0 ≤ x → x < y → g x < g y) (c : ℝ) (f : ℤ → ℝ)
    (hf : ∀ i : ℤ, f i = g |(i : ℝ) - c|) (n : ℤ) (hn : 0 < n) (j : ℤ) (hj : 0 ≤ j) (hjn : j ≤ n) :
    f (searchIndex f n) ≤ f j := by
  obtain ⟨k, hk, hkj⟩ := bracketLoop_symmetric g hg c f hf 0 n hn j hj hjn
  refine le_trans ?_ hkj
  unfold searchIndex
  by_cases h : f (bracketLoop f 0 n).1 < f (bracketLoop f 0 n).2
  · simp only [if_pos h]
    rcases hk with rfl | rfl
    · exact le_refl _
    · exact h.le
  · simp only [if_neg h]
    rcases hk with rfl | rfl
    · exact not_lt.1 h
    · exact le_refl _

/-- An instance: centre 6.3 in a window of 10 steps. -/
example : ∀ j : ℤ, 0 ≤ j → j ≤ 10 →
    (fun i : ℤ => |(i : ℝ) - 6.3| ^ 2) (searchIndex (fun i : ℤ => |(i : ℝ) - 6.3| ^ 2) 10) ≤
      (fun i : ℤ => |(i : ℝ) - 6.3| ^ 2) j :=
  fun j h1 h2 => C49_symmetric_minimiser (fun x => x ^ 2) (fun x y hx hxy => by nlinarith) 6.3 _ (fun _ => rfl)
    10 (by norm_num) j h1 h2

/-- The convexity that the code's comment asks for is not enough: for this convex, strictly V-shaped
objective on 11 grid points (minimum 0 at index 8) the search returns index 5. -/
theorem C49_convexity_not_enough :
    let f : ℤ → ℝ := fun i => max ((8 - i : ℝ)) (100 * (i - 8 : ℝ))
    (∀ i : ℤ, 2 * f i ≤ f (i - 1) + f (i + 1)) ∧ (∀ i : ℤ, i < 8 → f (i + 1) < f i) ∧
    (∀ i : ℤ, 8 ≤ i → f i < f (i + 1)) ∧ searchIndex f 10 = 5 ∧ f 8 < f (searchIndex f 10) := by
  intro f
  have hs : searchIndex f 10 = 5 := by
    have s1 : bracketLoop f 0 10 = bracketLoop f 0 5 := by
      conv_lhs => rw [bracketLoop]
      rw [dif_pos (by norm_num), if_pos (by norm_num [f])]
      norm_num
    have s2 : bracketLoop f 0 5 = bracketLoop f 2 5 := by
      conv_lhs => rw [bracketLoop]
      rw [dif_pos (by norm_num), if_neg (by norm_num [f])]
      norm_num
    have s3 : bracketLoop f 2 5 = bracketLoop f 3 5 := by
      conv_lhs => rw [bracketLoop]
      rw [dif_pos (by norm_num), if_neg (by norm_num [f])]
      norm_num
    have s4 : bracketLoop f 3 5 = bracketLoop f 4 5 := by
      conv_lhs => rw [bracketLoop]
      rw [dif_pos (by norm_num), if_neg (by norm_num [f])]
      norm_num
    have s5 : bracketLoop f 4 5 = (4, 5) := by
      rw [bracketLoop, dif_neg (by norm_num)]
    unfold searchIndex
    rw [s1, s2, s3, s4, s5]
    norm_num [f]
  refine ⟨?_, ?_, ?_, hs, ?_⟩
  · intro i
    simp only [f]
    push_cast
    rcases max_cases ((8 - i : ℝ)) (100 * (i - 8 : ℝ)) with ⟨h, _⟩ | ⟨h, _⟩ <;> rw [h]
    · have h1 := le_max_left (8 - ((i : ℝ) - 1)) (100 * ((i : ℝ) - 1 - 8))
      have h2 := le_max_left (8 - ((i : ℝ) + 1)) (100 * ((i : ℝ) + 1 - 8))
      linarith
    · have h1 := le_max_right (8 - ((i : ℝ) - 1)) (100 * ((i : ℝ) - 1 - 8))
      have h2 := le_max_right (8 - ((i : ℝ) + 1)) (100 * ((i : ℝ) + 1 - 8))
      linarith
  · intro i hi
    have hi' : (i : ℝ) + 1 ≤ 8 := by exact_mod_cast hi
    simp only [f]; push_cast
    rw [max_eq_left (by linarith), max_eq_left (by linarith)]; linarith
  · intro i hi
    have hi' : (8 : ℝ) ≤ i := by exact_mod_cast hi
    simp only [f]; push_cast
    rw [max_eq_right (by linarith), max_eq_right (by linarith)]; linarith
  · rw [hs]; norm_num [f]

/-- The instant returned lies in the window, a whole number of steps from its start; with a positive
step the search fails exactly for reversed windows (`ValueError`) and windows shorter than a step
(`AssertionError`). -/
theorem C49_window (el : ℤ → ℝ) (tr : ℝ → ℝ) (tmin tmax delta : ℤ) (hd : 0 < delta) :
    (tmax < tmin → findSolar el tr tmin tmax delta = .error .value) ∧
    (tmin ≤ tmax → tmax - tmin < delta → findSolar el tr tmin tmax delta = .error .assertion) ∧
    (delta ≤ tmax - tmin → ∃ t, findSolar el tr tmin tmax delta = .ok t ∧ tmin ≤ t ∧ t ≤ tmax ∧
      delta ∣ t - tmin) := by
  refine ⟨fun h => by simp [findSolar, h], fun h h' => ?_, fun h => ?_⟩
  · have : Int.tdiv (tmax - tmin) delta = 0 := Int.tdiv_eq_zero_of_lt (by omega) h'
    simp [findSolar, not_lt.2 h, hd.ne', this]
  · have hq : Int.tdiv (tmax - tmin) delta = (tmax - tmin) / delta :=
      Int.tdiv_eq_ediv_of_nonneg (by omega)
    have hpos : 0 < (tmax - tmin) / delta := (Int.le_ediv_iff_mul_le hd).2 (by omega)
    obtain ⟨a, b, -, -⟩ := C49_search (fun i => tr (el (tmin + delta * i))) _ hpos
    refine ⟨tmin + delta * searchIndex (fun i => tr (el (tmin + delta * i))) ((tmax - tmin) / delta),
      by simp only [findSolar, not_lt.2 (show tmin ≤ tmax by omega), hd.ne', hq, if_false, hpos,
        not_true_eq_false], ?_, ?_, ?_⟩
    · have := mul_nonneg hd.le a; omega
    · have h1 := mul_le_mul_of_nonneg_left b hd.le
      have h2 := Int.mul_ediv_self_le (x := tmax - tmin) (k := delta) hd.ne'
      omega
    · exact ⟨_, add_sub_cancel_left _ _⟩

theorem findSolar_range {el : ℤ → ℝ} {tr : ℝ → ℝ} {tmin tmax delta t : ℤ} (hd : 0 < delta)
    (h : findSolar el tr tmin tmax delta = .ok t) : tmin ≤ t ∧ t ≤ tmax := by
  obtain ⟨a, b, c⟩ := C49_window el tr tmin tmax delta hd
  by_cases h1 : tmax < tmin
  · rw [a h1] at h; cases h
  by_cases h2 : tmax - tmin < delta
  · rw [b (by omega) h2] at h; cases h
  obtain ⟨t', ht', r1, r2, -⟩ := c (by omega)
  rw [ht'] at h; cases h
  exact ⟨r1, r2⟩

/-! ## C50 — next sunrise and sunset -/

theorem halfDay_day : usPerDay = 2 * halfDay := by norm_num [halfDay, usPerDay, usPerSec]

theorem nextNoon_range {el : ℤ → ℝ} {t delta noon : ℤ} (hd : 0 < delta) (h : nextNoon el t delta = .ok noon) :
    (isAfternoon el t = true → t + halfDay ≤ noon ∧ noon ≤ t + 2 * halfDay) ∧
    (isAfternoon el t = false → t ≤ noon ∧ noon ≤ t + halfDay) := by
  unfold nextNoon at h
  cases hb : isAfternoon el t <;> simp only [hb, if_true, Bool.false_eq_true, if_false] at h <;>
    have := findSolar_range hd h <;> simp [this]

theorem nextMidnight_range {el : ℤ → ℝ} {t delta m : ℤ} (hd : 0 < delta) (h : nextMidnight el t delta = .ok m) :
    (isAfternoon el t = true → t ≤ m ∧ m ≤ t + halfDay) ∧
    (isAfternoon el t = false → t + halfDay ≤ m ∧ m ≤ t + 2 * halfDay) := by
  unfold nextMidnight at h
  cases hb : isAfternoon el t <;> simp only [hb, if_true, Bool.false_eq_true, if_false] at h <;>
    have := findSolar_range hd h <;> simp [this]

/-- What a successful `get_next_sunrise_sunset` did. -/
theorem nextSunriseSunset_ok {el : ℤ → ℝ} {lat : ℝ} {t delta : ℤ} {r : ℤ × ℤ}
    (h : nextSunriseSunset el lat t delta = .ok r) :
    |lat| < 60 ∧ ∃ noon midnight sunrise sunset,
      nextNoon el t delta = .ok noon ∧ nextMidnight el t delta = .ok midnight ∧
      (isAfternoon el t = true → findSunLevel el midnight noon delta = .ok sunrise ∧
        findSunLevel el (noon - usPerDay) midnight delta = .ok sunset) ∧
      (isAfternoon el t = false → findSunLevel el (midnight - usPerDay) noon delta = .ok sunrise ∧
        findSunLevel el noon midnight delta = .ok sunset) ∧
      r = (if sunrise < t then sunrise + usPerDay else sunrise, if sunset < t then sunset + usPerDay else sunset) := by
  unfold nextSunriseSunset at h
  simp only [bind, Except.bind, pure, Except.pure, throw, throwThe, MonadExceptOf.throw] at h
  by_cases hl : |lat| < 60
  · simp only [hl, not_true_eq_false, if_false] at h
    refine ⟨hl, ?_⟩
    cases hn : nextNoon el t delta with
    | error e => simp [hn] at h
    | ok noon =>
      cases hm : nextMidnight el t delta with
      | error e => simp [hn, hm] at h
      | ok midnight =>
        simp only [hn, hm] at h
        cases hb : isAfternoon el t
        · simp only [hb, Bool.false_eq_true, if_false] at h
          cases h1 : findSunLevel el (midnight - usPerDay) noon delta with
          | error e => simp [h1] at h
          | ok sr =>
            cases h2 : findSunLevel el noon midnight delta with
            | error e => simp [h1, h2] at h
            | ok ss =>
              simp only [h1, h2, Except.ok.injEq] at h
              exact ⟨noon, midnight, sr, ss, rfl, rfl, by simp, fun _ => ⟨h1, h2⟩, h.symm⟩
        · simp only [hb, if_true] at h
          cases h1 : findSunLevel el midnight noon delta with
          | error e => simp [h1] at h
          | ok sr =>
            cases h2 : findSunLevel el (noon - usPerDay) midnight delta with
            | error e => simp [h1, h2] at h
            | ok ss =>
              simp only [h1, h2, Except.ok.injEq] at h
              exact ⟨noon, midnight, sr, ss, rfl, rfl, fun _ => ⟨h1, h2⟩, by simp, h.symm⟩
  · simp [hl] at h

/-- For every ephemeris, query time and positive search step: both returned events lie between now and
24 hours from now. -/
theorem C50_within_a_day (el : ℤ → ℝ) (lat : ℝ) (t delta sunrise sunset : ℤ) (hd : 0 < delta)
    (h : nextSunriseSunset el lat t delta = .ok (sunrise, sunset)) :
    t ≤ sunrise ∧ sunrise ≤ t + 24 * 3600 * 1000000 ∧ t ≤ sunset ∧ sunset ≤ t + 24 * 3600 * 1000000 := by
  obtain ⟨-, noon, midnight, sr, ss, hn, hm, ha, hb, hr⟩ := nextSunriseSunset_ok h
  have n1 := nextNoon_range hd hn
  have m1 := nextMidnight_range hd hm
  have hh : halfDay = 43200000000 := by norm_num [halfDay, usPerSec]
  have hu : usPerDay = 86400000000 := by norm_num [usPerDay, usPerSec]
  rw [hh] at n1 m1
  simp only [Prod.mk.injEq] at hr
  obtain ⟨r1, r2⟩ := hr
  rw [hu] at r1 r2 ha hb
  cases hc : isAfternoon el t
  · obtain ⟨a1, a2⟩ := hb hc
    have b1 := findSolar_range hd a1
    have b2 := findSolar_range hd a2
    have n2 := n1.2 hc
    have m2 := m1.2 hc
    split_ifs at r1 r2 <;> omega
  · obtain ⟨a1, a2⟩ := ha hc
    have b1 := findSolar_range hd a1
    have b2 := findSolar_range hd a2
    have n2 := n1.1 hc
    have m2 := m1.1 hc
    split_ifs at r1 r2 <;> omega

/-- Hence the assertions of the observation builder about these events never fail. -/
theorem C50_assertions_hold (el : ℤ → ℝ) (lat : ℝ) (t delta sunrise sunset : ℤ) (hd : 0 < delta)
    (h : nextSunriseSunset el lat t delta = .ok (sunrise, sunset)) :
    sunriseTime t sunrise sunset ≠ .error .assertion := by
  obtain ⟨a, b, c, d⟩ := C50_within_a_day el lat t delta sunrise sunset hd h
  have hu : usPerDay = 86400000000 := by norm_num [usPerDay, usPerSec]
  unfold sunriseTime
  rw [if_neg (by rw [hu]; push Not; omega), if_neg (by rw [hu]; push Not; omega)]
  have key : ∀ x y, pyDiv x y ≠ .error .assertion := by
    intro x y; unfold pyDiv; split_ifs <;> simp
  split_ifs
  · exact key _ _
  · intro hc
    cases hq : pyDiv (Real.pi * ((t - (sunset - usPerDay) : ℤ) : ℝ)) ((sunrise - (sunset - usPerDay) : ℤ) : ℝ) with
    | error e => rw [hq] at hc; simp only [Except.map, Except.error.injEq] at hc; exact key _ _ (hc ▸ hq)
    | ok v => rw [hq] at hc; simp [Except.map] at hc

/-- The search for the events fails only at high latitudes (asserted) or when the noon and the
midnight found are closer together (round the clock) than the search step; with steps dividing 12
hours or not, as long as a step is at most 12 hours. -/
theorem C50_failures (el : ℤ → ℝ) (lat : ℝ) (t delta : ℤ) (hd : 0 < delta) (hd2 : delta ≤ 12 * 3600 * 1000000)
    (hlat : |lat| < 60) :
    ∃ noon midnight, nextNoon el t delta = .ok noon ∧ nextMidnight el t delta = .ok midnight ∧
      ((∃ r, nextSunriseSunset el lat t delta = .ok r) ∨
        (nextSunriseSunset el lat t delta = .error .assertion ∧
          (|noon - midnight| < delta ∨ 24 * 3600 * 1000000 - |noon - midnight| < delta))) := by
  have hh : halfDay = 43200000000 := by norm_num [halfDay, usPerSec]
  have hu : usPerDay = 86400000000 := by norm_num [usPerDay, usPerSec]
  have hn : ∃ noon, nextNoon el t delta = .ok noon := by
    unfold nextNoon
    split_ifs
    · obtain ⟨x, hx, -⟩ := (C49_window el (fun x => -x) (t + halfDay) (t + 2 * halfDay) delta hd).2.2 (by omega)
      exact ⟨x, hx⟩
    · obtain ⟨x, hx, -⟩ := (C49_window el (fun x => -x) t (t + halfDay) delta hd).2.2 (by omega)
      exact ⟨x, hx⟩
  have hm : ∃ m, nextMidnight el t delta = .ok m := by
    unfold nextMidnight
    split_ifs
    · obtain ⟨x, hx, -⟩ := (C49_window el (fun x => x) t (t + halfDay) delta hd).2.2 (by omega)
      exact ⟨x, hx⟩
    · obtain ⟨x, hx, -⟩ := (C49_window el (fun x => x) (t + halfDay) (t + 2 * halfDay) delta hd).2.2 (by omega)
      exact ⟨x, hx⟩
  obtain ⟨noon, hn⟩ := hn
  obtain ⟨midnight, hm⟩ := hm
  refine ⟨noon, midnight, hn, hm, ?_⟩
  have n1 := nextNoon_range hd hn
  have m1 := nextMidnight_range hd hm
  have find : ∀ a b : ℤ, a ≤ b → (delta ≤ b - a ∧ ∃ x, findSunLevel el a b delta = .ok x) ∨
      (b - a < delta ∧ findSunLevel el a b delta = .error .assertion) := by
    intro a b hab
    by_cases h : delta ≤ b - a
    · obtain ⟨x, hx, -⟩ := (C49_window el (fun x => |x - minSolarEl|) a b delta hd).2.2 h
      exact Or.inl ⟨h, x, hx⟩
    · exact Or.inr ⟨by omega, (C49_window el (fun x => |x - minSolarEl|) a b delta hd).2.1 hab (by omega)⟩
  unfold nextSunriseSunset
  simp only [bind, Except.bind, pure, Except.pure, throw, throwThe, MonadExceptOf.throw, hlat, not_true_eq_false,
    if_false, hn, hm]
  cases hb : isAfternoon el t
  · have n2 := n1.2 hb
    have m2 := m1.2 hb
    simp only [Bool.false_eq_true, if_false]
    rcases find (midnight - usPerDay) noon (by omega) with ⟨_, x, hx⟩ | ⟨hlt, hx⟩
    · rcases find noon midnight (by omega) with ⟨_, y, hy⟩ | ⟨hlt, hy⟩
      · left; simp [hx, hy]
      · right
        refine ⟨by simp [hx, hy], Or.inl ?_⟩
        rw [abs_lt]; omega
    · right
      refine ⟨by simp [hx], Or.inr ?_⟩
      rw [abs_of_nonpos (by omega)]; omega
  · have n2 := n1.1 hb
    have m2 := m1.1 hb
    simp only [if_true]
    rcases find midnight noon (by omega) with ⟨_, x, hx⟩ | ⟨hlt, hx⟩
    · rcases find (noon - usPerDay) midnight (by omega) with ⟨_, y, hy⟩ | ⟨hlt, hy⟩
      · left; simp [hx, hy]
      · right
        refine ⟨by simp [hx, hy], Or.inr ?_⟩
        rw [abs_of_nonneg (by omega)]; omega
    · right
      refine ⟨by simp [hx], Or.inl ?_⟩
      rw [abs_lt]; omega

/-! ## C84 — steps to sunrise -/

/-- The step count: 0 while the sun is up; otherwise the least number of steps that reaches the next
sunrise, which is never negative and covers at most a day (rounded up). -/
theorem C84_steps_to_sunrise (el : ℤ → ℝ) (lat : ℝ) (t delta n : ℤ) (hd : 0 < delta)
    (h : stepsToSunrise el lat t delta = .ok n) :
    0 ≤ n ∧ (-4.242 ≤ el t → n = 0) ∧
    (el t < -4.242 → ∃ sunrise sunset, nextSunriseSunset el lat t delta = .ok (sunrise, sunset) ∧
      sunrise ≤ t + n * delta ∧ (∀ k, sunrise ≤ t + k * delta → n ≤ k) ∧
      n * delta < 24 * 3600 * 1000000 + delta) := by
  unfold stepsToSunrise at h
  have hme : minSolarEl = -4.242 := rfl
  rw [hme] at h
  by_cases hup : el t ≥ -4.242
  · rw [if_pos hup] at h
    cases h
    exact ⟨le_refl _, fun _ => rfl, fun h => absurd hup (not_le.2 h)⟩
  rw [if_neg hup] at h
  split at h
  · cases h
  · rename_i sunrise sunset heq
    simp only [Except.ok.injEq] at h
    obtain ⟨a, b, -, -⟩ := C50_within_a_day el lat t delta sunrise sunset hd heq
    have hdq : (0 : ℚ) < delta := by exact_mod_cast hd
    have hle : ∀ k : ℤ, n ≤ k ↔ sunrise ≤ t + k * delta := by
      intro k
      rw [← h, Int.ceil_le, div_le_iff₀ hdq]
      constructor
      · intro h
        have : (sunrise - t : ℤ) ≤ k * delta := by exact_mod_cast h
        omega
      · intro h
        have : (sunrise - t : ℤ) ≤ k * delta := by omega
        exact_mod_cast this
    refine ⟨?_, fun h => absurd h (by exact hup), fun _ => ⟨sunrise, sunset, heq, (hle n).1 (le_refl _),
      fun k hk => (hle k).2 hk, ?_⟩⟩
    · by_contra hneg
      have h1 := (hle (-1)).1 (by omega)
      omega
    · by_contra hbig
      have h1 := (hle (n - 1)).2 (by nlinarith)
      omega

/-! ## C32 — normalised solar-cycle time -/

/-- Given events within the next day, the feature never trips its assertions. It fails (division by
zero) only if one event is right now and the other exactly a day away. By day (sunset comes first) it
lies in [0,π], by night in [π,2π]. -/
theorem C32_range (t sunrise sunset : ℤ) (h1 : t ≤ sunrise) (h2 : sunrise ≤ t + 24 * 3600 * 1000000)
    (h3 : t ≤ sunset) (h4 : sunset ≤ t + 24 * 3600 * 1000000) :
    (∃ v, sunriseTime t sunrise sunset = .ok v ∧
      (sunset < sunrise → 0 ≤ v ∧ v ≤ Real.pi) ∧ (sunrise ≤ sunset → Real.pi ≤ v ∧ v ≤ 2 * Real.pi)) ∨
    (sunriseTime t sunrise sunset = .error .zeroDivision ∧ |sunset - sunrise| = 24 * 3600 * 1000000) := by
  have hu : usPerDay = 86400000000 := by norm_num [usPerDay, usPerSec]
  have hpi := Real.pi_pos
  have frac : ∀ a b : ℤ, 0 ≤ a → a ≤ b → 0 < b → 0 ≤ Real.pi * (a : ℝ) / (b : ℝ) ∧
      Real.pi * (a : ℝ) / (b : ℝ) ≤ Real.pi := by
    intro a b ha hab hb
    have hb' : (0 : ℝ) < b := by exact_mod_cast hb
    have ha' : (0 : ℝ) ≤ a := by exact_mod_cast ha
    have hab' : (a : ℝ) ≤ b := by exact_mod_cast hab
    refine ⟨by positivity, ?_⟩
    rw [div_le_iff₀ hb']; nlinarith
  unfold sunriseTime
  rw [if_neg (by rw [hu]; push Not; omega), if_neg (by rw [hu]; push Not; omega)]
  by_cases hlt : sunset < sunrise
  · rw [if_pos hlt]
    by_cases hz : sunset - (sunrise - usPerDay) = 0
    · right
      refine ⟨by simp [pyDiv, hz], ?_⟩
      rw [abs_of_neg (by omega)]; omega
    · left
      have hz' : ((sunset - (sunrise - usPerDay) : ℤ) : ℝ) ≠ 0 := by exact_mod_cast hz
      refine ⟨_, by rw [pyDiv, if_neg hz'], fun _ => frac _ _ (by omega) (by omega) (by omega), fun h => by omega⟩
  · rw [if_neg hlt]
    by_cases hz : sunrise - (sunset - usPerDay) = 0
    · right
      refine ⟨by simp [pyDiv, hz, Except.map], ?_⟩
      rw [abs_of_nonneg (by omega)]; omega
    · left
      have hz' : ((sunrise - (sunset - usPerDay) : ℤ) : ℝ) ≠ 0 := by exact_mod_cast hz
      have hf := frac (t - (sunset - usPerDay)) (sunrise - (sunset - usPerDay)) (by omega) (by omega) (by omega)
      refine ⟨Real.pi + Real.pi * ((t - (sunset - usPerDay) : ℤ) : ℝ) / ((sunrise - (sunset - usPerDay) : ℤ) : ℝ),
        by rw [pyDiv, if_neg hz']; rfl, fun h => absurd h hlt, fun _ => ⟨by linarith [hf.1], by linarith [hf.2]⟩⟩

/-- Between two events the feature increases strictly with time; it is π at sunset (the end of a day)
and 2π at sunrise (the end of a night). -/
theorem C32_increases {t t' sunrise sunset : ℤ} {v v' : ℝ} (hlt : t < t')
    (h : sunriseTime t sunrise sunset = .ok v) (h' : sunriseTime t' sunrise sunset = .ok v') :
    v < v' ∧ (sunset < sunrise → t' = sunset → v' = Real.pi) ∧
      (sunrise < sunset → t' = sunrise → v' = 2 * Real.pi) := by
  have hu : usPerDay = 86400000000 := by norm_num [usPerDay, usPerSec]
  have hpi := Real.pi_pos
  unfold sunriseTime at h h'
  split_ifs at h h' with c1 c2 c3 c4 c5
  · -- day
    unfold pyDiv at h h'
    split_ifs at h h' with z
    cases h; cases h'
    have hpos : (0 : ℝ) < ((sunset - (sunrise - usPerDay) : ℤ) : ℝ) := by
      have : (0 : ℤ) < sunset - (sunrise - usPerDay) := by
        rcases lt_or_eq_of_le (show 0 ≤ sunset - (sunrise - usPerDay) by omega) with h | h
        · exact h
        · exact absurd (by exact_mod_cast h.symm) z
      exact_mod_cast this
    refine ⟨?_, fun _ he => ?_, fun h => by omega⟩
    · rw [div_lt_div_iff_of_pos_right hpos]
      apply mul_lt_mul_of_pos_left _ hpi
      exact_mod_cast (by omega : t - (sunrise - usPerDay) < t' - (sunrise - usPerDay))
    · subst he; field_simp
  · unfold pyDiv at h h'
    split_ifs at h h' with z
    · cases h
    simp only [Except.map, Except.ok.injEq] at h h'
    rw [← h, ← h']
    have hpos : (0 : ℝ) < ((sunrise - (sunset - usPerDay) : ℤ) : ℝ) := by
      have : (0 : ℤ) < sunrise - (sunset - usPerDay) := by
        rcases lt_or_eq_of_le (show 0 ≤ sunrise - (sunset - usPerDay) by omega) with h | h
        · exact h
        · exact absurd (by exact_mod_cast h.symm) z
      exact_mod_cast this
    refine ⟨?_, fun h => by omega, fun _ he => ?_⟩
    · have : Real.pi * ((t - (sunset - usPerDay) : ℤ) : ℝ) / ((sunrise - (sunset - usPerDay) : ℤ) : ℝ) <
          Real.pi * ((t' - (sunset - usPerDay) : ℤ) : ℝ) / ((sunrise - (sunset - usPerDay) : ℤ) : ℝ) := by
        rw [div_lt_div_iff_of_pos_right hpos]
        apply mul_lt_mul_of_pos_left _ hpi
        exact_mod_cast (by omega : t - (sunset - usPerDay) < t' - (sunset - usPerDay))
      linarith
    · subst he; field_simp; ring

/-- Instances: noon between a sunrise 6 h ago and a sunset in 6 h; midnight. -/
example : sunriseTime 0 (18 * 3600 * 1000000) (6 * 3600 * 1000000) = .ok (Real.pi * 21600000000 / 43200000000) := by
  norm_num [sunriseTime, usPerDay, usPerSec, pyDiv]
example : ∃ v, sunriseTime 0 (6 * 3600 * 1000000) (18 * 3600 * 1000000) = .ok v ∧ Real.pi ≤ v := by
  refine ⟨Real.pi + Real.pi * 21600000000 / 43200000000, ?_, ?_⟩
  · norm_num [sunriseTime, usPerDay, usPerSec, pyDiv, Except.map]
  · have := Real.pi_pos; norm_num; positivity

/-- An ephemeris for which the search succeeds (a triangle wave through the day), so the theorems above
are about something: seen from its noon. -/
noncomputable def demoElevation (t : ℤ) : ℝ := 80 - |(((t + halfDay) % usPerDay - halfDay : ℤ) : ℝ)| / 270000000

theorem searchIndex_antitone (f : ℤ → ℝ) (n : ℤ) (hn : 0 < n)
    (h : ∀ i j, 0 ≤ i → i ≤ j → j ≤ n → f j ≤ f i) : searchIndex f n = n := by
  have key : ∀ low high, 0 ≤ low → low < high → high ≤ n → (bracketLoop f low high).2 = high := by
    intro low high
    fun_induction bracketLoop f low high with
    | case1 low high h1 h2 ih => intro a b c; exact absurd h2 (not_lt.2 (h _ _ a (by omega) c))
    | case2 low high h1 h2 ih => intro a b c; exact ih (by omega) (by omega) c
    | case3 low high h1 => intro a b c; rfl
  have k := key 0 n (le_refl _) hn (le_refl _)
  obtain ⟨a, b, c⟩ := bracketLoop_spec f 0 n hn
  unfold searchIndex
  simp only
  rw [if_neg (not_lt.2 (h _ _ a (by omega) c)), k]

theorem demoElevation_day (t : ℤ) (h0 : 0 ≤ t) (h1 : t ≤ 43200000000) :
    demoElevation t = 80 - (t : ℝ) / 270000000 := by
  have hh : halfDay = 43200000000 := by norm_num [halfDay, usPerSec]
  have hu : usPerDay = 86400000000 := by norm_num [usPerDay, usPerSec]
  unfold demoElevation
  rw [hh, hu]
  rcases h1.lt_or_eq with h | h
  · rw [Int.emod_eq_of_lt (by omega) (by omega), add_sub_cancel_right, abs_of_nonneg (by exact_mod_cast h0)]
  · subst h; norm_num

theorem demoElevation_night (t : ℤ) (h0 : 43200000000 ≤ t) (h1 : t ≤ 86400000000) :
    demoElevation t = 80 - (86400000000 - (t : ℝ)) / 270000000 := by
  have hh : halfDay = 43200000000 := by norm_num [halfDay, usPerSec]
  have hu : usPerDay = 86400000000 := by norm_num [usPerDay, usPerSec]
  unfold demoElevation
  rw [hh, hu]
  have e : (t + 43200000000) % 86400000000 - 43200000000 = t - 86400000000 := by omega
  rw [e, abs_of_nonpos (by exact_mod_cast (by omega : t - 86400000000 ≤ 0))]
  push_cast; ring

/-- Seen from its noon, the search finds this sun's next sunrise and sunset. -/
theorem demo_search_ok : ∃ r, nextSunriseSunset demoElevation 10 0 (180 * usPerSec) = .ok r := by
  obtain ⟨noon, midnight, hn, hm, h⟩ := C50_failures demoElevation 10 0 (180 * usPerSec) (by norm_num [usPerSec])
    (by norm_num [usPerSec]) (by norm_num)
  rcases h with ⟨r, hr⟩ | ⟨_, hr⟩
  · exact ⟨r, hr⟩
  exfalso
  have hh : halfDay = 43200000000 := by norm_num [halfDay, usPerSec]
  have hs : usPerSec = 1000000 := rfl
  have ha : isAfternoon demoElevation 0 = true := by
    unfold isAfternoon
    rw [hs, demoElevation_day 0 (by norm_num) (by norm_num), demoElevation_day _ (by norm_num) (by norm_num)]
    norm_num
  have hdiv : Int.tdiv 43200000000 180000000 = 240 := by decide
  have e1 : noon = 86400000000 := by
    unfold nextNoon at hn
    rw [ha, if_pos rfl, hh, hs] at hn
    unfold findSolar at hn
    norm_num [hdiv] at hn
    rw [searchIndex_antitone _ _ (by norm_num)] at hn
    · omega
    · intro i j h1 h2 h3
      rw [demoElevation_night _ (by omega) (by omega), demoElevation_night _ (by omega) (by omega)]
      have : (i : ℝ) ≤ j := by exact_mod_cast h2
      push_cast
      linarith
  have e2 : midnight = 43200000000 := by
    unfold nextMidnight at hm
    rw [ha, if_pos rfl, hh, hs] at hm
    unfold findSolar at hm
    norm_num [hdiv] at hm
    rw [searchIndex_antitone _ _ (by norm_num)] at hm
    · omega
    · intro i j h1 h2 h3
      rw [demoElevation_day _ (by omega) (by omega), demoElevation_day _ (by omega) (by omega)]
      have : (i : ℝ) ≤ j := by exact_mod_cast h2
      push_cast
      linarith
  rw [e1, e2, hs] at hr
  norm_num at hr

end BLE
