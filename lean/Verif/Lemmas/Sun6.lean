import Verif.Lemmas.Sun5

/-!
# Sunrise and sunset are never a full day apart

If both events fell on the same instant of consecutive days, the search for the sun level would have stopped at noon
(or midnight) although the sun passes the level in between. The halving search compares with instants two and a half to
five hours from that end, which excludes it.
-/

namespace BLE

/-! ## What the search result says about the instants it compared -/

/-- The end of the bracket chosen by the search. -/
noncomputable def bracketPick (f : ℤ → ℝ) (r : ℤ × ℤ) : ℤ := if f r.1 < f r.2 then r.1 else r.2

theorem pick_range (f : ℤ → ℝ) (low high : ℤ) (h : low < high) :
    low ≤ bracketPick f (bracketLoop f low high) ∧ bracketPick f (bracketLoop f low high) ≤ high := by
  obtain ⟨a, b, c⟩ := bracketLoop_spec f low high h
  unfold bracketPick
  split_ifs <;> omega

/-- If the search ends at the upper end, then the objective there is at most that at some point at any given scale of
distance below. -/
theorem search_last (f : ℤ → ℝ) (B low high : ℤ) (hB : 1 ≤ B) (hD : B ≤ high - low)
    (h : bracketPick f (bracketLoop f low high) = high) :
    ∃ d, B ≤ d ∧ d ≤ 2 * B ∧ d ≤ high - low ∧ f high ≤ f (high - d) := by
  fun_induction bracketLoop f low high with
  | case1 low high h1 h2 ih =>
    exfalso
    have := pick_range f low (low + (high - low + 1) / 2) (by omega)
    omega
  | case2 low high h1 h2 ih =>
    by_cases hs : high - low ≤ 2 * B
    · exact ⟨high - low, by omega, hs, le_rfl, by rw [sub_sub_cancel]; exact not_lt.1 h2⟩
    · obtain ⟨d, a, b, c, e⟩ := ih (by omega) h
      exact ⟨d, a, b, by omega, e⟩
  | case3 low high h1 =>
    refine ⟨high - low, by omega, by omega, le_rfl, ?_⟩
    rw [sub_sub_cancel]
    unfold bracketPick at h
    simp only at h
    split_ifs at h with hc
    · omega
    · exact not_lt.1 hc

/-- The same for the lower end, where the comparison is strict. -/
theorem search_first (f : ℤ → ℝ) (B low high : ℤ) (hB : 1 ≤ B) (hD : B ≤ high - low)
    (h : bracketPick f (bracketLoop f low high) = low) :
    ∃ d, B ≤ d ∧ d ≤ 2 * B ∧ d ≤ high - low ∧ f low < f (low + d) := by
  fun_induction bracketLoop f low high with
  | case1 low high h1 h2 ih =>
    by_cases hs : high - low ≤ 2 * B
    · exact ⟨high - low, by omega, hs, le_rfl, by rw [add_sub_cancel]; exact h2⟩
    · obtain ⟨d, a, b, c, e⟩ := ih (by omega) h
      exact ⟨d, a, b, by omega, e⟩
  | case2 low high h1 h2 ih =>
    exfalso
    have := pick_range f (low + (high - low) / 2) high (by omega)
    omega
  | case3 low high h1 =>
    refine ⟨high - low, by omega, by omega, le_rfl, ?_⟩
    rw [add_sub_cancel]
    unfold bracketPick at h
    simp only at h
    split_ifs at h with hc
    · exact hc
    · omega

theorem findSolar_last {el : ℤ → ℝ} {tr : ℝ → ℝ} {t : ℤ} (B : ℤ) (hB : 1 ≤ B) (hB' : B ≤ 240)
    (h : findSolar el tr t (t + halfDay) searchDelta = .ok (t + halfDay)) :
    ∃ d, B ≤ d ∧ d ≤ 2 * B ∧ d ≤ 240 ∧ tr (el (t + halfDay)) ≤ tr (el (t + halfDay - searchDelta * d)) := by
  have hs : Int.tdiv (t + halfDay - t) searchDelta = 240 := by
    rw [add_sub_cancel_left]; decide
  have hh : halfDay = 43200000000 := by norm_num [halfDay, usPerSec]
  have hsd : searchDelta = 180000000 := by norm_num [searchDelta, usPerSec]
  unfold findSolar at h
  rw [if_neg (by rw [hh]; omega), if_neg (by decide)] at h
  simp only [hs] at h
  rw [if_neg (by norm_num)] at h
  injection h with h
  have hi : searchIndex (fun i => tr (el (t + searchDelta * i))) 240 = 240 := by
    rw [hsd, hh] at h; rw [hsd]; omega
  obtain ⟨d, a, b, c, e⟩ := search_last (fun i => tr (el (t + searchDelta * i))) B 0 240 hB (by omega) hi
  refine ⟨d, a, b, by omega, ?_⟩
  rw [hsd] at e ⊢
  rw [hh]
  rw [show t + 180000000 * 240 = t + 43200000000 by ring,
    show t + 180000000 * (240 - d) = t + 43200000000 - 180000000 * d by ring] at e
  exact e

theorem findSolar_first {el : ℤ → ℝ} {tr : ℝ → ℝ} {t u : ℤ} (B : ℤ) (hB : 1 ≤ B) (hu : t + searchDelta * B ≤ u)
    (h : findSolar el tr t u searchDelta = .ok t) :
    ∃ d, B ≤ d ∧ d ≤ 2 * B ∧ t + searchDelta * d ≤ u ∧ tr (el t) < tr (el (t + searchDelta * d)) := by
  have hsd : searchDelta = 180000000 := by norm_num [searchDelta, usPerSec]
  rw [hsd] at h hu ⊢
  unfold findSolar at h
  rw [if_neg (by omega), if_neg (by decide)] at h
  simp only at h
  have hq : Int.tdiv (u - t) 180000000 = (u - t) / 180000000 := Int.tdiv_eq_ediv_of_nonneg (by omega)
  rw [hq] at h
  split_ifs at h with hn
  · injection h with h
    have hi : searchIndex (fun i => tr (el (t + 180000000 * i))) ((u - t) / 180000000) = 0 := by omega
    obtain ⟨d, a, b, c, e⟩ := search_first (fun i => tr (el (t + 180000000 * i))) B 0 ((u - t) / 180000000) hB (by omega) hi
    refine ⟨d, a, b, by omega, ?_⟩
    simpa using e

/-! ## Order of elevations up to the zenith -/

theorem refr3_top {e : ℝ} (h0 : 84 ≤ e) (h1 : e ≤ 85) : 0 ≤ refr3 e ∧ refr3 e ≤ 6.5 := by
  have hpi := Real.pi_pos
  obtain ⟨r0, r1⟩ := radians_bounds (e := 90 - e) (by linarith)
  have hsin : Real.sin (radians e) = Real.cos (radians (90 - e)) := by
    rw [← Real.sin_pi_div_two_sub]; congr 1; unfold radians; ring
  have hcos : Real.cos (radians e) = Real.sin (radians (90 - e)) := by
    rw [← Real.cos_pi_div_two_sub]; congr 1; unfold radians; ring
  have ge : 0.08 ≤ radians (90 - e) := by norm_num at *; linarith
  have le : radians (90 - e) ≤ 0.105 := by norm_num at *; linarith
  have s0 : 0 < Real.sin (radians (90 - e)) := Real.sin_pos_of_pos_of_lt_pi (by norm_num at *; linarith)
    (by have := Real.pi_gt_three; norm_num at *; linarith)
  have s1 := Real.sin_le (x := radians (90 - e)) (by norm_num at *; linarith)
  have c0 : 0.99 ≤ Real.cos (radians (90 - e)) := by
    have := Real.one_sub_sq_div_two_le_cos (x := radians (90 - e))
    have q : radians (90 - e) ^ 2 ≤ 0.105 ^ 2 := pow_le_pow_left₀ (by norm_num at *; linarith) le 2
    norm_num at *; linarith
  have cp : 0 < Real.cos (radians (90 - e)) := by norm_num at *; linarith
  set u := Real.sin (radians (90 - e)) / Real.cos (radians (90 - e)) with hu
  have hr : refr3 e = 58.1 * u - 0.07 * u ^ 3 + 0.000086 * u ^ 5 := by
    unfold refr3
    rw [Real.tan_eq_sin_div_cos, hsin, hcos, hu]; field_simp
  have u0 : 0 ≤ u := (div_pos s0 cp).le
  have u1 : u ≤ 0.107 := by
    rw [hu, div_le_iff₀ cp]; norm_num at *; linarith
  clear_value u
  rw [hr]
  have u2 : u ^ 2 ≤ 1 := by norm_num at u1; nlinarith
  have u3 : u ^ 3 ≤ u := by
    rw [show u ^ 3 = u * u ^ 2 by ring]; nlinarith
  have u3' : 0 ≤ u ^ 3 := by positivity
  have u5 : u ^ 5 ≤ 1 := by
    rw [show u ^ 5 = u ^ 3 * u ^ 2 by ring]; norm_num at u1; nlinarith
  have u5' : 0 ≤ u ^ 5 := by positivity
  constructor <;> norm_num at * <;> linarith

theorem refraction_top {e : ℝ} (h0 : 84 < e) : 0 ≤ refraction e ∧ refraction e ≤ 6.5 := by
  rcases le_or_gt e 85 with h | h
  · rw [refraction_three (by linarith) h]; exact refr3_top h0.le h
  · have : refraction e = 0 := by unfold refraction; rw [if_pos h]
    rw [this]; norm_num

/-- A higher geometric elevation is a higher apparent elevation, up to the jumps of the refraction formula. -/
theorem apparent_mono_all {e e' : ℝ} (h0 : -90 ≤ e) (h : e ≤ e') : 0.4 * (e' - e) - 0.002 ≤ apparent e' - apparent e := by
  rcases le_or_gt e' 84 with a | a
  · have := apparent_mono h0 h a
    norm_num at *; linarith
  · obtain ⟨b0, b1⟩ := refraction_top a
    rcases le_or_gt e 84 with c | c
    · have m := apparent_mono h0 c le_rfl
      have t := refr3_top (e := 84) le_rfl (by norm_num)
      have e84 : apparent 84 = 84 + refr3 84 / 3600 := by
        unfold apparent; rw [refraction_three (by norm_num) (by norm_num)]
      obtain ⟨t0, t1⟩ := t
      rw [e84] at m
      have : apparent e' = e' + refraction e' / 3600 := rfl
      rw [this]
      norm_num at *; linarith
    · obtain ⟨d0, d1⟩ := refraction_top c
      unfold apparent
      norm_num at *; linarith

theorem elevation_lt_all {a b : ℝ} (h0 : -1 ≤ a) (hd : a + 1e-4 ≤ b) (h1 : b ≤ 1) :
    apparent (degrees (Real.arcsin a)) < apparent (degrees (Real.arcsin b)) := by
  have hab : a ≤ b := by norm_num at *; linarith
  have c := arcsin_expand h0 hab h1
  obtain ⟨d0, -⟩ := degrees_bounds (a := Real.arcsin b - Real.arcsin a) (by linarith)
  rw [← degrees_sub] at d0
  obtain ⟨r0, r1⟩ := degrees_arcsin_range a
  have m := apparent_mono_all (e' := degrees (Real.arcsin b)) r0 (by norm_num at *; linarith)
  norm_num at *; linarith

end BLE
