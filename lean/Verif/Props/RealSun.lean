import Verif.Lemmas.Sun8
import Verif.Props.EpisodeStart

/-!
# C101: the code's own ephemeris never makes the sunrise search or the sunrise feature fail
-/

namespace BLE

/-- The elevation at whole offsets from an instant. -/
theorem realSun_offset (cal : Calendar) (hcal : Spec.Gregorian cal) (l : LatLng) {t : ℤ} (h0 : 0 ≤ t)
    (h1 : t < 3999000000 * 1000000) (s : ℤ) (a : t ≤ s) (b : s ≤ t + 48 * 3600 * 1000000) :
    (realSun cal l s).el = sunEl l ((s / 1000000 : ℤ) : ℝ) ∧ InEra ((s / 1000000 : ℤ) : ℝ) := by
  refine ⟨realSun_el cal hcal l s (by omega) (by omega), ?_, ?_⟩
  · have : (0 : ℤ) ≤ s / 1000000 := by omega
    exact_mod_cast this
  · have : s / 1000000 ≤ (4000000000 : ℤ) := by omega
    exact_mod_cast this

theorem sec_add (s k : ℤ) : (((s + k * 1000000) / 1000000 : ℤ) : ℝ) = ((s / 1000000 : ℤ) : ℝ) + k := by
  rw [Int.add_mul_ediv_right _ _ (by norm_num)]; push_cast; ring

/-- Afternoon: the search cannot put the sunset at `t` and the next noon (with the sunrise) at `t + 24 h`. -/
theorem afternoon_apart (cal : Calendar) (hcal : Spec.Gregorian cal) (l : LatLng) (hl : Midlat l) (t : ℤ) (h0 : 0 ≤ t)
    (h1 : t < 3999000000 * 1000000) (midnight : ℤ)
    (hc : (realSun cal l (t + 1000000)).el < (realSun cal l t).el)
    (hn : findSolar (fun t => (realSun cal l t).el) (fun x => -x) (t + halfDay) (t + halfDay + halfDay) searchDelta =
      .ok (t + halfDay + halfDay))
    (hm : findSolar (fun t => (realSun cal l t).el) (fun x => x) t (t + halfDay) searchDelta = .ok midnight)
    (hss : findSolar (fun t => (realSun cal l t).el) (fun x => |x - minSolarEl|) t midnight searchDelta = .ok t) : False := by
  have el := realSun_offset cal hcal l h0 h1
  have hh : halfDay = 43200000000 := by norm_num [halfDay, usPerSec]
  have hsd : searchDelta = 180000000 := by norm_num [searchDelta, usPerSec]
  have hus : usPerSec = 1000000 := rfl
  obtain ⟨e0, i0⟩ := el t le_rfl (by omega)
  obtain ⟨e1, i1⟩ := el (t + 1 * 1000000) (by omega) (by omega)
  obtain ⟨e4, i4⟩ := el (t + 86400 * 1000000) (by omega) (by omega)
  rw [sec_add] at e1 i1 e4 i4
  rw [one_mul] at e1
  push_cast at e1 i1 i4
  rw [Int.cast_ofNat] at e4
  have hs : Real.sin (sunPhi l.lng ((t / 1000000 : ℤ) : ℝ)) < 0.2 := by
    by_contra hn
    have := mid_rises hl i0 i1 (not_lt.1 hn)
    rw [e0, e1] at hc; linarith
  have hq : ∀ k : ℤ, 0 ≤ k → k ≤ 4 →
      (realSun cal l (t + k * 6 * 3600 * 1000000)).el = sunEl l (((t / 1000000 : ℤ) : ℝ) + 21600 * k) := by
    intro k hk0 hk1
    rw [(el (t + k * 6 * 3600 * 1000000) (by omega) (by omega)).1, sec_add]
    congr 1; push_cast; ring
  obtain ⟨i, hi, j, hj, hhi, hlo⟩ := mid_afternoon_contrast l.lng i0 i4 hs
  obtain ⟨a1, a2, a3⟩ := findSolar_le hn
  obtain ⟨b1, b2, b3⟩ := findSolar_le hm
  have q0 := hq 0 (by norm_num) (by norm_num)
  have q1 := hq 1 (by norm_num) (by norm_num)
  have q2 := hq 2 (by norm_num) (by norm_num)
  have q3 := hq 3 (by norm_num) (by norm_num)
  have q4 := hq 4 (by norm_num) (by norm_num)
  obtain ⟨d, d0, d1, d2, hd⟩ := findSolar_last 10 (by norm_num) (by norm_num) hn
  rw [hus] at a2 b2
  rw [hh] at a1 a2 a3 b3 hd
  rw [hsd] at hd
  rw [show t + 43200000000 + 6 * 3600 * 1000000 = t + 3 * 6 * 3600 * 1000000 by ring,
    show t + 43200000000 + 43200000000 = t + 86400 * 1000000 by ring] at a2
  rw [show t + 43200000000 + 43200000000 = t + 86400 * 1000000 by ring,
    show t + 43200000000 = t + 2 * 6 * 3600 * 1000000 by ring] at a1
  rw [show t + 43200000000 + 43200000000 = t + 86400 * 1000000 by ring] at hd
  rw [show t + 6 * 3600 * 1000000 = t + 1 * 6 * 3600 * 1000000 by ring] at b2
  rw [show t + 43200000000 = t + 2 * 6 * 3600 * 1000000 by ring] at b3
  simp only [neg_le_neg_iff] at a1 a2 hd
  simp only [e4, q2, q3] at a1 a2
  simp only [q1] at b2
  simp only [q2] at b3
  rw [show t = t + 0 * 6 * 3600 * 1000000 by ring] at b1
  simp only [q0] at b1
  push_cast at a1 a2 b1 b2 b3
  have hera : ∀ k : ℕ, k ≤ 4 → InEra (((t / 1000000 : ℤ) : ℝ) + 21600 * (k : ℝ)) := by
    intro k hk
    have hk' : (k : ℝ) ≤ 4 := by exact_mod_cast hk
    exact ⟨by have := i0.1; positivity, by have := i4.2; linarith⟩
  simp only [List.mem_cons, List.not_mem_nil, or_false] at hi hj
  have ci : ((2 + i : ℕ) : ℝ) ≤ 4 := by exact_mod_cast (by omega : 2 + i ≤ 4)
  have cj : (j : ℝ) ≤ 2 := by exact_mod_cast (by omega : j ≤ 2)
  have cj0 : (0 : ℝ) ≤ j := Nat.cast_nonneg j
  have hnoon : sunEl l (((t / 1000000 : ℤ) : ℝ) + 21600 * ((2 + i : ℕ) : ℝ)) ≤ sunEl l (((t / 1000000 : ℤ) : ℝ) + 86400) := by
    rcases hi with rfl | rfl | rfl <;> norm_num at a1 a2 ⊢ <;> linarith
  have hmid : (realSun cal l midnight).el ≤ sunEl l (((t / 1000000 : ℤ) : ℝ) + 21600 * (j : ℕ)) := by
    rcases hj with rfl | rfl | rfl <;> norm_num at b1 b2 b3 ⊢ <;> linarith
  obtain ⟨ed, id⟩ := el (t + 86400 * 1000000 - 180000000 * d) (by omega) (by omega)
  have hd' : sunEl l (((t / 1000000 : ℤ) : ℝ) + 86400 - 180 * (d : ℝ)) ≤ sunEl l (((t / 1000000 : ℤ) : ℝ) + 86400) := by
    have := hd
    rw [e4, ed, show t + 86400 * 1000000 - 180000000 * d = t + (86400 - 180 * d) * 1000000 by ring, sec_add] at this
    push_cast at this
    rw [add_sub_assoc]; exact this
  obtain ⟨pc, ps⟩ := mid_phase_noon hl i0 i4 hs (by positivity) (by linarith) hhi hnoon (d := (d : ℝ)) (by exact_mod_cast d0) (by exact_mod_cast d1) hd'
  obtain ⟨z1, z2⟩ := mid_after_noon hl i0 i4 pc hs ps
  have rm := findSolar_range (by rw [hsd]; norm_num) hm
  rw [hh] at rm
  have hfar : t + 180000000 * 35 ≤ midnight := by
    by_contra hn
    rw [not_le] at hn
    obtain ⟨em, im⟩ := el midnight rm.1 (by omega)
    have := z1 (((midnight / 1000000 - t / 1000000 : ℤ) : ℝ) / 180) (by
      have : (0 : ℤ) ≤ midnight / 1000000 - t / 1000000 := by omega
      have : (0 : ℝ) ≤ ((midnight / 1000000 - t / 1000000 : ℤ) : ℝ) := by exact_mod_cast this
      positivity) (by
      have : midnight / 1000000 - t / 1000000 ≤ (6300 : ℤ) := by omega
      have : ((midnight / 1000000 - t / 1000000 : ℤ) : ℝ) ≤ 6300 := by exact_mod_cast this
      rw [div_le_iff₀ (by norm_num)]; linarith)
    rw [mul_div_cancel₀ _ (by norm_num)] at this
    rw [em] at hmid
    push_cast at this
    rw [add_sub_cancel] at this
    have lt := mid_lt hl (σ := ((midnight / 1000000 : ℤ) : ℝ)) (D := 86400) (g := 0.2) im (hera j (by omega)) (by
      have u0 : (t / 1000000 : ℤ) ≤ midnight / 1000000 := by omega
      have u1 : midnight / 1000000 ≤ t / 1000000 + (43200 : ℤ) := by omega
      have u0 : ((t / 1000000 : ℤ) : ℝ) ≤ ((midnight / 1000000 : ℤ) : ℝ) := by exact_mod_cast u0
      have u1 : ((midnight / 1000000 : ℤ) : ℝ) ≤ ((t / 1000000 : ℤ) : ℝ) + 43200 := by exact_mod_cast u1
      rw [abs_le]; constructor <;> linarith) (by norm_num) (by norm_num at this hlo ⊢; linarith)
    linarith
  obtain ⟨k, k0, k1, k2, hk⟩ := findSolar_first 35 (by norm_num) (by rw [hsd]; exact hfar) hss
  rw [hsd] at hk k2
  have hk' := z2 (k : ℝ) (by exact_mod_cast k0) (by exact_mod_cast k1)
  rw [e0, (el (t + 180000000 * k) (by omega) (by omega)).1,
    show t + 180000000 * k = t + (180 * k) * 1000000 by ring, sec_add] at hk
  push_cast at hk
  linarith

/-- Morning: the search cannot put the sunrise at `t` and the next midnight (with the sunset) at `t + 24 h`. -/
theorem morning_apart (cal : Calendar) (hcal : Spec.Gregorian cal) (l : LatLng) (hl : Midlat l) (t : ℤ) (h0 : 0 ≤ t)
    (h1 : t < 3999000000 * 1000000) (noon : ℤ)
    (hc : ¬ (realSun cal l (t + 1000000)).el < (realSun cal l t).el)
    (hm : findSolar (fun t => (realSun cal l t).el) (fun x => x) (t + halfDay) (t + halfDay + halfDay) searchDelta =
      .ok (t + halfDay + halfDay))
    (hn : findSolar (fun t => (realSun cal l t).el) (fun x => -x) t (t + halfDay) searchDelta = .ok noon)
    (hsr : findSolar (fun t => (realSun cal l t).el) (fun x => |x - minSolarEl|) t noon searchDelta = .ok t) : False := by
  have el := realSun_offset cal hcal l h0 h1
  have hh : halfDay = 43200000000 := by norm_num [halfDay, usPerSec]
  have hsd : searchDelta = 180000000 := by norm_num [searchDelta, usPerSec]
  have hus : usPerSec = 1000000 := rfl
  obtain ⟨e0, i0⟩ := el t le_rfl (by omega)
  obtain ⟨e1, i1⟩ := el (t + 1 * 1000000) (by omega) (by omega)
  obtain ⟨e4, i4⟩ := el (t + 86400 * 1000000) (by omega) (by omega)
  rw [sec_add] at e1 i1 e4 i4
  rw [one_mul] at e1
  push_cast at e1 i1 i4
  rw [Int.cast_ofNat] at e4
  have hs : -0.2 < Real.sin (sunPhi l.lng ((t / 1000000 : ℤ) : ℝ)) := by
    by_contra hn
    have := mid_sinks hl i0 i1 (not_lt.1 hn)
    rw [e0, e1] at hc; exact hc this
  have hq : ∀ k : ℤ, 0 ≤ k → k ≤ 4 →
      (realSun cal l (t + k * 6 * 3600 * 1000000)).el = sunEl l (((t / 1000000 : ℤ) : ℝ) + 21600 * k) := by
    intro k hk0 hk1
    rw [(el (t + k * 6 * 3600 * 1000000) (by omega) (by omega)).1, sec_add]
    congr 1; push_cast; ring
  obtain ⟨i, hi, j, hj, hhi, hlo⟩ := mid_morning_contrast l.lng i0 i4 hs
  obtain ⟨a1, a2, a3⟩ := findSolar_le hm
  obtain ⟨b1, b2, b3⟩ := findSolar_le hn
  have q0 := hq 0 (by norm_num) (by norm_num)
  have q1 := hq 1 (by norm_num) (by norm_num)
  have q2 := hq 2 (by norm_num) (by norm_num)
  have q3 := hq 3 (by norm_num) (by norm_num)
  have q4 := hq 4 (by norm_num) (by norm_num)
  obtain ⟨d, d0, d1, d2, hd⟩ := findSolar_last 10 (by norm_num) (by norm_num) hm
  rw [hus] at a2 b2
  rw [hh] at a1 a2 a3 b3 hd
  rw [hsd] at hd
  rw [show t + 43200000000 + 6 * 3600 * 1000000 = t + 3 * 6 * 3600 * 1000000 by ring,
    show t + 43200000000 + 43200000000 = t + 86400 * 1000000 by ring] at a2
  rw [show t + 43200000000 + 43200000000 = t + 86400 * 1000000 by ring,
    show t + 43200000000 = t + 2 * 6 * 3600 * 1000000 by ring] at a1
  rw [show t + 43200000000 + 43200000000 = t + 86400 * 1000000 by ring] at hd
  rw [show t + 6 * 3600 * 1000000 = t + 1 * 6 * 3600 * 1000000 by ring] at b2
  rw [show t + 43200000000 = t + 2 * 6 * 3600 * 1000000 by ring] at b3
  simp only [neg_le_neg_iff] at b1 b2 b3
  simp only [e4, q2, q3] at a1 a2
  simp only [q1] at b2
  simp only [q2] at b3
  rw [show t = t + 0 * 6 * 3600 * 1000000 by ring] at b1
  simp only [q0] at b1
  push_cast at a1 a2 b1 b2 b3
  have hera : ∀ k : ℕ, k ≤ 4 → InEra (((t / 1000000 : ℤ) : ℝ) + 21600 * (k : ℝ)) := by
    intro k hk
    have hk' : (k : ℝ) ≤ 4 := by exact_mod_cast hk
    exact ⟨by have := i0.1; positivity, by have := i4.2; linarith⟩
  simp only [List.mem_cons, List.not_mem_nil, or_false] at hi hj
  have cj : ((2 + j : ℕ) : ℝ) ≤ 4 := by exact_mod_cast (by omega : 2 + j ≤ 4)
  have ci : (i : ℝ) ≤ 2 := by exact_mod_cast (by omega : i ≤ 2)
  have ci0 : (0 : ℝ) ≤ i := Nat.cast_nonneg i
  have hmid : sunEl l (((t / 1000000 : ℤ) : ℝ) + 86400) ≤ sunEl l (((t / 1000000 : ℤ) : ℝ) + 21600 * ((2 + j : ℕ) : ℝ)) := by
    rcases hj with rfl | rfl | rfl <;> norm_num at a1 a2 ⊢ <;> linarith
  have hnoon : sunEl l (((t / 1000000 : ℤ) : ℝ) + 21600 * (i : ℕ)) ≤ (realSun cal l noon).el := by
    rcases hi with rfl | rfl | rfl <;> norm_num at b1 b2 b3 ⊢ <;> linarith
  obtain ⟨ed, id⟩ := el (t + 86400 * 1000000 - 180000000 * d) (by omega) (by omega)
  have hd' : sunEl l (((t / 1000000 : ℤ) : ℝ) + 86400) ≤ sunEl l (((t / 1000000 : ℤ) : ℝ) + 86400 - 180 * (d : ℝ)) := by
    have := hd
    rw [e4, ed, show t + 86400 * 1000000 - 180000000 * d = t + (86400 - 180 * d) * 1000000 by ring, sec_add] at this
    push_cast at this
    rw [add_sub_assoc]; exact this
  obtain ⟨pc, ps⟩ := mid_phase_midnight hl i0 i4 hs (by positivity) (by linarith) hlo hmid (d := (d : ℝ)) (by exact_mod_cast d0) (by exact_mod_cast d1) hd'
  obtain ⟨z1, z2⟩ := mid_after_midnight hl i0 i4 pc hs ps
  have rm := findSolar_range (by rw [hsd]; norm_num) hn
  rw [hh] at rm
  have hfar : t + 180000000 * 35 ≤ noon := by
    by_contra hn
    rw [not_le] at hn
    obtain ⟨em, im⟩ := el noon rm.1 (by omega)
    have := z1 (((noon / 1000000 - t / 1000000 : ℤ) : ℝ) / 180) (by
      have : (0 : ℤ) ≤ noon / 1000000 - t / 1000000 := by omega
      have : (0 : ℝ) ≤ ((noon / 1000000 - t / 1000000 : ℤ) : ℝ) := by exact_mod_cast this
      positivity) (by
      have : noon / 1000000 - t / 1000000 ≤ (6300 : ℤ) := by omega
      have : ((noon / 1000000 - t / 1000000 : ℤ) : ℝ) ≤ 6300 := by exact_mod_cast this
      rw [div_le_iff₀ (by norm_num)]; linarith)
    rw [mul_div_cancel₀ _ (by norm_num)] at this
    rw [em] at hnoon
    push_cast at this
    rw [add_sub_cancel] at this
    have lt := mid_lt hl (τ := ((noon / 1000000 : ℤ) : ℝ)) (D := 86400) (g := 0.2) (hera i (by omega)) im (by
      have u0 : (t / 1000000 : ℤ) ≤ noon / 1000000 := by omega
      have u1 : noon / 1000000 ≤ t / 1000000 + (43200 : ℤ) := by omega
      have u0 : ((t / 1000000 : ℤ) : ℝ) ≤ ((noon / 1000000 : ℤ) : ℝ) := by exact_mod_cast u0
      have u1 : ((noon / 1000000 : ℤ) : ℝ) ≤ ((t / 1000000 : ℤ) : ℝ) + 43200 := by exact_mod_cast u1
      rw [abs_le]; constructor <;> linarith) (by norm_num) (by norm_num at this hhi ⊢; linarith)
    linarith
  obtain ⟨k, k0, k1, k2, hk⟩ := findSolar_first 35 (by norm_num) (by rw [hsd]; exact hfar) hsr
  rw [hsd] at hk k2
  have hk' := z2 (k : ℝ) (by exact_mod_cast k0) (by exact_mod_cast k1)
  rw [e0, (el (t + 180000000 * k) (by omega) (by omega)).1,
    show t + 180000000 * k = t + (180 * k) * 1000000 by ring, sec_add] at hk
  push_cast at hk
  linarith

/-! ## C101 -/

/-- Within fifty degrees of the equator. -/
theorem midlat_of_degrees {l : LatLng} (h : |degrees l.lat| ≤ 50) : Midlat l := by
  have hpi := Real.pi_pos
  unfold Midlat
  unfold degrees at h
  rw [abs_mul, abs_of_pos (show 0 < 180 / Real.pi by positivity)] at h
  rw [mul_div_assoc', div_le_iff₀ hpi] at h
  linarith

/-- C101. With the code's own ephemeris and the Gregorian calendar, at every instant from 1970 to 2096 and every place
within 50° of the equator, the next sunrise and sunset are found, both lie in the coming 24 hours, and they are not
exactly 24 hours apart. -/
theorem C101_sunrise_found (cal : Calendar) (hcal : Spec.Gregorian cal) (l : LatLng) (hl : |degrees l.lat| ≤ 50) (t : ℤ)
    (h0 : 0 ≤ t) (h1 : t < 3999000000 * 1000000) :
    ∃ sunrise sunset, nextSunriseSunset (fun t => (realSun cal l t).el) (degrees l.lat) t searchDelta = .ok (sunrise, sunset) ∧
      (t ≤ sunrise ∧ sunrise ≤ t + 24 * 3600 * 1000000) ∧ (t ≤ sunset ∧ sunset ≤ t + 24 * 3600 * 1000000) ∧
      |sunset - sunrise| ≠ 24 * 3600 * 1000000 := by
  have htr := midlat_of_degrees hl
  have hsd : (0 : ℤ) < searchDelta := by norm_num [searchDelta, usPerSec]
  obtain ⟨⟨sunrise, sunset⟩, hr⟩ := C95_sunrise_found _ (degrees l.lat) t (by linarith)
    (midSun_ordinary cal hcal l htr t h0 h1)
  obtain ⟨w1, w2, w3, w4⟩ := C50_within_a_day _ _ t searchDelta sunrise sunset hsd hr
  refine ⟨sunrise, sunset, hr, ⟨w1, w2⟩, ⟨w3, w4⟩, fun hbad => ?_⟩
  obtain ⟨-, noon, midnight, sr, ss, hn, hm, ha, hb, hrr⟩ := nextSunriseSunset_ok hr
  have n1 := nextNoon_range hsd hn
  have m1 := nextMidnight_range hsd hm
  have hh : halfDay = 43200000000 := by norm_num [halfDay, usPerSec]
  have hu : usPerDay = 86400000000 := by norm_num [usPerDay, usPerSec]
  simp only [Prod.mk.injEq] at hrr
  obtain ⟨r1, r2⟩ := hrr
  rw [hu] at r1 r2 ha hb
  unfold nextNoon at hn
  unfold nextMidnight at hm
  cases hc : isAfternoon (fun t => (realSun cal l t).el) t
  · obtain ⟨a1, a2⟩ := hb hc
    have b1 := findSolar_range hsd a1
    have b2 := findSolar_range hsd a2
    have n2 := n1.2 hc
    have m2 := m1.2 hc
    simp only [hc, Bool.false_eq_true, if_false] at hn hm
    rw [hh] at n2 m2
    have cmid : midnight = t + 86400000000 ∧ sr = t := by
      split_ifs at r1 r2 <;> (rcases abs_cases (sunset - sunrise) with ⟨q, _⟩ | ⟨q, _⟩ <;> rw [q] at hbad <;> omega)
    obtain ⟨rfl, rfl⟩ := cmid
    refine morning_apart cal hcal l htr sr h0 h1 noon ?_ ?_ hn ?_
    · unfold isAfternoon at hc
      exact of_decide_eq_false hc
    · rw [show sr + 2 * halfDay = sr + halfDay + halfDay by ring] at hm
      rw [hm]; congr 1; rw [hh]; ring
    · rw [add_sub_cancel_right] at a1; exact a1
  · obtain ⟨a1, a2⟩ := ha hc
    have b1 := findSolar_range hsd a1
    have b2 := findSolar_range hsd a2
    have n2 := n1.1 hc
    have m2 := m1.1 hc
    simp only [hc, if_true] at hn hm
    rw [hh] at n2 m2
    have cmid : noon = t + 86400000000 ∧ ss = t := by
      split_ifs at r1 r2 <;> (rcases abs_cases (sunset - sunrise) with ⟨q, _⟩ | ⟨q, _⟩ <;> rw [q] at hbad <;> omega)
    obtain ⟨rfl, rfl⟩ := cmid
    refine afternoon_apart cal hcal l htr ss h0 h1 midnight ?_ ?_ hm ?_
    · unfold isAfternoon at hc
      exact of_decide_eq_true hc
    · rw [show ss + 2 * halfDay = ss + halfDay + halfDay by ring] at hn
      rw [hn]; congr 1; rw [hh]; ring
    · rw [add_sub_cancel_right] at a2; exact a2

/-- C101. The sunrise feature never fails: for a balloon within 50° of the equator between 1970 and 2096 it is a number
from 0 to 2π. -/
theorem C101_feature (cal : Calendar) (hcal : Spec.Gregorian cal) (s : BState) (hl : |degrees s.latlng.lat| ≤ 50)
    (h0 : 0 ≤ s.dateTime) (h1 : s.dateTime < 3999000000 * 1000000) :
    ∃ v, computeSunriseTime (realSun cal) s = .ok v ∧ 0 ≤ v ∧ v ≤ 2 * Real.pi := by
  obtain ⟨sr, ss, hr, ⟨a, b⟩, ⟨c, d⟩, hne⟩ := C101_sunrise_found cal hcal s.latlng hl s.dateTime h0 h1
  have hpi := Real.pi_pos
  unfold computeSunriseTime
  simp only [bind, Except.bind, hr]
  rcases C32_range s.dateTime sr ss a b c d with ⟨v, hv, v1, v2⟩ | ⟨-, hbad⟩
  · refine ⟨v, hv, ?_⟩
    rcases lt_or_ge ss sr with h | h
    · have := v1 h; constructor <;> linarith
    · have := v2 h; constructor <;> linarith
  · exact absurd hbad hne

/-- C101. The number of steps to sunrise (`solar.py:486-512`) is always found; in steps of three minutes it is at most the
480 steps of a day. -/
theorem C101_steps_to_sunrise (cal : Calendar) (hcal : Spec.Gregorian cal) (l : LatLng) (hl : |degrees l.lat| ≤ 50) (t : ℤ)
    (h0 : 0 ≤ t) (h1 : t < 3999000000 * 1000000) :
    ∃ n, stepsToSunrise (fun t => (realSun cal l t).el) (degrees l.lat) t searchDelta = .ok n ∧ 0 ≤ n ∧ n ≤ 480 := by
  obtain ⟨sr, ss, hr, ⟨a, b⟩, -⟩ := C101_sunrise_found cal hcal l hl t h0 h1
  have hsd : searchDelta = 180000000 := by norm_num [searchDelta, usPerSec]
  unfold stepsToSunrise
  split_ifs
  · exact ⟨0, rfl, by norm_num, by norm_num⟩
  · simp only [hr]
    refine ⟨_, rfl, ?_, ?_⟩
    · apply Int.ceil_nonneg
      have : (0 : ℚ) ≤ ((sr - t : ℤ) : ℚ) := by exact_mod_cast (by omega : (0 : ℤ) ≤ sr - t)
      rw [hsd]; positivity
    · rw [Int.ceil_le, hsd, div_le_iff₀ (by norm_num)]
      exact_mod_cast (by omega : sr - t ≤ 480 * 180000000)

/-- C101. With the code's own ephemeris a reset of the arena never fails: whatever the random draws, the episode starts
with a balloon in a valid start state at a date in 2011–2014. (Only taking the first observation remains.) -/
theorem C101_reset {K W : Type} (E : World K W) (hJ : Spec.SaneDraws E.J) (cal : Calendar) (hcal : Spec.Gregorian cal)
    (hE : E.sun = realSun cal) (key : K) (A : Arena K W) :
    ∃ (date : ℤ) (α : ℝ), 1293840000 * 1000000 ≤ date ∧ date < 1419984000 * 1000000 ∧ 0 ≤ α ∧ α < 1 ∧
      (A.reset E key).1.heap.atms A.atm = α ∧ (A.reset E key).1.ball = some A.heap.nextBall ∧
      Spec.ValidStart α ((A.reset E key).1.heap.balls A.heap.nextBall) ∧
      ((A.reset E key).1.heap.balls A.heap.nextBall).dateTime = date ∧
      ∃ k, (A.reset E key).1.heap.winds A.wind = (A.heap.winds A.wind).reset E.J E.C k date := by
  obtain ⟨date, d0, d1, ⟨α, a0, a1, h⟩ | ⟨-, -, l, hl, hbad⟩⟩ := C95_reset E hJ (by rw [hE]; exact C94_real_sun cal hcal.1) key A
  · exact ⟨date, α, d0, d1, a0, a1, h⟩
  · refine absurd ?_ hbad
    rw [hE]
    exact midSun_ordinary cal hcal l (midlat_of_degrees (by linarith)) date (by omega) (by omega)

/-! ### Concrete instances -/

/-- Python's calendar from 1970 to 2096. -/
noncomputable def gregorian : Calendar := fun t =>
  if 0 ≤ t ∧ t < 4000000000 * 1000000 then Spec.civil (719162 + (t / (86400 * 1000000)).toNat) else (2000, 1, 1)

theorem gregorian_ok : Spec.Gregorian gregorian := by
  refine ⟨fun t => ?_, fun t h0 h1 => by unfold gregorian; rw [if_pos ⟨h0, h1⟩]⟩
  unfold gregorian
  split_ifs with h
  · obtain ⟨v1, v2, v3, v4, -⟩ := civil_valid (719162 + (t / (86400 * 1000000)).toNat)
    have hy := (julianDay_modern (719162 + (t / (86400 * 1000000)).toNat) (by omega) (by omega)).2
    exact ⟨⟨v1, by omega⟩, ⟨v2, v3⟩, v4, civil_day_le _⟩
  · norm_num

/-- At Quito's latitude on some instant of 2012. -/
example : ∃ n, stepsToSunrise (fun t => (realSun gregorian ⟨0, -1.37⟩ t).el) (degrees 0) (1340000000 * 1000000) searchDelta = .ok n ∧
    0 ≤ n ∧ n ≤ 480 :=
  C101_steps_to_sunrise gregorian gregorian_ok ⟨0, -1.37⟩ (by simp [degrees]) _ (by norm_num) (by norm_num)

/-- At 48.7° north, the latitude of Paris, at the same instant. -/
example : ∃ n, stepsToSunrise (fun t => (realSun gregorian ⟨0.85, 0.04⟩ t).el) (degrees 0.85) (1340000000 * 1000000) searchDelta = .ok n ∧
    0 ≤ n ∧ n ≤ 480 := by
  refine C101_steps_to_sunrise gregorian gregorian_ok ⟨0.85, 0.04⟩ ?_ _ (by norm_num) (by norm_num)
  have := (degrees_bounds (a := 0.85) (by norm_num))
  rw [abs_of_nonneg (by norm_num at *; linarith)]
  norm_num at *; linarith

end BLE
