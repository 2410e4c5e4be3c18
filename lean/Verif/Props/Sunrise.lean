import Verif.Lemmas.Dawn5
import Verif.Props.RealSun

/-!
# C132: where the sun is at the sunrise and sunset that the code finds
-/

namespace BLE

/-- The instant is at least 48 minutes (0.2 in the sine of the hour angle) away from solar noon and midnight; the hour
angle `sunPhi` is counted from midnight. -/
def Spec.ClearOfCulmination (l : LatLng) (t : ℤ) : Prop := 0.2 ≤ |Real.sin (sunPhi l.lng ((t / 1000000 : ℤ) : ℝ))|

theorem nearEquator_of_degrees {l : LatLng} (h : |degrees l.lat| ≤ 15) : NearEquator l := by
  have hpi := Real.pi_pos
  unfold NearEquator
  unfold degrees at h
  rw [abs_mul, abs_of_pos (show 0 < 180 / Real.pi by positivity)] at h
  rw [mul_div_assoc', div_le_iff₀ hpi] at h
  linarith

/-- An hour angle modulo whole days. -/
theorem phase_turn (x : ℝ) : ∃ k : ℤ, |x - 2 * Real.pi * k| ≤ Real.pi := by
  have hpi := Real.pi_pos
  refine ⟨round (x / (2 * Real.pi)), ?_⟩
  have h := abs_sub_round (x / (2 * Real.pi))
  have e : x - 2 * Real.pi * (round (x / (2 * Real.pi)) : ℝ) = 2 * Real.pi * (x / (2 * Real.pi) - round (x / (2 * Real.pi))) := by
    field_simp
  rw [e, abs_mul, abs_of_pos (by positivity : 0 < 2 * Real.pi)]
  nlinarith

theorem turn_cos (x : ℝ) (k : ℤ) : Real.cos x = Real.cos (x - 2 * Real.pi * k) ∧ Real.sin x = Real.sin (x - 2 * Real.pi * k) := by
  constructor
  · rw [mul_comm (2 * Real.pi)]; exact (Real.cos_sub_int_mul_two_pi x k).symm
  · rw [mul_comm (2 * Real.pi)]; exact (Real.sin_sub_int_mul_two_pi x k).symm

theorem half_turn_cos (x : ℝ) (k : ℤ) : Real.cos x = -1 * Real.cos (x - (2 * Real.pi * k + Real.pi)) := by
  rw [← sub_sub, Real.cos_sub_pi, (turn_cos x k).1]; ring

/-- Phases of afternoon and morning. -/
theorem phase_afternoon {y : ℝ} (h : |y| ≤ Real.pi) (hs : Real.sin y ≤ -0.2) : -Real.pi + 0.2 ≤ y ∧ y ≤ -0.2 := by
  obtain ⟨a, b⟩ := abs_le.1 h
  have hy : y < 0 := by
    by_contra hn
    have := Real.sin_nonneg_of_nonneg_of_le_pi (not_lt.1 hn) b
    norm_num at *; linarith
  constructor
  · have := Real.sin_le (x := y + Real.pi) (by linarith)
    rw [Real.sin_add_pi] at this; norm_num at *; linarith
  · have := Real.sin_le (x := -y) (by linarith)
    rw [Real.sin_neg] at this; norm_num at *; linarith

theorem phase_morning {y : ℝ} (h : |y| ≤ Real.pi) (hs : 0.2 ≤ Real.sin y) : 0.2 ≤ y ∧ y ≤ Real.pi - 0.2 := by
  have := phase_afternoon (y := -y) (by rw [abs_neg]; exact h) (by rw [Real.sin_neg]; linarith)
  constructor <;> linarith

/-- The elevation three minutes at a time. -/
theorem realSun_step (cal : Calendar) (hcal : Spec.Gregorian cal) (l : LatLng) (t s i : ℤ) (h0 : 0 ≤ t + (s + 180 * i) * 1000000)
    (h1 : t + (s + 180 * i) * 1000000 < 4000000000 * 1000000) :
    (realSun cal l (t + s * 1000000 + 180000000 * i)).el = sunEl l (((t / 1000000 : ℤ) : ℝ) + s + 180 * i) := by
  rw [show t + s * 1000000 + 180000000 * i = t + (s + 180 * i) * 1000000 by ring, realSun_el cal hcal l _ h0 h1, sec_add]
  unfold sunEl
  congr 4
  push_cast; ring

set_option maxHeartbeats 4000000 in
/-- What is found, in seconds and phases. -/
theorem events_found (cal : Calendar) (hcal : Spec.Gregorian cal) (l : LatLng) (hl : |degrees l.lat| ≤ 15) (t : ℤ)
    (h0 : 2 * 86400 * 1000000 ≤ t) (h1 : t < 3999000000 * 1000000) (hclear : Spec.ClearOfCulmination l t) (sunrise sunset : ℤ)
    (hr : nextSunriseSunset (fun t => (realSun cal l t).el) (degrees l.lat) t searchDelta = .ok (sunrise, sunset)) :
    (∃ s : ℤ, -86400 ≤ s ∧ s ≤ 200000 ∧ sunrise = t + s * 1000000 ∧ SunEvent l 1 (((t / 1000000 : ℤ) : ℝ) + s)) ∧
    (∃ s : ℤ, -86400 ≤ s ∧ s ≤ 200000 ∧ sunset = t + s * 1000000 ∧ SunEvent l (-1) (((t / 1000000 : ℤ) : ℝ) + s)) := by
  have hle := nearEquator_of_degrees hl
  have hpi := Real.pi_pos
  have p1 := Real.pi_gt_d4
  have hh : halfDay = 43200 * 1000000 := by norm_num [halfDay, usPerSec]
  have hu : usPerDay = 86400 * 1000000 := by norm_num [usPerDay, usPerSec]
  set σ : ℝ := ((t / 1000000 : ℤ) : ℝ) with hσ
  have σ0 : 172800 ≤ σ := by
    rw [hσ]
    exact_mod_cast (by omega : (172800 : ℤ) ≤ t / 1000000)
  have σ1 : σ ≤ 3999000000 := by
    rw [hσ]
    exact_mod_cast (by omega : t / 1000000 ≤ (3999000000 : ℤ))
  have era : ∀ s : ℝ, -172800 ≤ s → s ≤ 500000 → InEra (σ + s) := fun s q0 q1 => ⟨by linarith, by linarith⟩
  have step : ∀ s i : ℤ, -172800 ≤ s + 180 * i → s + 180 * i ≤ 500000 →
      (realSun cal l (t + s * 1000000 + 180000000 * i)).el = sunEl l (σ + s + 180 * i) := by
    intro s i q0 q1
    exact realSun_step cal hcal l t s i (by omega) (by omega)
  obtain ⟨-, noon, midnight, sr, ss, hn, hm, ha, hb, hrr⟩ := nextSunriseSunset_ok hr
  simp only [Prod.mk.injEq] at hrr
  obtain ⟨r1, r2⟩ := hrr
  -- the searches for the sunrise elevation, going up in time from a midnight or back in time from one
  have up : ∀ (a n : ℤ) (k : ℤ), -86400 ≤ a → a ≤ 86400 → 0 ≤ n → n ≤ 480 →
      |sunPhi l.lng (σ + a) - 2 * Real.pi * k| ≤ 0.025 → |sunPhi l.lng (σ + a + 180 * n) - 2 * Real.pi * k - Real.pi| ≤ 0.025 →
      findSunLevel (fun t => (realSun cal l t).el) (t + a * 1000000) (t + a * 1000000 + 180000000 * n) searchDelta = .ok sr →
      ∃ s : ℤ, -86400 ≤ s ∧ s ≤ 200000 ∧ sunrise = t + s * 1000000 ∧ SunEvent l 1 (σ + s) := by
    intro a n k q0 q1 q2 q3 z0 z1 hf
    have q0' : (-86400 : ℝ) ≤ a := by exact_mod_cast q0
    have q1' : (a : ℝ) ≤ 86400 := by exact_mod_cast q1
    obtain ⟨npos, r, hx, hH⟩ := findSolar_halving hf
    have hrange := hH.range
    have ev := event_found hle (σ := σ + a) (m := 2 * Real.pi * k) (ε := 1) (N := n) (r := r) (Or.inl rfl) (fun x => turn_cos x k)
      npos q3 (by
        intro i w0 w1
        have w0' : (0 : ℝ) ≤ i := by exact_mod_cast w0
        have w1' : (i : ℝ) ≤ 480 := by exact_mod_cast w1
        rw [add_assoc]; exact era _ (by linarith) (by linarith)) (by
        intro i w0 w1
        have w0' : (0 : ℝ) ≤ i := by exact_mod_cast w0
        have w1' : (i : ℝ) ≤ 480 := by exact_mod_cast w1
        rw [add_assoc, add_assoc]; exact era _ (by linarith) (by linarith)) z0 (by rw [one_mul, one_mul]; exact z1) (by
        refine hH.congr fun i w0 w1 => ?_
        rw [step a i (by omega) (by omega), one_mul])
    have e1 : σ + a + 1 * (180 * (r : ℝ)) = σ + ((a + 180 * r : ℤ) : ℝ) := by push_cast; ring
    rw [e1] at ev
    rw [hu] at r1
    split_ifs at r1 with hlt
    · refine ⟨a + 180 * r + 86400, by omega, by omega, by rw [r1, hx]; ring, ?_⟩
      have := ev.2; push_cast at this ⊢; rw [show σ + ((a : ℝ) + 180 * r + 86400) = σ + (a + 180 * r) + 86400 by ring]; exact this
    · exact ⟨a + 180 * r, by omega, by omega, by rw [r1, hx]; ring, ev.1⟩
  have down : ∀ (a n : ℤ) (k : ℤ), 0 ≤ a → a ≤ 172800 → 0 ≤ n → n ≤ 480 →
      |sunPhi l.lng (σ + a) - 2 * Real.pi * k| ≤ 0.025 → |sunPhi l.lng (σ + a - 180 * n) - 2 * Real.pi * k + Real.pi| ≤ 0.025 →
      findSunLevel (fun t => (realSun cal l t).el) (t + (a - 180 * n) * 1000000) (t + (a - 180 * n) * 1000000 + 180000000 * n) searchDelta = .ok ss →
      ∃ s : ℤ, -86400 ≤ s ∧ s ≤ 200000 ∧ sunset = t + s * 1000000 ∧ SunEvent l (-1) (σ + s) := by
    intro a n k q0 q1 q2 q3 z0 z1 hf
    have q0' : (0 : ℝ) ≤ a := by exact_mod_cast q0
    have q1' : (a : ℝ) ≤ 172800 := by exact_mod_cast q1
    obtain ⟨npos, r, hx, hH⟩ := findSolar_halving hf
    have hrange := hH.range
    have hrev := hH.reverse n
    rw [sub_self, sub_zero] at hrev
    have ev := event_found hle (σ := σ + a) (m := 2 * Real.pi * k) (ε := -1) (N := n) (r := n - r) (Or.inr rfl) (fun x => turn_cos x k)
      npos q3 (by
        intro i w0 w1
        have w0' : (0 : ℝ) ≤ i := by exact_mod_cast w0
        have w1' : (i : ℝ) ≤ 480 := by exact_mod_cast w1
        rw [add_assoc]; exact era _ (by linarith) (by linarith)) (by
        intro i w0 w1
        have w0' : (0 : ℝ) ≤ i := by exact_mod_cast w0
        have w1' : (i : ℝ) ≤ 480 := by exact_mod_cast w1
        rw [add_assoc, add_assoc]; exact era _ (by linarith) (by linarith)) z0 (by
        rw [neg_one_mul, neg_one_mul, sub_neg_eq_add, ← sub_eq_add_neg]; exact z1) (by
        refine hrev.congr fun i w0 w1 => ?_
        rw [step (a - 180 * n) (n - i) (by omega) (by omega)]
        congr 3; push_cast; ring)
    have e1 : σ + a + -1 * (180 * ((n - r : ℤ) : ℝ)) = σ + ((a - 180 * n + 180 * r : ℤ) : ℝ) := by push_cast; ring
    rw [e1] at ev
    rw [hu] at r2
    split_ifs at r2 with hlt
    · refine ⟨a - 180 * n + 180 * r + 86400, by omega, by omega, by rw [r2, hx]; ring, ?_⟩
      have := ev.2; push_cast at this ⊢
      rw [show σ + ((a : ℝ) - 180 * n + 180 * r + 86400) = σ + (a - 180 * n + 180 * r) + 86400 by ring]; exact this
    · exact ⟨a - 180 * n + 180 * r, by omega, by omega, by rw [r2, hx]; ring, ev.1⟩
  -- the searches for midnight and noon
  have cul : ∀ (a : ℤ) (s m : ℝ) (tr : ℝ → ℝ) (x : ℤ), (s = 1 ∨ s = -1) → (∀ y, Real.cos y = s * Real.cos (y - m)) → (∀ y, tr y = s * y) →
      (a = 0 ∨ a = 43200) → -Real.pi + 0.19 ≤ sunPhi l.lng (σ + a) - m → sunPhi l.lng (σ + a) - m ≤ -0.19 →
      findSolar (fun t => (realSun cal l t).el) tr (t + a * 1000000) (t + a * 1000000 + 180000000 * 240) searchDelta = .ok x →
      ∃ r : ℤ, 0 ≤ r ∧ r ≤ 240 ∧ x = t + a * 1000000 + 180000000 * r ∧ |sunPhi l.lng (σ + a + 180 * r) - m| ≤ 0.0214 := by
    intro a s m tr x hs hcos htr haa z0 z1 hf
    obtain ⟨-, r, hx, hH⟩ := findSolar_halving hf
    have hrange := hH.range
    refine ⟨r, hrange.1, hrange.2, hx, ?_⟩
    have q0 : (0 : ℝ) ≤ a ∧ (a : ℝ) ≤ 43200 := by rcases haa with rfl | rfl <;> norm_num
    refine culmination hle hs hcos (era a (by linarith) (by linarith)) (by rw [add_assoc]; exact era _ (by linarith) (by linarith)) z0 z1
      (hH.congr fun i w0 w1 => ?_)
    rw [htr, step a i (by omega) (by omega)]
  have half : |sunPhi l.lng (σ + 43200) - sunPhi l.lng σ - Real.pi| ≤ 0.0018 := by
    have := phi_steps l.lng (σ := σ) (τ := σ + 43200) (by simpa using era 0 (by norm_num) (by norm_num)) (era _ (by norm_num) (by norm_num))
      (n := 240) (by ring) (by norm_num)
    rw [show Real.pi / 240 * 240 = Real.pi by ring] at this
    norm_num at *; linarith
  have half := abs_le.1 half
  have whole : ∀ s : ℝ, -86400 ≤ s → s ≤ 172800 → |sunPhi l.lng (σ + s + 86400) - sunPhi l.lng (σ + s) - 2 * Real.pi| ≤ 0.0035 := by
    intro s q0 q1
    have := phi_steps l.lng (σ := σ + s) (τ := σ + s + 86400) (era _ (by linarith) (by linarith))
      (by rw [add_assoc]; exact era _ (by linarith) (by linarith)) (n := 480) (by ring) (by norm_num)
    rw [show Real.pi / 240 * 480 = 2 * Real.pi by ring] at this
    norm_num at *; linarith
  obtain ⟨k, hk⟩ := phase_turn (sunPhi l.lng σ)
  have hck : 0.2 ≤ |Real.sin (sunPhi l.lng σ)| := hclear
  rw [(turn_cos (sunPhi l.lng σ) k).2] at hck
  set y := sunPhi l.lng σ - 2 * Real.pi * k with hy
  have i0 : InEra σ := by simpa using era 0 (by norm_num) (by norm_num)
  have i1 : InEra (σ + 1) := era 1 (by norm_num) (by norm_num)
  have el0 : (realSun cal l t).el = sunEl l σ := by
    have := step 0 0 (by norm_num) (by norm_num)
    simpa using this
  have el1 : (realSun cal l (t + 1000000)).el = sunEl l (σ + 1) := by
    have := step 1 0 (by norm_num) (by norm_num)
    simpa using this
  unfold nextNoon at hn
  unfold nextMidnight at hm
  rcases le_total 0 (Real.sin y) with hsg | hsg
  · -- morning
    rw [abs_of_nonneg hsg] at hck
    obtain ⟨y0, y1⟩ := phase_morning hk hck
    have haft : isAfternoon (fun t => (realSun cal l t).el) t = false := by
      unfold isAfternoon
      have := morning_rises hle.tropical i0 i1 (by rw [(turn_cos (sunPhi l.lng σ) k).2]; exact hck)
      rw [decide_eq_false_iff_not]
      show ¬ (realSun cal l (t + 1000000)).el < (realSun cal l t).el
      rw [el0, el1]; linarith
    simp only [haft, Bool.false_eq_true, if_false, hh] at hn hm
    obtain ⟨hsr, hss⟩ := hb haft
    obtain ⟨rn, n0, n1, en, pn⟩ := cul 0 (-1) (2 * Real.pi * k + Real.pi) (fun x => -x) noon (Or.inr rfl) (fun y => half_turn_cos y k) (fun y => by ring)
      (Or.inl rfl) (by push_cast; rw [add_zero]; norm_num at y0 y1 hy ⊢; linarith) (by push_cast; rw [add_zero]; norm_num at y0 y1 hy ⊢; linarith)
      (by rw [← hn]; congr 1 <;> ring)
    obtain ⟨rm, m0, m1, em, pm⟩ := cul 43200 1 (2 * Real.pi * ((k + 1 : ℤ) : ℝ)) (fun x => x) midnight (Or.inl rfl)
      (fun y => by rw [one_mul]; exact (turn_cos y (k + 1)).1) (fun y => by ring)
      (Or.inr rfl) (by push_cast; norm_num at y0 y1 hy half ⊢; linarith) (by push_cast; norm_num at y0 y1 hy half ⊢; linarith)
      (by rw [← hm]; congr 1; ring)
    push_cast at pn pm
    rw [add_zero] at pn
    have pn := abs_le.1 pn
    have pm := abs_le.1 pm
    have m0' : (0 : ℝ) ≤ rm := by exact_mod_cast m0
    have m1' : (rm : ℝ) ≤ 240 := by exact_mod_cast m1
    have n0' : (0 : ℝ) ≤ rn := by exact_mod_cast n0
    have n1' : (rn : ℝ) ≤ 240 := by exact_mod_cast n1
    have wm := abs_le.1 (whole (-43200 + 180 * rm) (by linarith) (by linarith))
    rw [show σ + (-43200 + 180 * (rm : ℝ)) + 86400 = σ + 43200 + 180 * rm by ring] at wm
    constructor
    · refine up (-43200 + 180 * rm) (rn - rm + 240) k (by omega) (by omega) (by omega) (by omega) ?_ ?_ ?_
      · push_cast
        rw [abs_le]; constructor <;> norm_num at pn pm wm ⊢ <;> linarith
      · push_cast
        rw [show σ + (-43200 + 180 * (rm : ℝ)) + 180 * ((rn : ℝ) - rm + 240) = σ + 180 * rn by ring]
        rw [abs_le]; constructor <;> norm_num at pn pm wm ⊢ <;> linarith
      · rw [← hsr, em, en, hu]
        congr 1 <;> ring
    · refine down (43200 + 180 * rm) (rm - rn + 240) (k + 1) (by omega) (by omega) (by omega) (by omega) ?_ ?_ ?_
      · push_cast
        rw [show σ + (43200 + 180 * (rm : ℝ)) = σ + 43200 + 180 * rm by ring]
        rw [abs_le]; constructor <;> norm_num at pn pm wm ⊢ <;> linarith
      · push_cast
        rw [show σ + (43200 + 180 * (rm : ℝ)) - 180 * ((rm : ℝ) - rn + 240) = σ + 180 * rn by ring]
        rw [abs_le]; constructor <;> norm_num at pn pm wm ⊢ <;> linarith
      · rw [← hss, em, en]
        congr 1 <;> ring
  · -- afternoon
    rw [abs_of_nonpos hsg] at hck
    obtain ⟨y0, y1⟩ := phase_afternoon hk (by linarith)
    have haft : isAfternoon (fun t => (realSun cal l t).el) t = true := by
      unfold isAfternoon
      have := afternoon_sinks hle.tropical i0 i1 (by rw [(turn_cos (sunPhi l.lng σ) k).2]; linarith)
      rw [decide_eq_true_iff]
      show (realSun cal l (t + 1000000)).el < (realSun cal l t).el
      rw [el0, el1]; exact this
    simp only [haft, if_true, hh] at hn hm
    obtain ⟨hsr, hss⟩ := ha haft
    obtain ⟨rm, m0, m1, em, pm⟩ := cul 0 1 (2 * Real.pi * k) (fun x => x) midnight (Or.inl rfl)
      (fun y => by rw [one_mul]; exact (turn_cos y k).1) (fun y => by ring)
      (Or.inl rfl) (by push_cast; rw [add_zero]; norm_num at y0 y1 hy ⊢; linarith) (by push_cast; rw [add_zero]; norm_num at y0 y1 hy ⊢; linarith)
      (by rw [← hm]; congr 1 <;> ring)
    obtain ⟨rn, n0, n1, en, pn⟩ := cul 43200 (-1) (2 * Real.pi * k + Real.pi) (fun x => -x) noon (Or.inr rfl) (fun y => half_turn_cos y k) (fun y => by ring)
      (Or.inr rfl) (by push_cast; norm_num at y0 y1 hy half ⊢; linarith) (by push_cast; norm_num at y0 y1 hy half ⊢; linarith)
      (by rw [← hn]; congr 1; ring)
    push_cast at pn pm
    rw [add_zero] at pm
    have pn := abs_le.1 pn
    have pm := abs_le.1 pm
    have m0' : (0 : ℝ) ≤ rm := by exact_mod_cast m0
    have m1' : (rm : ℝ) ≤ 240 := by exact_mod_cast m1
    have n0' : (0 : ℝ) ≤ rn := by exact_mod_cast n0
    have n1' : (rn : ℝ) ≤ 240 := by exact_mod_cast n1
    have wn := abs_le.1 (whole (-43200 + 180 * rn) (by linarith) (by linarith))
    rw [show σ + (-43200 + 180 * (rn : ℝ)) + 86400 = σ + 43200 + 180 * rn by ring] at wn
    constructor
    · refine up (180 * rm) (rn - rm + 240) k (by omega) (by omega) (by omega) (by omega) ?_ ?_ ?_
      · push_cast
        rw [abs_le]; constructor <;> norm_num at pn pm wn ⊢ <;> linarith
      · push_cast
        rw [show σ + 180 * (rm : ℝ) + 180 * ((rn : ℝ) - rm + 240) = σ + 43200 + 180 * rn by ring]
        rw [abs_le]; constructor <;> norm_num at pn pm wn ⊢ <;> linarith
      · rw [← hsr, em, en]
        congr 1 <;> ring
    · refine down (180 * rm) (rm - rn + 240) k (by omega) (by omega) (by omega) (by omega) ?_ ?_ ?_
      · push_cast
        rw [abs_le]; constructor <;> norm_num at pn pm wn ⊢ <;> linarith
      · push_cast
        rw [show σ + 180 * (rm : ℝ) - 180 * ((rm : ℝ) - rn + 240) = σ + (-43200 + 180 * rn) by ring]
        rw [abs_le]; constructor <;> norm_num at pn pm wn ⊢ <;> linarith
      · rw [← hss, em, en, hu]
        congr 1 <;> ring


set_option maxHeartbeats 1000000 in
/-- C132. The sunrise that is found lies in the morning, the sunset in the evening: at both the sun is between −7° and 3.1°, it
is rising at the sunrise and sinking at the sunset, and half an hour into the day it stands above the horizon. (For places within 15° of
the equator, instants from 1970 to 2096 that are at least 48 minutes away from solar noon and midnight.) -/
theorem C132_found_partial (cal : Calendar) (hcal : Spec.Gregorian cal) (l : LatLng) (hl : |degrees l.lat| ≤ 15) (t : ℤ)
    (h0 : 2 * 86400 * 1000000 ≤ t) (h1 : t < 3999000000 * 1000000) (hclear : Spec.ClearOfCulmination l t) (sunrise sunset : ℤ)
    (hr : nextSunriseSunset (fun t => (realSun cal l t).el) (degrees l.lat) t searchDelta = .ok (sunrise, sunset)) :
    ((-7 ≤ (realSun cal l sunrise).el ∧ (realSun cal l sunrise).el ≤ 3.1) ∧
      (realSun cal l sunrise).el < (realSun cal l (sunrise + 1000000)).el ∧
      0 ≤ (realSun cal l (sunrise + 30 * 60 * 1000000)).el) ∧
    ((-7 ≤ (realSun cal l sunset).el ∧ (realSun cal l sunset).el ≤ 3.1) ∧
      (realSun cal l (sunset + 1000000)).el < (realSun cal l sunset).el ∧
      0 ≤ (realSun cal l (sunset - 30 * 60 * 1000000)).el) := by
  have hle := nearEquator_of_degrees hl
  have hpi := Real.pi_pos
  have p1 := Real.pi_gt_d4
  have hh : halfDay = 43200 * 1000000 := by norm_num [halfDay, usPerSec]
  have hu : usPerDay = 86400 * 1000000 := by norm_num [usPerDay, usPerSec]
  set σ : ℝ := ((t / 1000000 : ℤ) : ℝ) with hσ
  have σ0 : 172800 ≤ σ := by
    rw [hσ]
    exact_mod_cast (by omega : (172800 : ℤ) ≤ t / 1000000)
  have σ1 : σ ≤ 3999000000 := by
    rw [hσ]
    exact_mod_cast (by omega : t / 1000000 ≤ (3999000000 : ℤ))
  have era : ∀ s : ℝ, -172800 ≤ s → s ≤ 500000 → InEra (σ + s) := fun s q0 q1 => ⟨by linarith, by linarith⟩
  have step : ∀ s i : ℤ, -172800 ≤ s + 180 * i → s + 180 * i ≤ 500000 →
      (realSun cal l (t + s * 1000000 + 180000000 * i)).el = sunEl l (σ + s + 180 * i) := by
    intro s i q0 q1
    exact realSun_step cal hcal l t s i (by omega) (by omega)
  -- the conclusion at an event
  have fin : ∀ (ε : ℝ) (s : ℤ), (ε = 1 ∨ ε = -1) → -86400 ≤ s → s ≤ 200000 → SunEvent l ε (σ + s) → ∀ x, x = t + s * 1000000 →
      (-7 ≤ (realSun cal l x).el ∧ (realSun cal l x).el ≤ 3.1) ∧
      ((ε = 1 → (realSun cal l x).el < (realSun cal l (x + 1000000)).el ∧ 0 ≤ (realSun cal l (x + 30 * 60 * 1000000)).el) ∧
        (ε = -1 → (realSun cal l (x + 1000000)).el < (realSun cal l x).el ∧ 0 ≤ (realSun cal l (x - 30 * 60 * 1000000)).el)) := by
    intro ε s hε q0 q1 E x hx
    have q0' : (-86400 : ℝ) ≤ s := by exact_mod_cast q0
    have q1' : (s : ℝ) ≤ 200000 := by exact_mod_cast q1
    have at_ : ∀ u : ℤ, -3600 ≤ u → u ≤ 3600 → (realSun cal l (x + u * 1000000)).el = sunEl l (σ + s + u) := by
      intro u v0 v1
      have := step (s + u) 0 (by omega) (by omega)
      rw [hx, show t + s * 1000000 + u * 1000000 = t + (s + u) * 1000000 + 180000000 * 0 by ring, this]
      congr 1; push_cast; ring
    have a0 := at_ 0 (by norm_num) (by norm_num)
    have a1 := at_ 1 (by norm_num) (by norm_num)
    have a2 := at_ 1800 (by norm_num) (by norm_num)
    have a3 := at_ (-1800) (by norm_num) (by norm_num)
    rw [zero_mul, add_zero, Int.cast_zero, add_zero] at a0
    rw [one_mul, Int.cast_one] at a1
    have i0 := era s (by linarith) (by linarith)
    have i1 : InEra (σ + s + 1) := by rw [add_assoc]; exact era _ (by linarith) (by linarith)
    have i2 : InEra (σ + s + ε * 1800) := by
      rw [add_assoc]; rcases hε with rfl | rfl <;> exact era _ (by linarith) (by linarith)
    obtain ⟨e1, e2, e3⟩ := E.elevation hle i0 i2
    have ph := E.phase
    refine ⟨by rw [a0]; exact ⟨e1, e2⟩, ?_, ?_⟩
    · rintro rfl
      rw [one_mul] at ph e3
      refine ⟨by rw [a0, a1]; exact morning_rises hle.tropical i0 i1 (by norm_num at *; linarith), ?_⟩
      rw [show x + 30 * 60 * 1000000 = x + 1800 * 1000000 by ring, a2]; push_cast; exact e3
    · rintro rfl
      refine ⟨by rw [a0, a1]; exact afternoon_sinks hle.tropical i0 i1 (by norm_num at *; linarith), ?_⟩
      rw [show x - 30 * 60 * 1000000 = x + (-1800) * 1000000 by ring, a3]; push_cast
      rw [neg_one_mul] at e3; exact e3
  obtain ⟨⟨a, a0, a1, e1, E1⟩, ⟨b, b0, b1, e2, E2⟩⟩ := events_found cal hcal l hl t h0 h1 hclear sunrise sunset hr
  have f1 := fin 1 a (Or.inl rfl) a0 a1 E1 sunrise e1
  have f2 := fin (-1) b (Or.inr rfl) b0 b1 E2 sunset e2
  exact ⟨⟨f1.1, f1.2.1 rfl⟩, ⟨f2.1, f2.2.2 rfl⟩⟩

end BLE
