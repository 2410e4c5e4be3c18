import Verif.Props.SunriseLate

/-!
# C134: telling morning from afternoon
-/

namespace BLE

/-- The noon (`a = π`) or midnight (`a = 0`) that comes next after second `s`: the first multiple of a turn from `a` that the hour angle
reaches is reached at second `n`, up to five minutes (0.0215 rad). -/
def Spec.NextCulmination (lng a s n : ℝ) : Prop :=
  ∃ k : ℤ, sunPhi lng s < 2 * Real.pi * k + a ∧ 2 * Real.pi * k + a ≤ sunPhi lng s + 2 * Real.pi ∧
    |sunPhi lng n - (2 * Real.pi * k + a)| ≤ 0.0215

set_option maxHeartbeats 2000000 in
/-- C134. Within 15° of the equator, at instants 48 minutes clear of noon and midnight, from 1970 to 2096: `is_solar_afternoon` is true
exactly in the afternoon, and `get_next_solar_noon` and `get_next_solar_midnight` give the noon and midnight that come next,
up to five minutes. -/
theorem C134_culminations_partial (cal : Calendar) (hcal : Spec.Gregorian cal) (l : LatLng) (hl : |degrees l.lat| ≤ 15) (t : ℤ)
    (h0 : 0 ≤ t) (h1 : t < 3999000000 * 1000000) (hclear : Spec.ClearOfCulmination l t) :
    (isAfternoon (fun t => (realSun cal l t).el) t = true ↔ Real.sin (sunPhi l.lng ((t / 1000000 : ℤ) : ℝ)) < 0) ∧
    (∀ n, nextNoon (fun t => (realSun cal l t).el) t searchDelta = .ok n →
      Spec.NextCulmination l.lng Real.pi ((t / 1000000 : ℤ) : ℝ) ((n / 1000000 : ℤ) : ℝ)) ∧
    (∀ n, nextMidnight (fun t => (realSun cal l t).el) t searchDelta = .ok n →
      Spec.NextCulmination l.lng 0 ((t / 1000000 : ℤ) : ℝ) ((n / 1000000 : ℤ) : ℝ)) := by
  have hle := nearEquator_of_degrees hl
  have hpi := Real.pi_pos
  have p1 := Real.pi_gt_d4
  have hh : halfDay = 43200 * 1000000 := by norm_num [halfDay, usPerSec]
  set σ : ℝ := ((t / 1000000 : ℤ) : ℝ) with hσ
  have σ0 : 0 ≤ σ := by
    rw [hσ]
    exact_mod_cast (by omega : (0 : ℤ) ≤ t / 1000000)
  have σ1 : σ ≤ 3999000000 := by
    rw [hσ]
    exact_mod_cast (by omega : t / 1000000 ≤ (3999000000 : ℤ))
  have era : ∀ s : ℝ, 0 ≤ s → s ≤ 500000 → InEra (σ + s) := fun s q0 q1 => ⟨by linarith, by linarith⟩
  have step : ∀ s i : ℤ, 0 ≤ s + 180 * i → s + 180 * i ≤ 500000 →
      (realSun cal l (t + s * 1000000 + 180000000 * i)).el = sunEl l (σ + s + 180 * i) := by
    intro s i q0 q1
    exact realSun_step cal hcal l t s i (by omega) (by omega)
  have cul : ∀ (a : ℤ) (s m : ℝ) (tr : ℝ → ℝ) (x : ℤ), (s = 1 ∨ s = -1) → (∀ y, Real.cos y = s * Real.cos (y - m)) → (∀ y, tr y = s * y) →
      (a = 0 ∨ a = 43200) → -Real.pi + 0.19 ≤ sunPhi l.lng (σ + a) - m → sunPhi l.lng (σ + a) - m ≤ -0.19 →
      findSolar (fun t => (realSun cal l t).el) tr (t + a * 1000000) (t + a * 1000000 + 180000000 * 240) searchDelta = .ok x →
      |sunPhi l.lng ((x / 1000000 : ℤ) : ℝ) - m| ≤ 0.0215 := by
    intro a s m tr x hs hcos htr haa z0 z1 hf
    obtain ⟨-, r, hx, hH⟩ := findSolar_halving hf
    have hrange := hH.range
    have hsec : ((x / 1000000 : ℤ) : ℝ) = σ + a + 180 * r := by
      rw [hx, hσ]
      have : (t + a * 1000000 + 180000000 * r) / 1000000 = t / 1000000 + a + 180 * r := by omega
      rw [this]; push_cast; ring
    rw [hsec]
    have q0 : (0 : ℝ) ≤ a ∧ (a : ℝ) ≤ 43200 := by rcases haa with rfl | rfl <;> norm_num
    refine le_trans (culmination hle hs hcos (era a (by linarith) (by linarith)) (by rw [add_assoc]; exact era _ (by linarith) (by linarith)) z0 z1
      (hH.congr fun i w0 w1 => ?_)) (by norm_num)
    rw [htr, step a i (by rcases haa with rfl | rfl <;> omega) (by omega)]
  have half : |sunPhi l.lng (σ + 43200) - sunPhi l.lng σ - Real.pi| ≤ 0.0018 := by
    have := phi_steps l.lng (σ := σ) (τ := σ + 43200) (by simpa using era 0 (by norm_num) (by norm_num)) (era _ (by norm_num) (by norm_num))
      (n := 240) (by ring) (by norm_num)
    rw [show Real.pi / 240 * 240 = Real.pi by ring] at this
    norm_num at this ⊢; linarith
  have half := abs_le.1 half
  obtain ⟨k, hk⟩ := phase_turn (sunPhi l.lng σ)
  have hck : 0.2 ≤ |Real.sin (sunPhi l.lng σ)| := hclear
  rw [(turn_cos (sunPhi l.lng σ) k).2] at hck
  rw [(turn_cos (sunPhi l.lng σ) k).2]
  set y := sunPhi l.lng σ - 2 * Real.pi * k with hy
  have i0 : InEra σ := by simpa using era 0 (by norm_num) (by norm_num)
  have i1 : InEra (σ + 1) := era 1 (by norm_num) (by norm_num)
  have el0 : (realSun cal l t).el = sunEl l σ := by
    have := step 0 0 (by norm_num) (by norm_num)
    simpa using this
  have el1 : (realSun cal l (t + 1000000)).el = sunEl l (σ + 1) := by
    have := step 1 0 (by norm_num) (by norm_num)
    simpa using this
  rcases le_total 0 (Real.sin y) with hsg | hsg
  · -- morning
    rw [abs_of_nonneg hsg] at hck
    obtain ⟨y0, y1⟩ := phase_morning hk hck
    have haft : isAfternoon (fun t => (realSun cal l t).el) t = false := by
      unfold isAfternoon
      have := morning_rises hle.tropical i0 i1 (by rw [(turn_cos (sunPhi l.lng σ) k).2]; exact hck)
      rw [decide_eq_false_iff_not]
      show ¬ (realSun cal l (t + 1000000)).el < (realSun cal l t).el
      rw [el0, el1]; linarith
    refine ⟨by rw [haft]; simpa using hsg, fun n hn => ?_, fun n hm => ?_⟩
    · unfold nextNoon at hn
      simp only [haft, Bool.false_eq_true, if_false, hh] at hn
      refine ⟨k, by norm_num at y0 y1; linarith, by norm_num at y0 y1; linarith, ?_⟩
      exact cul 0 (-1) (2 * Real.pi * k + Real.pi) (fun x => -x) n (Or.inr rfl) (fun y => half_turn_cos y k) (fun y => by ring)
        (Or.inl rfl) (by push_cast; rw [add_zero]; norm_num at y0 y1 hy ⊢; linarith) (by push_cast; rw [add_zero]; norm_num at y0 y1 hy ⊢; linarith)
        (by rw [← hn]; congr 1 <;> ring)
    · unfold nextMidnight at hm
      simp only [haft, Bool.false_eq_true, if_false, hh] at hm
      refine ⟨k + 1, by push_cast; norm_num at y0 y1; linarith, by push_cast; norm_num at y0 y1; linarith, ?_⟩
      rw [add_zero]
      exact cul 43200 1 (2 * Real.pi * ((k + 1 : ℤ) : ℝ)) (fun x => x) n (Or.inl rfl)
        (fun y => by rw [one_mul]; exact (turn_cos y (k + 1)).1) (fun y => by ring)
        (Or.inr rfl) (by push_cast; norm_num at y0 y1 hy half ⊢; linarith) (by push_cast; norm_num at y0 y1 hy half ⊢; linarith)
        (by rw [← hm]; congr 1; ring)
  · -- afternoon
    rw [abs_of_nonpos hsg] at hck
    obtain ⟨y0, y1⟩ := phase_afternoon hk (by linarith)
    have haft : isAfternoon (fun t => (realSun cal l t).el) t = true := by
      unfold isAfternoon
      have := afternoon_sinks hle.tropical i0 i1 (by rw [(turn_cos (sunPhi l.lng σ) k).2]; linarith)
      rw [decide_eq_true_iff]
      show (realSun cal l (t + 1000000)).el < (realSun cal l t).el
      rw [el0, el1]; exact this
    refine ⟨⟨fun _ => by norm_num at hck; linarith, fun _ => haft⟩, fun n hn => ?_, fun n hm => ?_⟩
    · unfold nextNoon at hn
      simp only [haft, if_true, hh] at hn
      refine ⟨k, by norm_num at y0 y1; linarith, by norm_num at y0 y1; linarith, ?_⟩
      exact cul 43200 (-1) (2 * Real.pi * k + Real.pi) (fun x => -x) n (Or.inr rfl) (fun y => half_turn_cos y k) (fun y => by ring)
        (Or.inr rfl) (by push_cast; norm_num at y0 y1 hy half ⊢; linarith) (by push_cast; norm_num at y0 y1 hy half ⊢; linarith)
        (by rw [← hn]; congr 1; ring)
    · unfold nextMidnight at hm
      simp only [haft, if_true, hh] at hm
      refine ⟨k, by norm_num at y0 y1; linarith, by norm_num at y0 y1; linarith, ?_⟩
      rw [add_zero]
      exact cul 0 1 (2 * Real.pi * k) (fun x => x) n (Or.inl rfl)
        (fun y => by rw [one_mul]; exact (turn_cos y k).1) (fun y => by ring)
        (Or.inl rfl) (by push_cast; rw [add_zero]; norm_num at y0 y1 hy ⊢; linarith) (by push_cast; rw [add_zero]; norm_num at y0 y1 hy ⊢; linarith)
        (by rw [← hm]; congr 1 <;> ring)

/-! ### Against the full claim -/

/-- The refraction formula at exactly 85° still lifts by five arc seconds; above it, by none. -/
theorem refraction_at_85 : 5.06 ≤ refraction 85 := by
  rw [refraction_three (by norm_num) le_rfl]
  unfold refr3
  have hpi := Real.pi_pos
  have e : radians 85 = Real.pi / 2 - radians 5 := by unfold radians; ring
  have r := radians_bounds (e := 5) (by norm_num)
  obtain ⟨r1, r2⟩ := r
  have hp : 0 < radians 5 := by norm_num at r1 ⊢; linarith
  have hlt : radians 5 < Real.pi / 2 := by have := Real.pi_gt_three; norm_num at r2 ⊢; linarith
  have htu : Real.tan (radians 5) ≤ 0.08761 := by
    have c := Real.one_sub_sq_div_two_le_cos (x := radians 5)
    have s := Real.sin_le hp.le
    have cp : 0.99619 ≤ Real.cos (radians 5) := by
      have : radians 5 ^ 2 ≤ 0.0872665 ^ 2 := pow_le_pow_left₀ hp.le (by norm_num at r2 ⊢; linarith) 2
      norm_num at c this ⊢; linarith
    rw [Real.tan_eq_sin_div_cos, div_le_iff₀ (by norm_num at cp ⊢; linarith)]
    norm_num at cp s r2 ⊢; linarith
  have htl := Real.le_tan hp.le hlt
  have htl' : 0.08726 ≤ Real.tan (radians 5) := by norm_num at htl r1 ⊢; linarith
  rw [e, Real.tan_pi_div_two_sub]
  generalize Real.tan (radians 5) = u at *
  rw [div_inv_eq_mul, inv_pow, inv_pow, div_inv_eq_mul, div_inv_eq_mul]
  have u0 : 0 ≤ u := by norm_num at htl' ⊢; linarith
  have a2 : u ^ 3 ≤ 0.08761 ^ 3 := pow_le_pow_left₀ u0 htu 3
  have a3 : 0 ≤ u ^ 5 := by positivity
  norm_num at a2 a3 htl' ⊢; linarith

/-- Just above 85° a small step of the sine is a small step of the angle. -/
theorem arcsin_past_85 {x : ℝ} (h0 : Real.sin (radians 85) < x) (h1 : x ≤ Real.sin (radians 85) + 1.6e-6) :
    85 < degrees (Real.arcsin x) ∧ degrees (Real.arcsin x) ≤ 85.0013 := by
  have hpi := Real.pi_pos
  have p1 := Real.pi_gt_d4
  have p2 := Real.pi_lt_d4
  have e : radians 85 = Real.pi / 2 - radians 5 := by unfold radians; ring
  obtain ⟨r1, r2⟩ := radians_bounds (e := 5) (by norm_num)
  have hr : 85 = degrees (radians 85) := by unfold degrees radians; field_simp
  have hk : 0 < 180 / Real.pi := by positivity
  have hk1 : 180 / Real.pi ≤ 57.3 := by rw [div_le_iff₀ hpi]; norm_num at p1 ⊢; linarith
  constructor
  · rw [hr]
    unfold degrees
    refine mul_lt_mul_of_pos_right ?_ hk
    rw [Real.lt_arcsin_iff_sin_lt' ⟨by norm_num at r2 e ⊢; linarith, by norm_num at r1 e ⊢; linarith⟩]
    exact h0
  · -- otherwise the sine would have moved further
    have key : Real.arcsin x ≤ radians 85 + 2.2e-5 := by
      rw [Real.arcsin_le_iff_le_sin' ⟨by norm_num at r2 e ⊢; linarith, by norm_num at r1 e ⊢; linarith⟩, Real.sin_add]
      have c5 : 0.0870 ≤ Real.cos (radians 85) := by
        rw [e, Real.cos_pi_div_two_sub]
        have := DawnSeq.sin_ge (x := radians 5) (d := 0.0872) (by norm_num) (by norm_num at r1 ⊢; linarith) (by norm_num at r2 p1 ⊢; linarith)
        norm_num at this ⊢; linarith
      have s1 := Real.sin_gt_sub_cube (x := 2.2e-5) (by norm_num)
      have c1 := Real.one_sub_sq_div_two_le_cos (x := 2.2e-5)
      have sl := Real.sin_le_one (radians 85)
      have sp : 0 ≤ Real.sin (radians 85) := Real.sin_nonneg_of_nonneg_of_le_pi (by norm_num at r2 e ⊢; linarith) (by norm_num at r1 e ⊢; linarith)
      have m1 : Real.sin (radians 85) * (1 - 2.42e-10) ≤ Real.sin (radians 85) * Real.cos 2.2e-5 :=
        mul_le_mul_of_nonneg_left (by norm_num at c1 ⊢; linarith) sp
      have m2 : 0.0870 * 2.19e-5 ≤ Real.cos (radians 85) * Real.sin 2.2e-5 :=
        mul_le_mul c5 (by norm_num at s1 ⊢; linarith) (by norm_num) (by norm_num at c5; linarith)
      norm_num at m1 m2 h1 ⊢; linarith
    have : degrees (Real.arcsin x) ≤ degrees (radians 85 + 2.2e-5) := by
      unfold degrees; exact mul_le_mul_of_nonneg_right key hk.le
    refine this.trans ?_
    have e2 : degrees (radians 85 + 2.2e-5) = 85 + 2.2e-5 * (180 / Real.pi) := by
      unfold degrees radians; field_simp
    rw [e2]
    norm_num at hk1 ⊢; linarith

set_option maxHeartbeats 1000000 in
/-- C134, against the full claim: there is a place within 9° of the equator where at noon UTC on 3 March 2000 it is four and a half minutes
(0.02 rad) before solar noon and yet `is_solar_afternoon` says afternoon, because the rising sun passes 85°, where the refraction formula
drops from five arc seconds to nothing; `get_next_solar_noon` then returns an instant 12 hours away or more. -/
theorem C134_morning_called_afternoon (cal : Calendar) (hcal : Spec.Gregorian cal) :
    ∃ (l : LatLng) (k : ℤ), |degrees l.lat| ≤ 9 ∧ |l.lng| ≤ Real.pi ∧
      sunPhi l.lng 952084800 = 2 * Real.pi * k + Real.pi - 0.02 ∧
      isAfternoon (fun t => (realSun cal l t).el) (952084800 * 1000000) = true ∧
      ∀ n, nextNoon (fun t => (realSun cal l t).el) (952084800 * 1000000) searchDelta = .ok n →
        952084800 * 1000000 + 12 * 3600 * 1000000 ≤ n := by
  have hpi := Real.pi_pos
  have p1 := Real.pi_gt_d4
  have p2 := Real.pi_lt_d4
  set σ : ℝ := 952084800 with hσ
  have i0 : InEra σ := ⟨by rw [hσ]; norm_num, by rw [hσ]; norm_num⟩
  have i1 : InEra (σ + 1) := ⟨by rw [hσ]; norm_num, by rw [hσ]; norm_num⟩
  obtain ⟨S0, S1⟩ := march_declination
  obtain ⟨k, hk⟩ := phase_turn (Real.pi - 0.02 - (2 * Real.pi * ((952084800 : ℝ) / 86400) + eqTime (sunJc 952084800)))
  set lng := Real.pi - 0.02 - (2 * Real.pi * ((952084800 : ℝ) / 86400) + eqTime (sunJc 952084800)) - 2 * Real.pi * k with hlng
  have hφ : sunPhi lng σ = 2 * Real.pi * ((-k : ℤ) : ℝ) + Real.pi - 0.02 := by
    unfold sunPhi
    rw [hlng, hσ]; push_cast; ring
  have hcos : Real.cos (sunPhi lng σ) = -Real.cos 0.02 := by
    rw [(turn_cos _ (-k)).1, hφ, show 2 * Real.pi * ((-k : ℤ) : ℝ) + Real.pi - 0.02 - 2 * Real.pi * ((-k : ℤ) : ℝ) = Real.pi - 0.02 by ring,
      Real.cos_pi_sub]
  have hsin : Real.sin (sunPhi lng σ) = Real.sin 0.02 := by
    rw [(turn_cos _ (-k)).2, hφ, show 2 * Real.pi * ((-k : ℤ) : ℝ) + Real.pi - 0.02 - 2 * Real.pi * ((-k : ℤ) : ℝ) = Real.pi - 0.02 by ring,
      Real.sin_pi_sub]
  have c02 := Real.one_sub_sq_div_two_le_cos (x := 0.02)
  have c02' := Real.cos_le_one 0.02
  have s02 := Real.sin_le (x := 0.02) (by norm_num)
  have s02' := Real.sin_gt_sub_cube (x := 0.02) (by norm_num)
  obtain ⟨q0, q1, q2⟩ := sunS_sqrt i0
  -- the sine of 85°
  have e85 : radians 85 = Real.pi / 2 - radians 5 := by unfold radians; ring
  obtain ⟨r1, r2⟩ := radians_bounds (e := 5) (by norm_num)
  have s85 : Real.sin (radians 85) = Real.cos (radians 5) := by rw [e85, Real.sin_pi_div_two_sub]
  have s85l : 0.9961 ≤ Real.sin (radians 85) := by
    rw [s85]
    have := Real.one_sub_sq_div_two_le_cos (x := radians 5)
    have h2 : radians 5 ^ 2 ≤ 0.0873 ^ 2 := pow_le_pow_left₀ (by norm_num at r1 ⊢; linarith) (by norm_num at r2 ⊢; linarith) 2
    norm_num at this h2 ⊢; linarith
  have s85u : Real.sin (radians 85) ≤ 0.9965 := by
    rw [s85]
    have hb := Real.cos_bound (x := radians 5) (by rw [abs_of_nonneg (by norm_num at r1 ⊢; linarith)]; norm_num at r2 ⊢; linarith)
    rw [abs_of_nonneg (a := radians 5) (by norm_num at r1 ⊢; linarith)] at hb
    have hb := (abs_le.1 hb).2
    have h2 : 0.0872 ^ 2 ≤ radians 5 ^ 2 := pow_le_pow_left₀ (by norm_num) (by norm_num at r1 ⊢; linarith) 2
    have h4 : radians 5 ^ 4 ≤ 0.0873 ^ 4 := pow_le_pow_left₀ (by norm_num at r1 ⊢; linarith) (by norm_num at r2 ⊢; linarith) 4
    norm_num at hb h2 h4 ⊢; linarith
  -- a latitude with the sun at 85°
  have hf : Continuous fun a : ℝ => sunX ⟨a, lng⟩ σ := by
    unfold sunX
    simp only
    fun_prop
  have hδ : Real.arcsin (sunS σ) ≤ 0 := Real.arcsin_nonpos.2 (by norm_num at S1; linarith)
  have Sx : Real.sin (Real.arcsin (sunS σ)) = sunS σ := Real.sin_arcsin (by norm_num at S0; linarith) (by norm_num at S1; linarith)
  have ivt := intermediate_value_Icc' hδ hf.continuousOn
  obtain ⟨a, ⟨a0, a1⟩, ha⟩ := ivt (show Real.sin (radians 85) ∈ _ from by
    constructor
    · -- on the equator the sun is lower
      simp only [sunX, Real.sin_zero, Real.cos_zero, zero_mul, one_mul, zero_sub, hcos]
      rw [mul_neg, neg_neg]
      have : Real.sqrt (1 - sunS σ ^ 2) ≤ 0.994 := by
        rw [Real.sqrt_le_iff]
        constructor
        · norm_num
        · have : 0.111 ^ 2 ≤ sunS σ ^ 2 := by rw [← neg_sq (sunS σ)]; exact pow_le_pow_left₀ (by norm_num) (by linarith) 2
          norm_num at this ⊢; linarith
      have := mul_le_mul this c02' (by norm_num at c02; linarith) (by norm_num)
      norm_num at this s85l ⊢; linarith
    · -- under the sun it is higher
      simp only [sunX, hcos, Sx, Real.cos_arcsin]
      set C := Real.sqrt (1 - sunS σ ^ 2)
      have hC : C * C = 1 - sunS σ ^ 2 := by rw [← q2]; ring
      have : sunS σ * sunS σ - C * C * -Real.cos 0.02 = Real.cos 0.02 + sunS σ ^ 2 * (1 - Real.cos 0.02) := by rw [hC]; ring
      rw [this]
      have : 0 ≤ sunS σ ^ 2 * (1 - Real.cos 0.02) := mul_nonneg (sq_nonneg _) (by linarith)
      norm_num at c02 s85u ⊢; linarith)
  simp only at ha
  set l : LatLng := ⟨a, lng⟩ with hldef
  have δb : -0.15 ≤ Real.arcsin (sunS σ) := by
    rw [Real.le_arcsin_iff_sin_le' ⟨by linarith, by linarith⟩, Real.sin_neg]
    have := Real.sin_gt_sub_cube (x := 0.15) (by norm_num)
    norm_num at this S0 ⊢; linarith
  have hlat : |l.lat| ≤ 0.15 := by
    rw [hldef, abs_le]; exact ⟨by linarith, by simp only; linarith⟩
  have hdeg : |degrees l.lat| ≤ 9 := by
    unfold degrees
    rw [abs_mul, abs_of_pos (show 0 < 180 / Real.pi by positivity), mul_div_assoc', div_le_iff₀ hpi]
    norm_num at hlat p1 ⊢; linarith
  have hT := (nearEquator_of_degrees (hdeg.trans (by norm_num))).tropical
  -- one second later
  have rise : Real.sin (radians 85) < sunX l (σ + 1) ∧ sunX l (σ + 1) ≤ Real.sin (radians 85) + 1.6e-6 := by
    obtain ⟨d0, d1⟩ := second_step l.lng i0 i1
    have hdrop := abs_le.1 (cos_drop (a := sunPhi l.lng σ) d0 d1)
    rw [add_sub_cancel] at hdrop
    have hx := sunX_diff hT i1 i0
    rw [show σ + 1 - σ = 1 by ring, abs_one, ha] at hx
    have hx := abs_le.1 hx
    obtain ⟨P0, P1⟩ := sunP_range hT i0
    have hsin' : Real.sin (sunPhi l.lng σ) = Real.sin 0.02 := hsin
    rw [hsin'] at hdrop
    have m0 : 0.0199 * 7.26e-5 ≤ Real.sin 0.02 * (sunPhi l.lng (σ + 1) - sunPhi l.lng σ) :=
      mul_le_mul (by norm_num at s02' ⊢; linarith) d0 (by norm_num) (by norm_num at s02'; linarith)
    have m1 : Real.sin 0.02 * (sunPhi l.lng (σ + 1) - sunPhi l.lng σ) ≤ 0.02 * 7.3e-5 :=
      mul_le_mul s02 (d1.trans (by norm_num)) (le_trans (by norm_num) d0) (by norm_num)
    generalize Real.sin 0.02 * (sunPhi l.lng (σ + 1) - sunPhi l.lng σ) = m at *
    have g0 : 1.4e-6 ≤ Real.cos (sunPhi l.lng σ) - Real.cos (sunPhi l.lng (σ + 1)) := by norm_num at hdrop m0 ⊢; linarith
    have g1 : Real.cos (sunPhi l.lng σ) - Real.cos (sunPhi l.lng (σ + 1)) ≤ 1.48e-6 := by norm_num at hdrop m1 ⊢; linarith
    generalize Real.cos (sunPhi l.lng σ) - Real.cos (sunPhi l.lng (σ + 1)) = g at *
    have k0 := mul_le_mul P0 g0 (by norm_num) (by norm_num at P0; linarith)
    have k1 := mul_le_mul P1 g1 (by norm_num at g0; linarith) (by norm_num)
    constructor <;> norm_num at k0 k1 hx ⊢ <;> linarith
  have haft : isAfternoon (fun t => (realSun cal l t).el) (952084800 * 1000000) = true := by
    unfold isAfternoon
    rw [decide_eq_true_iff]
    have t1 : ((952084800 * 1000000 + usPerSec : ℤ) / 1000000 : ℤ) = 952084801 := by norm_num [usPerSec]
    simp only
    rw [realSun_el cal hcal l _ (by norm_num [usPerSec]) (by norm_num [usPerSec]), realSun_el cal hcal l _ (by norm_num) (by norm_num), t1,
      show ((952084800 * 1000000 / 1000000 : ℤ) : ℝ) = σ by rw [hσ]; norm_num, show ((952084801 : ℤ) : ℝ) = σ + 1 by rw [hσ]; norm_num, ha]
    obtain ⟨u0, u1⟩ := arcsin_past_85 rise.1 rise.2
    have e1 : degrees (Real.arcsin (Real.sin (radians 85))) = 85 := by
      rw [Real.arcsin_sin (by norm_num at r2 e85 ⊢; linarith) (by norm_num at r1 e85 ⊢; linarith)]
      unfold degrees radians; field_simp
    rw [e1]
    have r85 := refraction_at_85
    unfold apparent
    have : refraction (degrees (Real.arcsin (sunX l (σ + 1)))) = 0 := by unfold refraction; rw [if_pos u0]
    rw [this]
    norm_num at r85 u1 ⊢; linarith
  refine ⟨l, -k, hdeg, hk, hφ, haft, fun n hn => ?_⟩
  unfold nextNoon at hn
  rw [haft, if_pos rfl] at hn
  have := (findSolar_range (by norm_num [searchDelta, usPerSec]) hn).1
  have hh : halfDay = 43200 * 1000000 := by norm_num [halfDay, usPerSec]
  rw [hh] at this; omega

/-- On the equator at 80° west, at noon UTC on 1 January 2000 it is morning, and called so. -/
example : isAfternoon (fun t => (realSun gregorian ⟨0, -1.4⟩ t).el) (946728000 * 1000000) = true ↔
    Real.sin (sunPhi (-1.4) ((946728000 * 1000000 / 1000000 : ℤ) : ℝ)) < 0 :=
  (C134_culminations_partial gregorian gregorian_ok ⟨0, -1.4⟩ (by simp [degrees]) (946728000 * 1000000) (by norm_num) (by norm_num) clear_example).1

end BLE
