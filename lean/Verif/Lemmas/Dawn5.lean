import Verif.Lemmas.Dawn4

/-!
# Sunrise and sunset with the code's own ephemeris
-/

namespace BLE

/-- The sun between a midnight at about `σ` and the noon after it (`ε = 1`) or before it (`ε = −1`). -/
theorem dawnSeq_of_sun {l : LatLng} (hl : NearEquator l) {σ m ε : ℝ} {N : ℤ} (hε : ε = 1 ∨ ε = -1)
    (hm : ∀ x, Real.cos x = Real.cos (x - m)) (hN : 0 < N) (hN' : N ≤ 480)
    (hera : ∀ i : ℤ, 0 ≤ i → i ≤ 480 → InEra (σ + ε * (180 * i)))
    (h0 : |sunPhi l.lng σ - m| ≤ 0.025) (h1 : |sunPhi l.lng (σ + ε * (180 * N)) - m - ε * Real.pi| ≤ 0.025) :
    DawnSeq (Real.sin l.lat * sunS (σ + ε * (180 * (120 : ℤ)))) (sunP l (σ + ε * (180 * (120 : ℤ))))
      (fun i => ε * (sunPhi l.lng (σ + ε * (180 * i)) - m)) (fun i => sunX l (σ + ε * (180 * i))) N := by
  have i120 := hera 120 (by norm_num) (by norm_num)
  obtain ⟨b1, b2, b3⟩ := nearEquator_amp hl i120
  have hεabs : |ε| = 1 := by rcases hε with rfl | rfl <;> norm_num
  have hεε : ε * ε = 1 := by rcases hε with rfl | rfl <;> norm_num
  have hcos : ∀ i : ℤ, Real.cos (ε * (sunPhi l.lng (σ + ε * (180 * i)) - m)) = Real.cos (sunPhi l.lng (σ + ε * (180 * i))) := by
    intro i
    rw [hm (sunPhi l.lng (σ + ε * (180 * i)))]
    rcases hε with rfl | rfl
    · rw [one_mul]
    · rw [neg_one_mul, Real.cos_neg]
  refine ⟨b1, b2, b3, hN, ?_, ?_, ?_, ?_, ?_, ?_⟩
  · intro i q0 q1
    have d := sunX_diff hl.tropical (hera i q0 (by omega)) i120
    rw [hcos]
    have e1 := sunX_eq l (σ + ε * (180 * (120 : ℤ)))
    rw [show σ + ε * (180 * (i : ℝ)) - (σ + ε * (180 * ((120 : ℤ) : ℝ))) = ε * (180 * ((i : ℝ) - 120)) by push_cast; ring,
      abs_mul, abs_mul, hεabs, abs_of_pos (by norm_num : (0 : ℝ) < 180)] at d
    rw [e1] at d
    rw [show sunX l (σ + ε * (180 * (i : ℝ))) - (Real.sin l.lat * sunS (σ + ε * (180 * ((120 : ℤ) : ℝ))) -
      sunP l (σ + ε * (180 * ((120 : ℤ) : ℝ))) * Real.cos (sunPhi l.lng (σ + ε * (180 * (i : ℝ))))) =
      sunX l (σ + ε * (180 * (i : ℝ))) - (Real.sin l.lat * sunS (σ + ε * (180 * ((120 : ℤ) : ℝ))) -
      sunP l (σ + ε * (180 * ((120 : ℤ) : ℝ))) * Real.cos (sunPhi l.lng (σ + ε * (180 * ((120 : ℤ) : ℝ))))) -
      sunP l (σ + ε * (180 * ((120 : ℤ) : ℝ))) * (Real.cos (sunPhi l.lng (σ + ε * (180 * ((120 : ℤ) : ℝ)))) -
      Real.cos (sunPhi l.lng (σ + ε * (180 * (i : ℝ))))) by ring]
    refine d.trans (le_of_eq ?_)
    ring
  · intro i q0 q1; exact (sunX_range l hl.tropical (hera i q0 (by omega))).1
  · intro i q0 q1; exact (sunX_range l hl.tropical (hera i q0 (by omega))).2
  · intro i j q0 q1 q2
    have q1' : (i : ℝ) ≤ j := by exact_mod_cast q1
    rcases hε with rfl | rfl
    · have := phi_steps l.lng (hera i q0 (by omega)) (hera j (by omega) (by omega)) (n := (j : ℝ) - i) (by ring) (by linarith)
      convert this using 2; ring
    · have := phi_steps l.lng (hera j (by omega) (by omega)) (hera i q0 (by omega)) (n := (j : ℝ) - i) (by ring) (by linarith)
      convert this using 2; ring
  · simp only [Int.cast_zero, mul_zero, add_zero]
    rw [abs_mul, hεabs, one_mul]; exact h0
  · have : ε * (sunPhi l.lng (σ + ε * (180 * (N : ℝ))) - m) - Real.pi =
        ε * (sunPhi l.lng (σ + ε * (180 * (N : ℝ))) - m - ε * Real.pi) := by
      linear_combination Real.pi * hεε
    simp only [this, abs_mul, hεabs, one_mul]; exact h1

/-- The sun at an event (`ε = 1`: sunrise, `ε = −1`: sunset) found by the search. -/
structure SunEvent (l : LatLng) (ε σ : ℝ) : Prop where
  low : -0.116 ≤ sunX l σ
  high : sunX l σ ≤ 0.0415
  later : -0.0027 ≤ sunX l (σ + ε * 1800)
  phase : 0.8 ≤ ε * Real.sin (sunPhi l.lng σ)

theorem event_found {l : LatLng} (hl : NearEquator l) {σ m ε : ℝ} {N r : ℤ} (hε : ε = 1 ∨ ε = -1)
    (hm : ∀ x, Real.cos x = Real.cos (x - m) ∧ Real.sin x = Real.sin (x - m)) (hN : 0 < N) (hN' : N ≤ 480)
    (hera : ∀ i : ℤ, 0 ≤ i → i ≤ 480 → InEra (σ + ε * (180 * i)))
    (hera' : ∀ i : ℤ, 0 ≤ i → i ≤ 480 → InEra (σ + ε * (180 * i) + 86400))
    (h0 : |sunPhi l.lng σ - m| ≤ 0.025) (h1 : |sunPhi l.lng (σ + ε * (180 * N)) - m - ε * Real.pi| ≤ 0.025)
    (h : Halving (fun i => |sunEl l (σ + ε * (180 * i)) - minSolarEl|) 0 N r) :
    SunEvent l ε (σ + ε * (180 * r)) ∧ SunEvent l ε (σ + ε * (180 * r) + 86400) := by
  have S := dawnSeq_of_sun hl hε (fun x => (hm x).1) hN hN' hera h0 h1
  have p1 := Real.pi_gt_d4
  have p2 := Real.pi_lt_d4
  obtain ⟨f1, f2, f3, f4, f5⟩ := S.found (r := r) h
  obtain ⟨n0, n1⟩ := S.N_range
  obtain ⟨t1, t2⟩ := S.climbs_ten f1 f2
  obtain ⟨u1, u2⟩ := S.phase (i := r) (by omega) (by omega)
  have r0 : (89 : ℝ) ≤ r := by exact_mod_cast f1
  have r1 : (r : ℝ) ≤ 137 := by exact_mod_cast f2
  have e10 : σ + ε * (180 * ((r + 10 : ℤ) : ℝ)) = σ + ε * (180 * (r : ℝ)) + ε * 1800 := by push_cast; ring
  rw [e10] at t1 t2
  have later : 0.0095 ≤ sunX l (σ + ε * (180 * (r : ℝ)) + ε * 1800) := by
    rcases f5 with q | ⟨q, q'⟩
    · norm_num at *; linarith
    · have := t2 q q'; norm_num at *; linarith
  have phase : 0.9 ≤ ε * Real.sin (sunPhi l.lng (σ + ε * (180 * (r : ℝ)))) := by
    have e : ε * Real.sin (sunPhi l.lng (σ + ε * (180 * (r : ℝ)))) = Real.sin (ε * (sunPhi l.lng (σ + ε * (180 * (r : ℝ))) - m)) := by
      rw [(hm (sunPhi l.lng (σ + ε * (180 * (r : ℝ))))).2]
      generalize sunPhi l.lng (σ + ε * (180 * (r : ℝ))) - m = x
      rcases hε with rfl | rfl
      · rw [one_mul, one_mul]
      · rw [neg_one_mul, neg_one_mul, Real.sin_neg]
    rw [e, ← Real.cos_sub_pi_div_two, ← Real.cos_abs]
    refine le_trans ?_ (DawnSeq.cos_ge (d := 0.433) (abs_nonneg _) (abs_le.2 ⟨?_, ?_⟩)) <;> norm_num at * <;> linarith
  have day : ∀ τ : ℝ, InEra τ → InEra (τ + 86400) → |sunX l (τ + 86400) - sunX l τ| ≤ 0.0122 := by
    intro τ z z'
    have d := sunX_diff hl.tropical z' z
    rw [show τ + 86400 - τ = 86400 by ring, abs_of_pos (by norm_num : (0 : ℝ) < 86400)] at d
    have r := sunPhi_rate l.lng z'.1 z'.2 z.1 z.2
    rw [show τ + 86400 - τ = 86400 by ring, abs_of_pos (by norm_num : (0 : ℝ) < 86400),
      show 2 * Real.pi * ((86400 : ℝ) / 86400) = 2 * Real.pi by ring] at r
    have c := Real.abs_cos_sub_cos_le (sunPhi l.lng τ) (sunPhi l.lng (τ + 86400) - 2 * Real.pi)
    rw [Real.cos_sub_two_pi, abs_sub_comm (sunPhi l.lng τ),
      show sunPhi l.lng (τ + 86400) - 2 * Real.pi - sunPhi l.lng τ = sunPhi l.lng (τ + 86400) - sunPhi l.lng τ - 2 * Real.pi by ring] at c
    have c := abs_le.1 (c.trans r)
    obtain ⟨-, b2, b3⟩ := nearEquator_amp hl z
    have hPn : 0 ≤ sunP l τ := by norm_num at b2 ⊢; linarith
    have q1 := DawnSeq.scaled_le (c := 0.003456) hPn b3 (by norm_num at *; linarith [c.2] : Real.cos (sunPhi l.lng τ) - Real.cos (sunPhi l.lng (τ + 86400)) ≤ 0.003456) (by norm_num)
    have q2 := DawnSeq.scaled_le (c := 0.003456) hPn b3 (by norm_num at *; linarith [c.1] : -(Real.cos (sunPhi l.lng τ) - Real.cos (sunPhi l.lng (τ + 86400))) ≤ 0.003456) (by norm_num)
    rw [mul_neg] at q2
    have d := abs_le.1 d
    rw [abs_le]
    constructor <;> norm_num at * <;> linarith
  have ir := hera r (by omega) (by omega)
  have ir' := hera' r (by omega) (by omega)
  have it := hera (r + 10) (by omega) (by omega)
  have it' := hera' (r + 10) (by omega) (by omega)
  rw [e10] at it it'
  refine ⟨⟨by norm_num at *; linarith, by norm_num at *; linarith, by norm_num at *; linarith, by norm_num at *; linarith⟩, ?_⟩
  have d1 := abs_le.1 (day _ ir ir')
  have d2 := abs_le.1 (day _ it it')
  have d3 := abs_le.1 (day_phase l.lng ir ir').2
  rw [show σ + ε * (180 * (r : ℝ)) + ε * 1800 + 86400 = σ + ε * (180 * (r : ℝ)) + 86400 + ε * 1800 by ring] at d2
  refine ⟨by norm_num at *; linarith, by norm_num at *; linarith, by norm_num at *; linarith, ?_⟩
  rcases hε with rfl | rfl <;> norm_num at * <;> linarith

/-- The elevations at a sunrise or sunset that was found. -/
theorem SunEvent.elevation {l : LatLng} {ε σ : ℝ} (hl : NearEquator l) (E : SunEvent l ε σ) (h : InEra σ) (h' : InEra (σ + ε * 1800)) :
    -7 ≤ sunEl l σ ∧ sunEl l σ ≤ 3.1 ∧ 0 ≤ sunEl l (σ + ε * 1800) := by
  obtain ⟨r0, r1⟩ := sunX_range l hl.tropical h
  obtain ⟨q0, q1⟩ := sunX_range l hl.tropical h'
  have elo := E.low
  have ehi := E.high
  have ela := E.later
  have g1 := elOf_geo (sunX l σ)
  refine ⟨?_, ?_, ?_⟩
  · have e : elOf (sunX l σ) = sunEl l σ := rfl
    rw [← e]
    rcases le_or_gt 0 (sunX l σ) with z | z
    · have := (deg_of_sine r0 r1).1 0 le_rfl z
      norm_num at *; linarith
    · have := abs_le.1 ((deg_of_sine r0 r1).2.2.1 0.116 (by norm_num) (by norm_num) (abs_le.2 ⟨elo, by norm_num at *; linarith⟩))
      norm_num at *; linarith
  · have e : elOf (sunX l σ) = sunEl l σ := rfl
    rw [← e]
    rcases le_or_gt (sunX l σ) (-0.01) with z | z
    · have := (deg_of_sine r0 r1).2.1 0.01 (by norm_num) z
      norm_num at *; linarith
    · have := abs_le.1 ((deg_of_sine r0 r1).2.2.1 0.0415 (by norm_num) (by norm_num) (abs_le.2 ⟨by norm_num at *; linarith, ehi⟩))
      norm_num at *; linarith
  · have g2 := elOf_geo (sunX l (σ + ε * 1800))
    have e : elOf (sunX l (σ + ε * 1800)) = sunEl l (σ + ε * 1800) := rfl
    rw [← e]
    rcases le_or_gt 0 (sunX l (σ + ε * 1800)) with z | z
    · have := (deg_of_sine q0 q1).1 0 le_rfl z
      norm_num at *; linarith
    · have k := abs_le.1 ((deg_of_sine q0 q1).2.2.1 0.0027 (by norm_num) (by norm_num) (abs_le.2 ⟨ela, by norm_num at *; linarith⟩))
      have k2 := (deg_of_sine q0 q1).2.1 0 le_rfl (by linarith)
      unfold elOf apparent
      generalize degrees (Real.arcsin (sunX l (σ + ε * 1800))) = d at *
      rw [refraction_two (by norm_num at *; linarith) (by norm_num at *; linarith)]
      have hd0 : d ≤ 0 := by linarith
      have hd1 : -0.16 ≤ d := by norm_num at *; linarith
      have e2 : refr2 d = 1735 + (-d) * 518.2 + d ^ 2 * (103.4 + (-d) * 12.79 + d ^ 2 * 0.711) := by unfold refr2; ring
      have : 1735 ≤ refr2 d := by
        rw [e2]
        have h1 : 0 ≤ (-d) * 518.2 := mul_nonneg (by linarith) (by norm_num)
        have h2 : 0 ≤ (-d) * 12.79 := mul_nonneg (by linarith) (by norm_num)
        have h3 : 0 ≤ d ^ 2 * (103.4 + (-d) * 12.79 + d ^ 2 * 0.711) := by positivity
        linarith
      norm_num at *; linarith

end BLE
