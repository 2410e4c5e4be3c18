import Verif.Lemmas.Dawn3
import Verif.Lemmas.Sun7

/-!
# The searches for midnight, noon, sunrise and sunset with the code's own ephemeris
-/

namespace BLE

theorem Halving.congr {f g : ℤ → ℝ} {a b r : ℤ} (h : Halving f a b r) (hfg : ∀ i, a ≤ i → i ≤ b → f i = g i) :
    Halving g a b r := by
  induction h with
  | @left a b r h hf hr ih =>
    refine .left h ?_ (ih fun i h1 h2 => hfg i h1 (by omega))
    rw [← hfg a le_rfl (by omega), ← hfg b (by omega) le_rfl]; exact hf
  | @right a b r h hf hr ih =>
    refine .right h ?_ (ih fun i h1 h2 => hfg i (by omega) h2)
    rw [← hfg a le_rfl (by omega), ← hfg b (by omega) le_rfl]; exact hf
  | @pickLeft a b h hf =>
    refine .pickLeft h ?_
    rw [← hfg a le_rfl (by omega), ← hfg b (by omega) le_rfl]; exact hf
  | @pickRight a b h hf =>
    refine .pickRight h ?_
    rw [← hfg a le_rfl (by omega), ← hfg b (by omega) le_rfl]; exact hf

/-- The search as a halving, over a span of whole steps. -/
theorem findSolar_halving {el : ℤ → ℝ} {tr : ℝ → ℝ} {tmin x N : ℤ}
    (h : findSolar el tr tmin (tmin + 180000000 * N) searchDelta = .ok x) :
    0 < N ∧ ∃ r, x = tmin + 180000000 * r ∧ Halving (fun i => tr (el (tmin + 180000000 * i))) 0 N r := by
  have hsd : searchDelta = 180000000 := by norm_num [searchDelta, usPerSec]
  rw [hsd] at h
  have e : Int.tdiv (tmin + 180000000 * N - tmin) 180000000 = N := by
    rw [add_sub_cancel_left, mul_comm]; exact Int.mul_tdiv_cancel _ (by norm_num)
  unfold findSolar at h
  simp only [e] at h
  split_ifs at h with h1 h2 h3
  simp only [Except.ok.injEq] at h
  have hN : 0 < N := by omega
  exact ⟨hN, _, h.symm, halving_of_search _ _ hN⟩

/-- Within fifteen degrees of the equator. -/
def NearEquator (l : LatLng) : Prop := |l.lat| ≤ Real.pi / 12

theorem NearEquator.tropical {l : LatLng} (h : NearEquator l) : Tropical l := by
  have := Real.pi_pos
  unfold NearEquator at h; unfold Tropical; linarith

theorem nearEquator_trig {l : LatLng} (hl : NearEquator l) : |Real.sin l.lat| ≤ 0.262 ∧ 0.9656 ≤ Real.cos l.lat := by
  have h1 := Real.pi_gt_d4
  have h2 := Real.pi_lt_d4
  have hb : |l.lat| ≤ 0.2618 := hl.trans (by norm_num at *; linarith)
  constructor
  · have := Real.abs_sin_sub_sin_le l.lat 0
    rw [Real.sin_zero, sub_zero, sub_zero] at this
    norm_num at *; linarith
  · rw [← Real.cos_abs]
    have := DawnSeq.cos_ge (abs_nonneg _) hb
    norm_num at *; linarith

theorem nearEquator_amp {l : LatLng} (hl : NearEquator l) {σ : ℝ} (h : InEra σ) :
    |Real.sin l.lat * sunS σ| ≤ 0.1075 ∧ 0.88 ≤ sunP l σ ∧ sunP l σ ≤ 1 := by
  obtain ⟨a, b⟩ := nearEquator_trig hl
  have s := sunS_bound h.1 h.2
  obtain ⟨q0, -, -⟩ := sunS_sqrt h
  refine ⟨?_, ?_, (sunP_range hl.tropical h).2⟩
  · rw [abs_mul]
    have := mul_le_mul a s (abs_nonneg _) (by norm_num)
    norm_num at *; linarith
  · unfold sunP
    have := mul_le_mul b q0 (by norm_num) (by norm_num at *; linarith)
    norm_num at *; linarith

/-! ## Midnight and noon -/

/-- How much `−cos` gains between two phases whose mean is past the culmination. -/
theorem phase_gain {u v n : ℝ} (hn : 1 ≤ n) (hn' : n ≤ 240) (h0 : 0.01308 * n ≤ v - u) (h1 : v - u ≤ 0.0131 * n)
    (hn3 : n ≤ 3 ∨ 4 ≤ n) (e0 : 0.01136 ≤ (u + v) / 2) (e1 : (u + v) / 2 ≤ 1.5) :
    1.8e-5 * n + 1.01e-4 ≤ 0.88 * (Real.cos u - Real.cos v) := by
  have p1 := Real.pi_gt_d4
  have e := Real.cos_sub_cos u v
  set s := (u + v) / 2 with hs
  set D := (v - u) / 2 with hD
  have e' : Real.cos u - Real.cos v = 2 * (Real.sin s * Real.sin D) := by
    rw [e, show (u - v) / 2 = -D by rw [hD]; ring, Real.sin_neg]; ring
  have D0 : 0.00654 * n ≤ D := by rw [hD]; norm_num at *; linarith
  have D1 : D ≤ 0.00655 * n := by rw [hD]; norm_num at *; linarith
  have Dp : 0 < D := by norm_num at *; linarith
  have hsin : 0.01135 ≤ Real.sin s := by
    have := DawnSeq.sin_ge (x := s) (d := 0.01136) (by norm_num) e0 (by norm_num at *; linarith)
    norm_num at *; linarith
  have hsD := Real.sin_gt_sub_cube Dp
  have D3 : D ^ 3 = D ^ 2 * D := by ring
  have hc3 : 0 < D ^ 3 := by positivity
  rw [e']
  rcases hn3 with h3 | h3
  · have D2 : D ^ 2 ≤ 0.02 ^ 2 := pow_le_pow_left₀ Dp.le (by norm_num at *; linarith) 2
    have : D ^ 2 * D ≤ 0.02 ^ 2 * D := mul_le_mul_of_nonneg_right D2 Dp.le
    have k : 0.9998 * D ≤ Real.sin D := by norm_num at *; linarith
    have := mul_le_mul hsin k (by positivity) (by norm_num at *; linarith)
    norm_num at *; linarith
  · have D2 : D ^ 2 ≤ 1.572 ^ 2 := pow_le_pow_left₀ Dp.le (by norm_num at *; linarith) 2
    have : D ^ 2 * D ≤ 1.572 ^ 2 * D := mul_le_mul_of_nonneg_right D2 Dp.le
    have k : 0.38 * D ≤ Real.sin D := by norm_num at *; linarith
    have := mul_le_mul hsin k (by positivity) (by norm_num at *; linarith)
    norm_num at *; linarith

/-- The hour angle at a step count from `σ`. -/
theorem phi_steps (lng : ℝ) {σ τ : ℝ} (h : InEra σ) (h' : InEra τ) {n : ℝ} (hτ : τ = σ + 180 * n) (hn : 0 ≤ n) :
    |sunPhi lng τ - sunPhi lng σ - Real.pi / 240 * n| ≤ 7.2e-6 * n := by
  have r := sunPhi_rate lng h'.1 h'.2 h.1 h.2
  have e : τ - σ = 180 * n := by rw [hτ]; ring
  rw [e, abs_of_nonneg (a := 180 * n) (by positivity)] at r
  rw [show 2 * Real.pi * (180 * n / 86400) = Real.pi / 240 * n by ring] at r
  norm_num at *; linarith

set_option maxHeartbeats 2000000 in
/-- The search for the lowest (`s = 1`) or highest (`s = −1`) sun over twelve hours ends within 0.0214 rad (five minutes)
of the culmination. -/
theorem culmination {l : LatLng} (hl : NearEquator l) {σ m s : ℝ} (hs : s = 1 ∨ s = -1)
    (hm : ∀ x, Real.cos x = s * Real.cos (x - m)) (h0 : InEra σ) (h1 : InEra (σ + 43200))
    (a0 : -Real.pi + 0.19 ≤ sunPhi l.lng σ - m) (a1 : sunPhi l.lng σ - m ≤ -0.19) {r : ℤ}
    (h : Halving (fun i => s * sunEl l (σ + 180 * i)) 0 240 r) : |sunPhi l.lng (σ + 180 * r) - m| ≤ 0.0214 := by
  have p1 := Real.pi_gt_d4
  have p2 := Real.pi_lt_d4
  have hpi := Real.pi_pos
  have era : ∀ i : ℤ, 0 ≤ i → i ≤ 240 → InEra (σ + 180 * (i : ℝ)) := by
    intro i q0 q1
    have q0' : (0 : ℝ) ≤ i := by exact_mod_cast q0
    have q1' : (i : ℝ) ≤ 240 := by exact_mod_cast q1
    exact ⟨by have := h0.1; positivity, by have := h1.2; linarith⟩
  set ψ0 := sunPhi l.lng σ - m with hψ0
  set c := -ψ0 * (240 / Real.pi) with hc
  have hcw : Real.pi / 240 * c = -ψ0 := by rw [hc]; field_simp
  have phase : ∀ i : ℤ, 0 ≤ i → i ≤ 240 →
      |sunPhi l.lng (σ + 180 * (i : ℝ)) - m - Real.pi / 240 * ((i : ℝ) - c)| ≤ 7.2e-6 * i := by
    intro i q0 q1
    have := phi_steps l.lng h0 (era i q0 q1) (n := (i : ℝ)) rfl (by exact_mod_cast q0)
    rw [mul_sub, hcw]
    convert this using 2
    rw [hψ0]; ring
  have hr := h.range
  have hc0 : 0 ≤ c := by
    by_contra hn
    have : Real.pi / 240 * c < 0 := mul_neg_of_pos_of_neg (by positivity) (not_le.1 hn)
    norm_num at *; linarith
  have hc1 : c ≤ 240 := by
    by_contra hn
    have : Real.pi / 240 * 240 < Real.pi / 240 * c := mul_lt_mul_of_pos_left (not_le.1 hn) (by positivity)
    norm_num at *; linarith
  have main : |(r : ℝ) - c| ≤ 1 / 2 + 1 := by
    refine Halving.extremum (f := fun i => s * sunEl l (σ + 180 * i)) (lo := 0) (hi := 240) ?_ h le_rfl le_rfl
      (by push_cast; linarith) (by push_cast; linarith)
    intro a b q0 q1 q2 q3 q4
    have ia := era a q0 (by omega)
    have ib := era b (by omega) q2
    have ka := abs_le.1 (phase a q0 (by omega))
    have kb := abs_le.1 (phase b (by omega) q2)
    have ra := sunX_range l hl.tropical ia
    have rb := sunX_range l hl.tropical ib
    have a0' : (0 : ℝ) ≤ a := by exact_mod_cast q0
    have b1' : (b : ℝ) ≤ 240 := by exact_mod_cast q2
    have ab : (a : ℝ) + 1 ≤ b := by exact_mod_cast q1
    have n3 : (b : ℝ) - a ≤ 3 ∨ 4 ≤ (b : ℝ) - a := by
      rcases (by omega : b - a ≤ 3 ∨ 4 ≤ b - a) with z | z
      · left; exact_mod_cast z
      · right; exact_mod_cast z
    have kab := abs_le.1 (phi_steps l.lng ia ib (n := (b : ℝ) - a) (by ring) (by linarith))
    have hd := sunX_diff hl.tropical ib ia
    rw [show σ + 180 * (b : ℝ) - (σ + 180 * (a : ℝ)) = 180 * ((b : ℝ) - a) by ring,
      abs_of_nonneg (a := 180 * ((b : ℝ) - a)) (by linarith), hm (sunPhi l.lng (σ + 180 * (a : ℝ))),
      hm (sunPhi l.lng (σ + 180 * (b : ℝ))), ← mul_sub] at hd
    have amp := (nearEquator_amp hl ia).2
    generalize sunP l (σ + 180 * (a : ℝ)) = P at *
    have wa : Real.pi / 240 * ((a : ℝ) - c) ≤ 0.0132 := by
      have : Real.pi / 240 * ((a : ℝ) - c) ≤ Real.pi / 240 * 1 := mul_le_mul_of_nonneg_left (by linarith) (by positivity)
      norm_num at *; linarith
    have wb : -0.0132 ≤ Real.pi / 240 * ((b : ℝ) - c) := by
      have : Real.pi / 240 * (-1) ≤ Real.pi / 240 * ((b : ℝ) - c) := mul_le_mul_of_nonneg_left (by linarith) (by positivity)
      norm_num at *; linarith
    have wb2 : Real.pi / 240 * ((b : ℝ) - c) ≤ Real.pi - 0.19 := by
      have : Real.pi / 240 * (b : ℝ) ≤ Real.pi / 240 * 240 := mul_le_mul_of_nonneg_left b1' (by positivity)
      rw [mul_sub, hcw]
      norm_num at *; linarith
    have wa2 : -Real.pi + 0.19 ≤ Real.pi / 240 * ((a : ℝ) - c) := by
      have : 0 ≤ Real.pi / 240 * (a : ℝ) := by positivity
      rw [mul_sub, hcw]
      norm_num at *; linarith
    have st0 : 0.01308 * ((b : ℝ) - a) ≤ sunPhi l.lng (σ + 180 * (b : ℝ)) - sunPhi l.lng (σ + 180 * (a : ℝ)) := by
      have : 0.0130895 * ((b : ℝ) - a) ≤ Real.pi / 240 * ((b : ℝ) - a) := mul_le_mul_of_nonneg_right (by norm_num at *; linarith) (by linarith)
      norm_num at kab this ⊢; linarith
    have st1 : sunPhi l.lng (σ + 180 * (b : ℝ)) - sunPhi l.lng (σ + 180 * (a : ℝ)) ≤ 0.0131 * ((b : ℝ) - a) := by
      have : Real.pi / 240 * ((b : ℝ) - a) ≤ 0.0130905 * ((b : ℝ) - a) := mul_le_mul_of_nonneg_right (by norm_num at *; linarith) (by linarith)
      norm_num at kab this ⊢; linarith
    have hd := abs_le.1 hd
    have da : 7.2e-6 * (a : ℝ) ≤ 0.00173 := by norm_num; linarith
    have db : 7.2e-6 * (b : ℝ) ≤ 0.00173 := by norm_num; linarith
    set u := sunPhi l.lng (σ + 180 * (a : ℝ)) - m with hu
    set v := sunPhi l.lng (σ + 180 * (b : ℝ)) - m with hv
    have st0' : 0.01308 * ((b : ℝ) - a) ≤ v - u := by rw [hu, hv]; linarith
    have st1' : v - u ≤ 0.0131 * ((b : ℝ) - a) := by rw [hu, hv]; linarith
    have key : ∀ z : ℝ, 1.8e-5 * ((b : ℝ) - a) + 1.01e-4 ≤ 0.88 * z → 1.8e-5 * ((b : ℝ) - a) + 1.01e-4 ≤ P * z := by
      intro z hz
      have hzp : 0 ≤ z := by
        have : (0 : ℝ) ≤ (b : ℝ) - a := by linarith
        norm_num at hz; linarith
      exact hz.trans (mul_le_mul_of_nonneg_right amp.1 hzp)
    have wsum : Real.pi / 240 * ((a : ℝ) - c) + Real.pi / 240 * ((b : ℝ) - c) = Real.pi / 240 * (2 * (((a : ℝ) + b) / 2 - c)) := by ring
    constructor
    · intro hgt
      have w3 : Real.pi / 240 * (2 * 1) ≤ Real.pi / 240 * (2 * (((a : ℝ) + b) / 2 - c)) :=
        mul_le_mul_of_nonneg_left (by linarith) (by positivity)
      have g := key _ (phase_gain (u := u) (v := v) (n := (b : ℝ) - a) (by linarith) (by linarith) st0' st1' n3
        (by norm_num at *; linarith) (by norm_num at *; linarith))
      rcases hs with rfl | rfl
      · have := elevation_lt_all (a := sunX l (σ + 180 * (a : ℝ))) (b := sunX l (σ + 180 * (b : ℝ))) ra.1
          (by norm_num at hd g ⊢; linarith) rb.2
        simp only [one_mul]; exact this
      · have := elevation_lt_all (a := sunX l (σ + 180 * (b : ℝ))) (b := sunX l (σ + 180 * (a : ℝ))) rb.1
          (by norm_num at hd g ⊢; linarith) ra.2
        simp only [neg_mul, one_mul, neg_lt_neg_iff]; exact this
    · intro hlt
      have w3 : Real.pi / 240 * (2 * (((a : ℝ) + b) / 2 - c)) ≤ Real.pi / 240 * (2 * (-1)) :=
        mul_le_mul_of_nonneg_left (by linarith) (by positivity)
      have g := phase_gain (u := -v) (v := -u) (n := (b : ℝ) - a) (by linarith) (by linarith) (by linarith) (by linarith) n3
        (by norm_num at *; linarith) (by norm_num at *; linarith)
      rw [Real.cos_neg, Real.cos_neg] at g
      have g := key _ g
      rcases hs with rfl | rfl
      · have := elevation_lt_all (a := sunX l (σ + 180 * (b : ℝ))) (b := sunX l (σ + 180 * (a : ℝ))) rb.1
          (by norm_num at hd g ⊢; linarith) ra.2
        simp only [one_mul]; exact this
      · have := elevation_lt_all (a := sunX l (σ + 180 * (a : ℝ))) (b := sunX l (σ + 180 * (b : ℝ))) ra.1
          (by norm_num at hd g ⊢; linarith) rb.2
        simp only [neg_mul, one_mul, neg_lt_neg_iff]; exact this
  have k := abs_le.1 (phase r hr.1 hr.2)
  have main := abs_le.1 main
  have r1 : (r : ℝ) ≤ 240 := by exact_mod_cast hr.2
  have w1 : Real.pi / 240 * ((r : ℝ) - c) ≤ Real.pi / 240 * 1.5 := mul_le_mul_of_nonneg_left (by norm_num at *; linarith) (by positivity)
  have w2 : Real.pi / 240 * (-1.5) ≤ Real.pi / 240 * ((r : ℝ) - c) := mul_le_mul_of_nonneg_left (by norm_num at *; linarith) (by positivity)
  rw [abs_le]
  constructor <;> norm_num at * <;> linarith

end BLE
