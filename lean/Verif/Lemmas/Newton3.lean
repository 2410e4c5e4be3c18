import Verif.Lemmas.Newton2

/-!
# Convergence of the Newton iteration of the cold start, continued
-/

namespace BLE

/-- The average slope of the radiated flux is at least half the slope at the warm end. -/
theorem radiated_half {R s : ℝ} (hR : 213 ≤ R) (hs : R ≤ s) (hs' : s ≤ 292) :
    0.5 * (s - R) * radiated' s ≤ radiated s - radiated R := by
  rw [radiated_poly, radiated_poly, radiated']
  have hC : 0 ≤ stefanBoltzmann / 0.9709 := by norm_num [stefanBoltzmann]
  generalize stefanBoltzmann / 0.9709 = C at *
  have s0 : 0 ≤ s := by linarith
  have r0 : 0 ≤ R := by linarith
  have hr : 0.729 * s ≤ R := by norm_num at *; linarith
  -- the three sums of products
  have q1 : 0.729 * s * s ≤ R * s := mul_le_mul_of_nonneg_right hr s0
  have q2 : 0.5314 * (s * s) ≤ R * R := by
    have := mul_le_mul hr hr (by positivity) r0
    nlinarith [mul_nonneg s0 s0]
  have q3 : 0.3873 * (s * s * s) ≤ R * R * R := by
    have := mul_le_mul q2 hr (by positivity) (by positivity)
    have : 0 ≤ s * s * s := by positivity
    norm_num at *; linarith
  have q4 : 0.2823 * (s * s * s * s) ≤ R * R * R * R := by
    have := mul_le_mul q3 hr (by positivity) (by positivity)
    have : 0 ≤ s * s * s * s := by positivity
    norm_num at *; linarith
  have e5 : 2.93 * s ^ 4 ≤ s ^ 4 + s ^ 3 * R + s ^ 2 * R ^ 2 + s * R ^ 3 + R ^ 4 := by
    have a1 := mul_le_mul_of_nonneg_left hr (show 0 ≤ s ^ 3 by positivity)
    have a2 := mul_le_mul_of_nonneg_left q2 (show 0 ≤ s ^ 2 by positivity)
    have a3 := mul_le_mul_of_nonneg_left q3 s0
    nlinarith [show (0 : ℝ) ≤ s ^ 4 by positivity]
  have t1 : R ^ 2 ≤ s ^ 2 := pow_le_pow_left₀ r0 hs 2
  have t2 : R ^ 3 ≤ s ^ 3 := pow_le_pow_left₀ r0 hs 3
  have t3 : R ^ 4 ≤ s ^ 4 := pow_le_pow_left₀ r0 hs 4
  have t4 : R ^ 5 ≤ s ^ 5 := pow_le_pow_left₀ r0 hs 5
  have e6 : s ^ 5 + s ^ 4 * R + s ^ 3 * R ^ 2 + s ^ 2 * R ^ 3 + s * R ^ 4 + R ^ 5 ≤ 6 * s ^ 5 := by
    have a1 := mul_le_mul_of_nonneg_left hs (show 0 ≤ s ^ 4 by positivity)
    have a2 := mul_le_mul_of_nonneg_left t1 (show 0 ≤ s ^ 3 by positivity)
    have a3 := mul_le_mul_of_nonneg_left t2 (show 0 ≤ s ^ 2 by positivity)
    have a4 := mul_le_mul_of_nonneg_left t3 s0
    nlinarith
  have e4 : s ^ 3 + s ^ 2 * R + s * R ^ 2 + R ^ 3 ≤ 4 * s ^ 3 := by
    have a1 := mul_le_mul_of_nonneg_left hs (show 0 ≤ s ^ 2 by positivity)
    have a2 := mul_le_mul_of_nonneg_left t1 s0
    nlinarith
  have key : 0 ≤ -0.000000053824 * (6 * s ^ 5 - 3 * s ^ 5) + 0.0004518200 * (2.93 * s ^ 4 - 2.5 * s ^ 4) -
      0.0055422525 * (4 * s ^ 3 - 2 * s ^ 3) := by
    have e : -0.000000053824 * (6 * s ^ 5 - 3 * s ^ 5) + 0.0004518200 * (2.93 * s ^ 4 - 2.5 * s ^ 4) -
      0.0055422525 * (4 * s ^ 3 - 2 * s ^ 3) = s ^ 3 * (-0.000000161472 * s ^ 2 + 0.0001942826 * s - 0.011084505) := by ring
    rw [e]
    refine mul_nonneg (by positivity) ?_
    nlinarith [mul_nonneg (show 0 ≤ s - 213 by linarith) (show 0 ≤ 292 - s by linarith)]
  have fin : 0 ≤ (s - R) * (-0.000000053824 * ((s ^ 5 + s ^ 4 * R + s ^ 3 * R ^ 2 + s ^ 2 * R ^ 3 + s * R ^ 4 + R ^ 5) - 3 * s ^ 5) +
      0.0004518200 * ((s ^ 4 + s ^ 3 * R + s ^ 2 * R ^ 2 + s * R ^ 3 + R ^ 4) - 2.5 * s ^ 4) -
      0.0055422525 * ((s ^ 3 + s ^ 2 * R + s * R ^ 2 + R ^ 3) - 2 * s ^ 3)) := by
    refine mul_nonneg (by linarith) ?_
    linarith
  have := mul_nonneg hC fin
  linarith [this]

variable {k G ta c : ℝ}

theorem balance_slope (hk : 0 ≤ k) (hG : 0 ≤ G) (hta : 176.7 ≤ ta) {x y : ℝ} (hx : ta ≤ x) (hxy : x ≤ y) (hy : y ≤ 900) :
    0.118 * (y - x) ≤ balance k G ta c y - balance k G ta c x := by
  have h1 := radiated_slope_ge (a := 176.7) (by norm_num) (hta.trans hx) hxy hy
  have h2 : (0.118 : ℝ) ≤ radiated' 176.7 := by norm_num [radiated', stefanBoltzmann]
  have h3 := mul_le_mul_of_nonneg_right h2 (sub_nonneg.2 hxy)
  unfold balance
  rw [abs_of_nonneg (by linarith), abs_of_nonneg (by linarith)]
  have h4 : nusseltOf G (x - ta) * (x - ta) ≤ nusseltOf G (y - ta) * (y - ta) :=
    mul_le_mul (nusseltOf_mono hG (by linarith) (by linarith)) (by linarith) (by linarith)
      (nusseltOf_nonneg hG (by linarith))
  have := mul_le_mul_of_nonneg_left h4 hk
  nlinarith

theorem balance_strict (hk : 0 ≤ k) (hG : 0 ≤ G) (hta : 176.7 ≤ ta) (x y : ℝ) (hx : ta ≤ x) (hxy : x < y) (hy : y ≤ 900) :
    balance k G ta c x < balance k G ta c y := by
  have := balance_slope (c := c) hk hG hta hx hxy.le hy
  nlinarith

theorem balance_chord (hk : 0 ≤ k) (hG : 0 ≤ G) (hta : 176.7 ≤ ta) {t : ℝ} (h1 : ta ≤ t - 0.005) (h2 : t + 0.005 ≤ 900) :
    0.118 ≤ chordSlope (balance k G ta c) t := by
  have := balance_slope (c := c) hk hG hta h1 (show t - 0.005 ≤ t + 0.005 by linarith) h2
  unfold chordSlope
  rw [le_div_iff₀ (by norm_num)]
  linarith

/-- Right of a point where the balance is non-negative, a step halves the distance. -/
theorem step_halves (hk : 0 ≤ k) (hG : 0 ≤ G) (hta : 176.7 ≤ ta) {R t : ℝ} (hR : 213 ≤ R) (hR' : ta + 1 ≤ R)
    (hg : 0 ≤ balance k G ta c R) (ht : R + 0.005 ≤ t) (ht' : t ≤ 291) :
    0.5 * (t - R - 0.005) * chordSlope (balance k G ta c) t ≤ chordMean (balance k G ta c) t := by
  have hr := radiated_half hR (s := t + 0.005) (by linarith) (by linarith)
  have hs := radiated_slope_le (b := t + 0.005) (x := t - 0.005) (y := t + 0.005) (by linarith) (by linarith) le_rfl (by linarith)
  have hl := nusselt_lip (x := t - 0.005 - ta) (y := t + 0.005 - ta) hG (by linarith) (by linarith)
  have hm := nusseltOf_mono (x := R - ta) (y := t + 0.005 - ta) hG (by linarith) (by linarith)
  have hn := nusseltOf_nonneg (x := R - ta) hG (by linarith)
  rw [chord_right]
  unfold chordSlope
  unfold balance at hg ⊢
  rw [abs_of_nonneg (by linarith)] at hg
  rw [abs_of_nonneg (by linarith), abs_of_nonneg (by linarith)]
  generalize nusseltOf G (t - 0.005 - ta) = n1 at *
  generalize nusseltOf G (t + 0.005 - ta) = n2 at *
  generalize nusseltOf G (R - ta) = n3 at *
  generalize radiated' (t + 0.005) = r' at *
  generalize radiated (t + 0.005) = r2 at *
  generalize radiated (t - 0.005) = r1 at *
  generalize radiated R = rR at *
  have hl' := mul_le_mul_of_nonneg_left hl hk
  have hm' := mul_le_mul_of_nonneg_right (mul_le_mul_of_nonneg_left hm hk) (show 0 ≤ R - ta by linarith)
  have hkn2 : 0 ≤ k * n2 := mul_nonneg hk (hn.trans hm)
  -- the slope is at most the sum of the two slopes
  have hD : (k * n2 * (t + 0.005 - ta) + r2 - c - (k * n1 * (t - 0.005 - ta) + r1 - c)) / (2 * 0.005) ≤ 1.25 * (k * n2) + r' := by
    rw [div_le_iff₀ (by norm_num)]
    rw [show t + 0.005 - ta - (t - 0.005 - ta) = 2 * 0.005 by ring] at hl'
    rw [show t + 0.005 - (t - 0.005) = 2 * 0.005 by ring] at hs
    linarith
  generalize (k * n2 * (t + 0.005 - ta) + r2 - c - (k * n1 * (t - 0.005 - ta) + r1 - c)) / (2 * 0.005) = D at *
  have h5 := mul_le_mul_of_nonneg_left hD (show 0 ≤ 0.5 * (t + 0.005 - R) by linarith)
  have h6 : 0 ≤ (k * n2) * (t + 0.005 - R) := mul_nonneg hkn2 (by linarith)
  nlinarith

/-- Just left of a point where the balance is non-negative, a step overshoots by little. -/
theorem step_small (hk : 0 ≤ k) (hG : 0 ≤ G) (hta : 176.7 ≤ ta) (hta' : ta ≤ 212) (hN : k * nusseltOf G 45 ≤ 0.8) {t : ℝ}
    (h1 : ta + 0.005 ≤ t) (h2 : t ≤ ta + 44) (hg : 0 ≤ balance k G ta c (t + 0.01)) :
    newtonStep (balance k G ta c) t ≤ t + 0.22 := by
  have hd := balance_chord (c := c) hk hG hta (t := t) (by linarith) (by linarith)
  have hs := radiated_slope_le (b := 257) (x := t - 0.005) (y := t + 0.01) (by linarith) (by linarith)
    (by norm_num at *; linarith) (by linarith)
  have hs' : radiated' 257 ≤ 0.54 := by norm_num [radiated', stefanBoltzmann]
  have hl := nusselt_lip (x := t - 0.005 - ta) (y := t + 0.01 - ta) hG (by linarith) (by linarith)
  have hm := nusseltOf_mono (x := t + 0.01 - ta) (y := 45) hG (by linarith) (by norm_num at *; linarith)
  have hl' := mul_le_mul_of_nonneg_left hl hk
  have hm' := mul_le_mul_of_nonneg_left hm hk
  have hlow : -0.0255 ≤ chordMean (balance k G ta c) t := by
    have h3 : balance k G ta c (t - 0.005) ≤ balance k G ta c (t + 0.005) :=
      (balance_strict hk hG hta _ _ (by linarith) (by linarith) (by linarith)).le
    have h4 : balance k G ta c (t - 0.005) ≤ chordMean (balance k G ta c) t := by unfold chordMean; linarith
    refine le_trans ?_ h4
    unfold balance at hg ⊢
    rw [abs_of_nonneg (by linarith)] at hg ⊢
    have e : t + 0.01 - ta - (t - 0.005 - ta) = 0.015 := by norm_num
    have e' : t + 0.01 - (t - 0.005) = 0.015 := by norm_num
    rw [e] at hl'
    rw [e'] at hs
    norm_num at *
    linarith
  unfold newtonStep
  have : -(chordMean (balance k G ta c) t / chordSlope (balance k G ta c) t) ≤ 0.22 := by
    rw [← neg_div, div_le_iff₀ (by linarith)]
    linarith
  linarith

/-- One unfolding of the Newton loop. -/
theorem newtonLoop_succ {f : ℝ → Except Err ℝ} {g : ℝ → ℝ} {K t : ℝ} (hK : 0 < K)
    (e1 : f (t - 0.005) = .ok (-(K * g (t - 0.005)))) (e2 : f (t + 0.005) = .ok (-(K * g (t + 0.005))))
    (hd : 0 < chordSlope g t) (m : ℕ) :
    newtonLoop f (m + 1) t = if |K * chordMean g t| < 1e-5 then .ok (newtonStep g t) else newtonLoop f m (newtonStep g t) := by
  have ed : (0.01 / 2 : ℝ) = 0.005 := by norm_num
  rw [newtonLoop]
  simp only [bind, Except.bind, ed, e1, e2]
  have hdd : (-(K * g (t + 0.005)) - -(K * g (t - 0.005))) / 0.01 = -(K * chordSlope g t) := by
    rw [show (0.01 : ℝ) = 2 * 0.005 by norm_num]; unfold chordSlope; ring
  have hmm : (-(K * g (t - 0.005)) + -(K * g (t + 0.005))) / 2 = -(K * chordMean g t) := by unfold chordMean; ring
  rw [hdd, hmm]
  have hq : -(K * chordMean g t) / -(K * chordSlope g t) = chordMean g t / chordSlope g t := by
    rw [neg_div_neg_eq, mul_div_mul_left _ _ hK.ne']
  have hif : (if |-(K * chordSlope g t)| > 0 then t - -(K * chordMean g t) / -(K * chordSlope g t) else t) = newtonStep g t := by
    rw [if_pos (by rw [abs_neg]; exact abs_pos.2 (mul_pos hK hd).ne'), hq]; rfl
  rw [hif, abs_neg]
  rfl

/-- When the loop stops early, the temperature is close. -/
theorem step_exit (hk : 0 ≤ k) (hG : 0 ≤ G) (hta : 176.7 ≤ ta) {R t K : ℝ} (hR : 213 ≤ R) (hR' : ta + 1 ≤ R)
    (hg : 0 ≤ balance k G ta c R) (hK : 0.002 ≤ K) (h1 : ta + 0.005 ≤ t) (h2 : t ≤ 291)
    (hex : |K * chordMean (balance k G ta c) t| < 1e-5) : newtonStep (balance k G ta c) t ≤ R + 0.22 := by
  have hd := balance_chord (c := c) hk hG hta (t := t) (by linarith) (by linarith)
  have hm : |chordMean (balance k G ta c) t| < 0.005 := by
    rw [abs_mul, abs_of_pos (by linarith)] at hex
    have := mul_le_mul_of_nonneg_right hK (abs_nonneg (chordMean (balance k G ta c) t))
    norm_num at *
    linarith
  obtain ⟨m1, m2⟩ := abs_lt.1 hm
  have hst : newtonStep (balance k G ta c) t ≤ t + 0.05 := by
    unfold newtonStep
    have : -(chordMean (balance k G ta c) t / chordSlope (balance k G ta c) t) ≤ 0.05 := by
      rw [← neg_div, div_le_iff₀ (by linarith)]
      linarith
    linarith
  rcases le_or_gt t (R + 0.005) with h | h
  · linarith
  · have := step_halves hk hG hta hR hR' hg h.le h2
    have h3 := mul_le_mul_of_nonneg_left hd (show 0 ≤ 0.5 * (t - R - 0.005) by linarith)
    norm_num at *
    linarith

/-- The Newton loop converges from the right. -/
theorem newtonLoop_converges (hk : 0 ≤ k) (hG : 0 ≤ G) (hta : 176.7 ≤ ta) (hta' : ta ≤ 212) (hN : k * nusseltOf G 45 ≤ 0.8)
    {R K : ℝ} (hR : 213 ≤ R) (hR1 : ta + 1 ≤ R) (hR2 : R ≤ ta + 43) (hg : 0 ≤ balance k G ta c R) (hK : 0.002 ≤ K)
    {δ : ℝ} (hδ : 0.005 ≤ δ) (hδ' : δ ≤ 0.4)
    (hL : balance k G ta c (ta + δ + 0.01) ≤ 0) (f : ℝ → Except Err ℝ)
    (hf : ∀ t, ta ≤ t → t ≤ 900 → f t = .ok (-(K * balance k G ta c t))) (m : ℕ) (t E : ℝ) (hE : 0 ≤ E)
    (h1 : ta + δ ≤ t) (h2 : t ≤ 291) (h3 : 0 ≤ balance k G ta c (t + 0.01)) (h4 : t ≤ R + 0.005 + max 0.23 E) :
    ∃ t', newtonLoop f m t = .ok t' ∧ ta + δ ≤ t' ∧ t' ≤ R + 0.005 + max 0.23 (E / 2 ^ m) := by
  induction m generalizing t E with
  | zero => exact ⟨t, rfl, h1, by simpa using h4⟩
  | succ m ih =>
    have hd := balance_chord (c := c) hk hG hta (t := t) (by linarith) (by linarith)
    rw [newtonLoop_succ (by linarith) (hf _ (by linarith) (by linarith)) (hf _ (by linarith) (by linarith)) (by linarith)]
    have hge := (step_ge (balance_convex (c := c) hk hG (by linarith)) (balance_strict hk hG hta) (t := t)
      (by linarith) (by linarith) (show ta ≤ ta + δ by linarith) h1 (by norm_num at *; linarith) hL).1
    split_ifs with hex
    · refine ⟨_, rfl, hge, ?_⟩
      have := step_exit hk hG hta hR hR1 hg hK (by linarith) h2 hex
      have := le_max_left (0.23 : ℝ) (E / 2 ^ (m + 1))
      linarith
    · have hle : newtonStep (balance k G ta c) t ≤ 291 ∧ newtonStep (balance k G ta c) t ≤ R + 0.005 + max 0.23 (E / 2) := by
        rcases le_or_gt t (R + 0.005) with h | h
        · have := step_small (c := c) hk hG hta hta' hN (by linarith) (by norm_num at *; linarith) h3
          have hM := le_max_left (0.23 : ℝ) (E / 2)
          generalize max 0.23 (E / 2) = M at hM ⊢
          constructor <;> norm_num at * <;> linarith
        · have hh := step_halves hk hG hta hR hR1 hg h.le h2
          have hq : 0.5 * (t - R - 0.005) ≤ chordMean (balance k G ta c) t / chordSlope (balance k G ta c) t :=
            (le_div_iff₀ (by linarith)).2 hh
          unfold newtonStep
          constructor
          · norm_num at *; linarith
          · have : t - R - 0.005 ≤ max 0.23 E := by linarith
            rcases max_cases (0.23 : ℝ) E with ⟨e, _⟩ | ⟨e, _⟩
            · have hM := le_max_left (0.23 : ℝ) (E / 2)
              generalize max 0.23 (E / 2) = M at hM ⊢
              rw [e] at this
              norm_num at *; linarith
            · have hM := le_max_right (0.23 : ℝ) (E / 2)
              generalize max 0.23 (E / 2) = M at hM ⊢
              rw [e] at this
              norm_num at *; linarith
      have hr := step_right (balance_convex (c := c) hk hG (by linarith)) (balance_strict hk hG hta) (t := t)
        (by linarith) (by linarith) (by linarith) (by linarith [hle.1])
      obtain ⟨t', e, a, b⟩ := ih _ (E / 2) (by linarith) hge hle.1 hr hle.2
      refine ⟨t', e, a, ?_⟩
      rwa [div_div, ← pow_succ'] at b

end BLE
