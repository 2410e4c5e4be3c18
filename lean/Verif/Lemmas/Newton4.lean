import Verif.Lemmas.Newton3

/-!
# Convergence of the Newton iteration of the cold start: the first steps
-/

namespace BLE

variable {k G ta c : ℝ}

/-- Decomposition of the chord into its convective and its radiative part. -/
theorem chord_split (hk : 0 ≤ k) (hG : 0 ≤ G) (t : ℝ) : ∃ mh dh mr dr,
    chordMean (balance k G ta c) t = mh + mr - c ∧ chordSlope (balance k G ta c) t = dh + dr ∧
    mr = (radiated (t - 0.005) + radiated (t + 0.005)) / 2 ∧
    dr = (radiated (t + 0.005) - radiated (t - 0.005)) / (2 * 0.005) ∧
    mh = (k * nusseltOf G |t - ta - 0.005| * (t - ta - 0.005) + k * nusseltOf G |t - ta + 0.005| * (t - ta + 0.005)) / 2 ∧
    dh = (k * nusseltOf G |t - ta + 0.005| * (t - ta + 0.005) - k * nusseltOf G |t - ta - 0.005| * (t - ta - 0.005)) / (2 * 0.005) ∧
    0 ≤ dh ∧ (0.005 ≤ t - ta → 0 ≤ mh) ∧ (t - ta < 0.005 → -mh ≤ (0.01 - (t - ta)) * dh) ∧
    (-0.005 < t - ta → mh ≤ (t - ta + 0.01) * dh) ∧ (t - ta ≤ -0.005 → mh ≤ 0) := by
  obtain ⟨s1, s2, s3, s4, s5⟩ := convective_secant (nusseltOf G) (fun x hx => nusseltOf_nonneg hG hx)
    (fun x y hx hxy => nusseltOf_mono hG hx hxy) k 0.005 (t - ta) hk (by norm_num) _ _ rfl rfl
  rw [show (2 * 0.005 : ℝ) = 0.01 by norm_num] at s3 s4
  refine ⟨_, _, _, _, ?_, ?_, rfl, rfl, rfl, rfl, div_nonneg (by linarith) (by norm_num), s2, ?_, ?_, s5⟩
  · unfold chordMean balance
    rw [show t - 0.005 - ta = t - ta - 0.005 by ring, show t + 0.005 - ta = t - ta + 0.005 by ring]
    ring
  · unfold chordSlope balance
    rw [show t - 0.005 - ta = t - ta - 0.005 by ring, show t + 0.005 - ta = t - ta + 0.005 by ring]
    ring
  · intro h
    have := s3 h
    rwa [show (0.01 : ℝ) = 2 * 0.005 by norm_num] at this ⊢
  · intro h
    have := s4 h
    rwa [show (0.01 : ℝ) = 2 * 0.005 by norm_num] at this ⊢

theorem radiated_step {t : ℝ} (h1 : 206 ≤ t) (h2 : t ≤ 291) :
    0.219 ≤ (radiated (t + 0.005) - radiated (t - 0.005)) / (2 * 0.005) ∧
    8.964 + 0.219 * (t - 206) ≤ (radiated (t - 0.005) + radiated (t + 0.005)) / 2 := by
  have e1 : (0.219 : ℝ) ≤ radiated' 205.995 := by norm_num [radiated', stefanBoltzmann]
  have e2 : (8.964 : ℝ) ≤ radiated 205.995 := by rw [radiated_poly]; norm_num [stefanBoltzmann]
  have a1 := radiated_slope_ge (a := 205.995) (x := t - 0.005) (y := t + 0.005) (by norm_num) (by norm_num at *; linarith)
    (by linarith) (by linarith)
  have a2 := radiated_slope_ge (a := 205.995) (x := 205.995) (y := t - 0.005) (by norm_num) le_rfl
    (by norm_num at *; linarith) (by linarith)
  have a3 := mul_le_mul_of_nonneg_right e1 (show 0 ≤ t + 0.005 - (t - 0.005) by linarith)
  have a4 := mul_le_mul_of_nonneg_right e1 (show 0 ≤ t - 0.005 - 205.995 by norm_num at *; linarith)
  constructor
  · rw [le_div_iff₀ (by norm_num)]; linarith
  · norm_num at *; linarith

/-- No step from 206 K or above goes beyond 290 K, unless it started there. -/
theorem step_le (hk : 0 ≤ k) (hG : 0 ≤ G) (hta : ta ≤ 212) (hc : c ≤ 27.2) {t : ℝ} (h1 : 206 ≤ t) (h2 : t ≤ 290) :
    0.219 ≤ chordSlope (balance k G ta c) t ∧ newtonStep (balance k G ta c) t ≤ 290 := by
  obtain ⟨mh, dh, mr, dr, hm, hd, emr, edr, -, -, d0, s2, s3, -, -⟩ := chord_split (ta := ta) (c := c) hk hG t
  obtain ⟨r1, r2⟩ := radiated_step h1 (by linarith)
  rw [← edr] at r1
  rw [← emr] at r2
  unfold newtonStep
  rw [hm, hd]
  refine ⟨by linarith, ?_⟩
  have hpos : 0 < dh + dr := by linarith
  have hrad : c - mr ≤ (290 - t) * dr := by
    have : (290 - t) * 0.219 ≤ (290 - t) * dr := mul_le_mul_of_nonneg_left r1 (by linarith)
    norm_num at *; linarith
  have hconv : -mh ≤ (290 - t) * dh := by
    rcases le_or_gt 0.005 (t - ta) with h | h
    · have := s2 h
      have : 0 ≤ (290 - t) * dh := mul_nonneg (by linarith) d0
      linarith
    · have := s3 h
      have : (0.01 - (t - ta)) * dh ≤ (290 - t) * dh := mul_le_mul_of_nonneg_right (by norm_num at *; linarith) d0
      linarith
  have : -((mh + mr - c) / (dh + dr)) ≤ 290 - t := by
    rw [← neg_div, div_le_iff₀ hpos]
    linarith
  linarith

/-- Chord slopes of the convective exchange on an interval. -/
theorem convective_lip (hk : 0 ≤ k) (hG : 0 ≤ G) {x y Y : ℝ} (hx : -Y ≤ x) (hxy : x ≤ y) (hy : y ≤ Y) :
    k * nusseltOf G |y| * y - k * nusseltOf G |x| * x ≤ 1.25 * (k * nusseltOf G Y) * (y - x) := by
  have hY : 0 ≤ Y := by linarith
  have nY := mul_nonneg hk (nusseltOf_nonneg hG hY)
  have up : ∀ a b, 0 ≤ a → a ≤ b → b ≤ Y → k * nusseltOf G b * b - k * nusseltOf G a * a ≤
      1.25 * (k * nusseltOf G Y) * (b - a) := by
    intro a b ha hab hb
    have h1 := mul_le_mul_of_nonneg_left (nusselt_lip hG ha hab) hk
    have h2 := mul_le_mul_of_nonneg_right (mul_le_mul_of_nonneg_left (nusseltOf_mono hG (ha.trans hab) hb) hk)
      (sub_nonneg.2 hab)
    linarith
  rcases le_or_gt 0 x with h | h
  · rw [abs_of_nonneg h, abs_of_nonneg (h.trans hxy)]
    exact up x y h hxy hy
  · rw [abs_of_neg h]
    rcases le_or_gt 0 y with h' | h'
    · rw [abs_of_nonneg h']
      have a1 := up 0 y le_rfl h' hy
      have a2 := up 0 (-x) le_rfl (by linarith) (by linarith)
      linarith
    · rw [abs_of_neg h']
      have a1 := up (-y) (-x) (by linarith) (by linarith) (by linarith)
      linarith

/-- From 206 K, if the air is warmer than that, the first step lands above the ambient temperature. -/
theorem first_step (hk : 0 ≤ k) (hG : 0 ≤ G) {δ : ℝ} (hδ : 0.005 ≤ δ) (hδ' : δ ≤ 0.4)
    (hta : 206 < ta + δ) (hta' : ta + δ ≤ 211.405) (hc : 11.08 ≤ c)
    (hN : k * nusseltOf G 6.1 ≤ 0.5) (hd0 : 0 < chordSlope (balance k G ta c) 206) :
    ta + δ ≤ newtonStep (balance k G ta c) 206 := by
  obtain ⟨mh, dh, mr, dr, hm, hd, emr, edr, emh, edh, d0, s2, s3, s4, s5⟩ := chord_split (ta := ta) (c := c) hk hG 206
  have hmr : mr ≤ 8.968 := by
    rw [emr, radiated_poly, radiated_poly]; norm_num [stefanBoltzmann]
  have hdr : dr ≤ 0.2194 := by
    rw [edr, radiated_poly, radiated_poly]; norm_num [stefanBoltzmann]
  have hdr0 : 0 ≤ dr := by
    rw [edr, radiated_poly, radiated_poly]; norm_num [stefanBoltzmann]
  have hdh : dh ≤ 0.625 := by
    have := convective_lip (k := k) (G := G) hk hG (x := 206 - ta - 0.005) (y := 206 - ta + 0.005) (Y := 6.1)
      (by norm_num at *; linarith) (by linarith) (by norm_num at *; linarith)
    rw [edh, div_le_iff₀ (by norm_num)]
    rw [show 206 - ta + 0.005 - (206 - ta - 0.005) = 2 * 0.005 by ring] at this
    linarith
  rw [hd] at hd0
  unfold newtonStep
  rw [hm, hd]
  have key : (ta + δ - 206) * (dh + dr) ≤ c - mr - mh := by
    rcases le_or_gt (ta - 206) 1 with h | h
    · have hmh : mh ≤ 0.41 * dh := by
        rcases le_or_gt (206 - ta) (-0.005) with h' | h'
        · have := s5 h'
          nlinarith
        · have := s4 h'
          have : (206 - ta + 0.01) * dh ≤ 0.41 * dh := mul_le_mul_of_nonneg_right (by norm_num at *; linarith) d0
          linarith
      have : (ta + δ - 206) * (dh + dr) ≤ 1.4 * (dh + dr) :=
        mul_le_mul_of_nonneg_right (by linarith) hd0.le
      norm_num at *; linarith
    · -- the convective part alone would land within a fifth of the way
      have hneg : 206 - ta + 0.005 < 0 := by norm_num at *; linarith
      have hneg' : 206 - ta - 0.005 < 0 := by linarith
      rw [abs_of_neg hneg, abs_of_neg hneg'] at emh edh
      have hl := nusselt_lip (x := -(206 - ta + 0.005)) (y := -(206 - ta - 0.005)) hG (by linarith) (by linarith)
      have hl' := mul_le_mul_of_nonneg_left hl hk
      generalize nusseltOf G (-(206 - ta + 0.005)) = n1 at *
      generalize nusseltOf G (-(206 - ta - 0.005)) = n2 at *
      have e1 : -mh = k * n2 * (ta - 206 + 0.005) - 0.005 * dh := by rw [emh, edh]; ring
      have e2 : dh ≤ 1.25 * (k * n2) := by
        rw [edh, div_le_iff₀ (by norm_num)]
        rw [show -(206 - ta - 0.005) - -(206 - ta + 0.005) = 2 * 0.005 by ring] at hl'
        linarith
      have e3 : 0.8 * dh * (ta - 206 + 0.005) ≤ k * n2 * (ta - 206 + 0.005) :=
        mul_le_mul_of_nonneg_right (by norm_num at *; linarith) (by linarith)
      have e4 : (ta + δ - 206) * dr ≤ 5.405 * 0.2194 := mul_le_mul (by norm_num at *; linarith) hdr hdr0 (by norm_num)
      have e5 : (ta + δ - 206) * (0.2 * dh) ≤ 5.405 * (0.2 * 0.625) :=
        mul_le_mul (by norm_num at *; linarith) (by linarith) (by linarith) (by norm_num)
      have e6 : (ta + δ - 206) * (dh + dr) = 0.8 * dh * (ta - 206 + 0.005) + (δ - 0.005) * (0.8 * dh) + (ta + δ - 206) * (0.2 * dh) +
        (ta + δ - 206) * dr := by ring
      have e7 : (δ - 0.005) * (0.8 * dh) ≤ 0.395 * (0.8 * 0.625) :=
        mul_le_mul (by norm_num at *; linarith) (by linarith) (by linarith) (by norm_num)
      rw [e6]
      norm_num at *; linarith
  have : ta + δ - 206 ≤ -((mh + mr - c) / (dh + dr)) := by
    rw [← neg_div, le_div_iff₀ hd0]
    linarith
  linarith

/-- The Newton iteration of the cold start, ten steps from 206 K: it ends above the ambient temperature and at most
half a kelvin above any temperature `R` at which the envelope cools. -/
theorem newton_close (hk : 0 ≤ k) (hG : 0 ≤ G) (hta : 176.7 ≤ ta) (hta' : ta ≤ 211.4) (hc0 : 11.08 ≤ c) (hc1 : c ≤ 27.2) {δ : ℝ}
    (hδ : 0.005 ≤ δ) (hδ' : δ ≤ 0.4) (hδt : ta + δ ≤ 211.405)
    (hN : k * nusseltOf G 45 ≤ 0.8) (hN6 : k * nusseltOf G 6.1 ≤ 0.5) {R K : ℝ} (hR : 213 ≤ R) (hR1 : ta + 1 ≤ R)
    (hR2 : R ≤ ta + 43) (hg : 0 ≤ balance k G ta c R) (hK : 0.002 ≤ K) (f : ℝ → Except Err ℝ)
    (hf : ∀ t, 150 ≤ t → t ≤ 900 → f t = .ok (-(K * balance k G ta c t))) :
    ∃ t', newtonLoop f 10 206 = .ok t' ∧ ta + δ ≤ t' ∧ t' ≤ R + 0.5 := by
  have hta2 : ta ≤ 212 := by norm_num at *; linarith
  have hL : balance k G ta c (ta + δ + 0.01) ≤ 0 := by
    unfold balance
    have a1 := radiated_slope_le (b := 212) (x := ta) (y := ta + δ + 0.01) (by linarith) (by linarith)
      (by norm_num at *; linarith) (by norm_num)
    have a2 := radiated_slope_ge (a := 160) (x := ta) (y := 211.4) (by norm_num) (by linarith) hta' (by norm_num)
    have a3 : radiated' 212 ≤ 0.25 := by norm_num [radiated', stefanBoltzmann]
    have a4 : (0 : ℝ) ≤ radiated' 160 := by norm_num [radiated', stefanBoltzmann]
    have a5 : radiated 211.4 ≤ 10.24 := by rw [radiated_poly]; norm_num [stefanBoltzmann]
    rw [show ta + δ + 0.01 - ta = δ + 0.01 by ring_nf] at a1 ⊢
    have p0 : 0 ≤ δ + 0.01 := by norm_num at *; linarith
    have p1 : δ + 0.01 ≤ 0.41 := by norm_num at *; linarith
    rw [abs_of_nonneg p0]
    have a6 := mul_le_mul_of_nonneg_left (nusseltOf_mono hG (x := δ + 0.01) (y := 6.1) p0 (by norm_num at *; linarith)) hk
    have a7 : 0 ≤ radiated' 160 * (211.4 - ta) := mul_nonneg a4 (by linarith)
    have a8 := mul_le_mul (a6.trans hN6) p1 p0 (by norm_num)
    have a9 := mul_le_mul a3 p1 p0 (by norm_num)
    norm_num at *
    linarith
  have hff : ∀ t, ta ≤ t → t ≤ 900 → f t = .ok (-(K * balance k G ta c t)) := fun t a b => hf t (by linarith) b
  have hcv := balance_convex (c := c) hk hG (show 160 ≤ ta by linarith)
  have hst := balance_strict (c := c) hk hG hta
  have fin : ∀ {m : ℕ} {E t' : ℝ}, 1 ≤ m → E = 78 → t' ≤ R + 0.005 + max 0.23 (E / 2 ^ (7 + m)) → t' ≤ R + 0.5 := by
    intro m E t' hm hE h
    subst hE
    have : (78 : ℝ) / 2 ^ (7 + m) ≤ 0.32 := by
      have : (2 : ℝ) ^ 8 ≤ 2 ^ (7 + m) := pow_le_pow_right₀ (by norm_num) (by omega)
      rw [div_le_iff₀ (by positivity)]
      norm_num at *; linarith
    have := max_le (show (0.23 : ℝ) ≤ 0.32 by norm_num) this
    linarith
  obtain ⟨d0, u0⟩ := step_le (t := 206) hk hG hta2 hc1 le_rfl (by norm_num)
  have hE : ∀ t : ℝ, t ≤ 290 → t ≤ R + 0.005 + max 0.23 78 := by
    intro t ht
    have := le_max_right (0.23 : ℝ) 78
    linarith
  rw [newtonLoop_succ (by linarith) (hf _ (by norm_num) (by norm_num)) (hf _ (by norm_num) (by norm_num)) (by linarith)]
  have hge : ta + δ ≤ newtonStep (balance k G ta c) 206 := by
    rcases le_or_gt (ta + δ) 206 with h | h
    · exact (step_ge hcv hst (t := 206) (by linarith) (by norm_num) (show ta ≤ ta + δ by linarith) h
        (by norm_num at *; linarith) hL).1
    · exact first_step hk hG hδ hδ' h hδt hc0 hN6 (by linarith)
  split_ifs with hex
  · refine ⟨_, rfl, hge, ?_⟩
    have hm : |chordMean (balance k G ta c) 206| < 0.005 := by
      rw [abs_mul, abs_of_pos (by linarith)] at hex
      have := mul_le_mul_of_nonneg_right hK (abs_nonneg (chordMean (balance k G ta c) 206))
      norm_num at *
      linarith
    have : -(chordMean (balance k G ta c) 206 / chordSlope (balance k G ta c) 206) ≤ 0.05 := by
      rw [← neg_div, div_le_iff₀ (by linarith)]
      have := (abs_lt.1 hm).1
      linarith
    unfold newtonStep
    linarith
  · rcases le_or_gt (ta + δ) 206 with h | h
    · have hr := step_right hcv hst (t := 206) (by linarith) (by norm_num) (by linarith) (by linarith)
      obtain ⟨t', e, a, b⟩ := newtonLoop_converges hk hG hta hta2 hN hR hR1 hR2 hg hK hδ hδ' hL f hff 9 _ 78 (by norm_num) hge
        (by linarith) hr (hE _ u0)
      exact ⟨t', e, a, fin (m := 2) (by norm_num) rfl b⟩
    · have h206 : 206 ≤ newtonStep (balance k G ta c) 206 := by linarith
      generalize newtonStep (balance k G ta c) 206 = t1 at *
      obtain ⟨d1, u1⟩ := step_le (t := t1) hk hG hta2 hc1 h206 u0
      rw [newtonLoop_succ (by linarith) (hf _ (by linarith) (by linarith)) (hf _ (by linarith) (by linarith)) (by linarith)]
      have hge1 := (step_ge hcv hst (t := t1) (by linarith) (by linarith) (show ta ≤ ta + δ by linarith) hge
        (by norm_num at *; linarith) hL).1
      split_ifs with hex1
      · refine ⟨_, rfl, hge1, ?_⟩
        have := step_exit hk hG hta hR hR1 hg hK (by linarith) (by linarith) hex1
        linarith
      · have hr := step_right hcv hst (t := t1) (by linarith) (by linarith) (by linarith) (by linarith)
        obtain ⟨t', e, a, b⟩ := newtonLoop_converges hk hG hta hta2 hN hR hR1 hR2 hg hK hδ hδ' hL f hff 8 _ 78 (by norm_num) hge1
          (by linarith) hr (hE _ u1)
        exact ⟨t', e, a, fin (m := 1) (by norm_num) rfl b⟩

end BLE
