import Verif.Model.StableInit
import Verif.Props.Flight
import Verif.Props.Thermal
import Mathlib.Analysis.Convex.Deriv
import Mathlib.Analysis.Convex.Slope

/-!
# The Newton iteration of the cold start stays in its bracket
-/

namespace BLE

/-- Secant bounds for a convective exchange `x ↦ k n(|x|) x` with a monotone factor `n`. -/
theorem convective_secant (n : ℝ → ℝ) (hn0 : ∀ x, 0 ≤ x → 0 ≤ n x)
    (hn : ∀ x y, 0 ≤ x → x ≤ y → n x ≤ n y) (k δ u : ℝ) (hk : 0 ≤ k) (hδ : 0 < δ) (hx hy : ℝ)
    (ex : hx = k * n |u - δ| * (u - δ)) (ey : hy = k * n |u + δ| * (u + δ)) :
    hx ≤ hy ∧ (δ ≤ u → 0 ≤ (hx + hy) / 2) ∧
    (u < δ → -((hx + hy) / 2) ≤ (2 * δ - u) * ((hy - hx) / (2 * δ))) ∧
    (-δ < u → (hx + hy) / 2 ≤ (u + 2 * δ) * ((hy - hx) / (2 * δ))) ∧
    (u ≤ -δ → (hx + hy) / 2 ≤ 0) := by
  have e2 : ∀ d : ℝ, d / (2 * δ) * (2 * δ) = d := fun d => div_mul_cancel₀ d (by positivity)
  have hdh := e2 (hy - hx)
  rcases lt_trichotomy |u| δ with hc | hc | hc
  all_goals try (obtain ⟨c1, c2⟩ := abs_lt.1 hc)
  · have h1 : hx ≤ 0 := by
      rw [ex]
      exact mul_nonpos_of_nonneg_of_nonpos (mul_nonneg hk (hn0 _ (abs_nonneg _))) (by linarith)
    have h2 : 0 ≤ hy := by
      rw [ey]
      exact mul_nonneg (mul_nonneg hk (hn0 _ (abs_nonneg _))) (by linarith)
    have hd : 0 ≤ (hy - hx) / (2 * δ) := div_nonneg (by linarith) (by positivity)
    generalize (hy - hx) / (2 * δ) = d at *
    refine ⟨by linarith, fun h => by linarith, fun _ => by nlinarith, fun _ => by nlinarith, fun h => by linarith⟩
  all_goals
    rcases le_total 0 u with hu | hu
    · rw [abs_of_nonneg hu] at hc
      rw [abs_of_nonneg (by linarith)] at ex ey
      have hm := hn (u - δ) (u + δ) (by linarith) (by linarith)
      have hp := hn0 (u - δ) (by linarith)
      generalize n (u - δ) = a at *
      generalize n (u + δ) = b at *
      have h1 : 0 ≤ hx := by rw [ex]; exact mul_nonneg (mul_nonneg hk hp) (by linarith)
      have h2 : hx ≤ hy := by
        rw [ex, ey]
        exact mul_le_mul (mul_le_mul_of_nonneg_left hm hk) (by linarith) (by linarith)
          (mul_nonneg hk (by linarith))
      have hd : 0 ≤ (hy - hx) / (2 * δ) := div_nonneg (by linarith) (by positivity)
      have key : (hx + hy) / 2 ≤ u * ((hy - hx) / (2 * δ)) := by
        rw [mul_div_assoc', le_div_iff₀ (by positivity)]
        have : u * (hy - hx) - (hx + hy) / 2 * (2 * δ) = k * (b - a) * ((u - δ) * (u + δ)) := by
          rw [ex, ey]; ring
        have h3 : 0 ≤ k * (b - a) * ((u - δ) * (u + δ)) :=
          mul_nonneg (mul_nonneg hk (by linarith)) (mul_nonneg (by linarith) (by linarith))
        linarith
      generalize (hy - hx) / (2 * δ) = d at *
      refine ⟨h2, fun _ => by linarith, fun h => by linarith, fun _ => by nlinarith, fun h => by linarith⟩
    · rw [abs_of_nonpos hu] at hc
      rw [abs_of_nonpos (by linarith)] at ex ey
      have hm := hn (-(u + δ)) (-(u - δ)) (by linarith) (by linarith)
      have hp := hn0 (-(u + δ)) (by linarith)
      generalize n (-(u - δ)) = a at *
      generalize n (-(u + δ)) = b at *
      have h1 : hy ≤ 0 := by
        rw [ey]; exact mul_nonpos_of_nonneg_of_nonpos (mul_nonneg hk hp) (by linarith)
      have h2 : hx ≤ hy := by
        rw [ex, ey]
        have := mul_le_mul (mul_le_mul_of_nonneg_left hm hk) (show -(u + δ) ≤ -(u - δ) by linarith)
          (by linarith) (mul_nonneg hk (by linarith))
        nlinarith
      have hd : 0 ≤ (hy - hx) / (2 * δ) := div_nonneg (by linarith) (by positivity)
      have key : -((hx + hy) / 2) ≤ -u * ((hy - hx) / (2 * δ)) := by
        rw [mul_div_assoc', le_div_iff₀ (by positivity)]
        have : -u * (hy - hx) - -((hx + hy) / 2) * (2 * δ) = k * (a - b) * ((-(u - δ)) * (-(u + δ))) := by
          rw [ex, ey]; ring
        have h3 : 0 ≤ k * (a - b) * ((-(u - δ)) * (-(u + δ))) :=
          mul_nonneg (mul_nonneg hk (by linarith)) (mul_nonneg (by linarith) (by linarith))
        linarith
      generalize (hy - hx) / (2 * δ) = d at *
      refine ⟨h2, fun h => by linarith, fun _ => by nlinarith, fun h => by linarith, fun _ => by linarith⟩

/-- One Newton step for `c - k n(|t - ta|)(t - ta) - rad t` stays in `[L, U]`. -/
theorem newton_bracket (n rad : ℝ → ℝ) (hn0 : ∀ x, 0 ≤ x → 0 ≤ n x)
    (hn : ∀ x y, 0 ≤ x → x ≤ y → n x ≤ n y) (k δ ta c D L U Th : ℝ) (hk : 0 ≤ k) (hδ : 0 < δ) (hD : 0 < D)
    (hconv : ConvexOn ℝ (Set.Icc (L - δ) (U + δ)) rad)
    (hslope : ∀ x y, L - δ ≤ x → x ≤ y → y ≤ U + δ → D * (y - x) ≤ rad y - rad x)
    (hL : L ≤ ta - 2 * δ) (hrL : rad (L + 2 * δ) ≤ c) (hr0 : 0 ≤ rad (L - δ)) (hTh : ta ≤ Th)
    (hrT : c ≤ rad Th) (hU : Th + 2 * δ + c / D ≤ U) (hc : 0 ≤ c)
    (t : ℝ) (ht : L ≤ t) (ht' : t ≤ U) (g : ℝ → ℝ)
    (hg : ∀ t, g t = k * n |t - ta| * (t - ta) + rad t - c) :
    0 < (g (t + δ) - g (t - δ)) / (2 * δ) ∧
    L ≤ t - (g (t - δ) + g (t + δ)) / 2 / ((g (t + δ) - g (t - δ)) / (2 * δ)) ∧
    t - (g (t - δ) + g (t + δ)) / 2 / ((g (t + δ) - g (t - δ)) / (2 * δ)) ≤ U := by
  have hcD : 0 ≤ c / D := div_nonneg hc hD.le
  obtain ⟨s1, s2, s3, s4, s5⟩ := convective_secant n hn0 hn k δ (t - ta) hk hδ _ _ rfl rfl
  have g1 := hg (t - δ)
  have g2 := hg (t + δ)
  rw [show t - δ - ta = t - ta - δ by ring] at g1
  rw [show t + δ - ta = t - ta + δ by ring] at g2
  generalize k * n |t - ta - δ| * (t - ta - δ) = hx at *
  generalize k * n |t - ta + δ| * (t - ta + δ) = hy at *
  have hr := hslope (t - δ) (t + δ) (by linarith) (by linarith) (by linarith)
  have hdr : D ≤ (rad (t + δ) - rad (t - δ)) / (2 * δ) := by
    rw [le_div_iff₀ (by positivity)]; linarith
  have hdh : 0 ≤ (hy - hx) / (2 * δ) := div_nonneg (by linarith) (by positivity)
  have hd : (g (t + δ) - g (t - δ)) / (2 * δ) =
      (rad (t + δ) - rad (t - δ)) / (2 * δ) + (hy - hx) / (2 * δ) := by
    rw [g1, g2, ← add_div]; congr 1; ring
  have hm : (g (t - δ) + g (t + δ)) / 2 = (rad (t - δ) + rad (t + δ)) / 2 - c + (hx + hy) / 2 := by
    rw [g1, g2]; ring
  -- the radiative part, below
  have hlow : (rad (t - δ) + rad (t + δ)) / 2 - c ≤ (t - L) * ((rad (t + δ) - rad (t - δ)) / (2 * δ)) := by
    have hLc : rad L ≤ c := by
      have := hslope L (L + 2 * δ) (by linarith) (by linarith) (by linarith)
      nlinarith
    rcases lt_or_ge (t - δ) L with h | h
    · have a1 := hslope (t + δ) (L + 2 * δ) (by linarith) (by linarith) (by linarith)
      have a2 : (t - L) * ((rad (t + δ) - rad (t - δ)) / (2 * δ)) ≥ 0 :=
        mul_nonneg (by linarith) (by linarith)
      have a3 : 0 ≤ D * (L + 2 * δ - (t + δ)) := mul_nonneg hD.le (by linarith)
      have a4 : 0 ≤ D * (t + δ - (t - δ)) := mul_nonneg hD.le (by linarith)
      linarith
    · have key : (rad (t - δ) + rad (t + δ)) / 2 - rad L ≤
          (t - L) * ((rad (t + δ) - rad (t - δ)) / (2 * δ)) := by
        rcases eq_or_lt_of_le h with h | h
        · have ht : t - L = δ := by linarith
          rw [← h, mul_div_assoc', le_div_iff₀ (by positivity), ht]
          linarith [mul_comm δ (rad (t + δ) - rad L)]
        · have := hconv.slope_mono_adjacent (x := L) (y := t - δ) (z := t + δ)
            ⟨by linarith, by linarith⟩ ⟨by linarith, by linarith⟩ h (by linarith)
          rw [show t + δ - (t - δ) = 2 * δ by ring] at this
          have e2 : (rad (t + δ) - rad (t - δ)) / (2 * δ) * (2 * δ) = rad (t + δ) - rad (t - δ) :=
            div_mul_cancel₀ _ (by positivity)
          generalize (rad (t + δ) - rad (t - δ)) / (2 * δ) = d at *
          rw [div_le_iff₀ (by linarith)] at this
          nlinarith
      linarith
  have hthr : 0 ≤ rad (t - δ) := by
    have := hslope (L - δ) (t - δ) (by linarith) (by linarith) (by linarith)
    nlinarith
  rw [hd, hm]
  generalize hmr : (rad (t - δ) + rad (t + δ)) / 2 = mr at *
  have hmr0 : 0 ≤ mr := by linarith [mul_nonneg hD.le (show 0 ≤ t + δ - (t - δ) by linarith)]
  have hmrT : Th + δ ≤ t → c ≤ mr := by
    intro h
    have a1 := hslope Th (t - δ) (by linarith) (by linarith) (by linarith)
    have a2 := hslope Th (t + δ) (by linarith) (by linarith) (by linarith)
    have a3 : 0 ≤ D * (t - δ - Th) := mul_nonneg hD.le (by linarith)
    have a4 : 0 ≤ D * (t + δ - Th) := mul_nonneg hD.le (by linarith)
    linarith
  generalize (rad (t + δ) - rad (t - δ)) / (2 * δ) = dr at *
  generalize (hy - hx) / (2 * δ) = dh at *
  generalize (hx + hy) / 2 = mh at *
  have hpos : 0 < dr + dh := by linarith
  refine ⟨hpos, ?_, ?_⟩
  · have : (mr - c + mh) / (dr + dh) ≤ t - L := by
      rw [div_le_iff₀ hpos]
      have : mh ≤ (t - L) * dh := by
        rcases lt_or_ge (-δ) (t - ta) with h | h
        · have := s4 h; nlinarith
        · have := s5 h; nlinarith
      linarith
    linarith
  · have : -((mr - c + mh) / (dr + dh)) ≤ U - t := by
      rw [← neg_div, div_le_iff₀ hpos]
      have hcdr : c ≤ c / D * dr := by
        have := mul_le_mul_of_nonneg_left hdr hcD
        rwa [div_mul_cancel₀ _ hD.ne'] at this
      rcases le_or_gt (Th + δ) t with h | h
      · have b1 := hmrT h
        have b2 := s2 (by linarith)
        have b3 : 0 ≤ (U - t) * (dr + dh) := mul_nonneg (by linarith) (by linarith)
        linarith
      · have b3 : c / D * dr ≤ (U - t) * dr := mul_le_mul_of_nonneg_right (by linarith) (by linarith)
        have b4 : 0 ≤ (U - t) * dh := mul_nonneg (by linarith) hdh
        rcases le_or_gt δ (t - ta) with h' | h'
        · have b2 := s2 h'
          linarith
        · have b2 := s3 h'
          have b5 : (2 * δ - (t - ta)) * dh ≤ (U - t) * dh := mul_le_mul_of_nonneg_right (by linarith) hdh
          linarith
    linarith

/-- Radiated flux [W/m²] of the envelope at temperature `T`: black body times total absorptivity. -/
noncomputable def radiated (T : ℝ) : ℝ :=
  tempToFlux T * (absorptivityIr T * (1 + (1 - absorptivityIr T - 0.0291) / (1 - 0.0291)))

theorem radiated_poly (T : ℝ) : radiated T = stefanBoltzmann / 0.9709 *
    (-0.000000053824 * T ^ 6 + 0.0004518200 * T ^ 5 - 0.0055422525 * T ^ 4) := by
  unfold radiated tempToFlux absorptivityIr
  ring

/-- First derivative of `radiated`. -/
noncomputable def radiated' (T : ℝ) : ℝ := stefanBoltzmann / 0.9709 *
    (-0.000000053824 * (6 * T ^ 5) + 0.0004518200 * (5 * T ^ 4) - 0.0055422525 * (4 * T ^ 3))

theorem radiated_hasDeriv (T : ℝ) : HasDerivAt radiated (radiated' T) T := by
  have e : radiated = fun T => stefanBoltzmann / 0.9709 *
    (-0.000000053824 * T ^ 6 + 0.0004518200 * T ^ 5 - 0.0055422525 * T ^ 4) := funext radiated_poly
  rw [e]
  have h6 := (hasDerivAt_pow 6 T).const_mul (-0.000000053824 : ℝ)
  have h5 := (hasDerivAt_pow 5 T).const_mul (0.0004518200 : ℝ)
  have h4 := (hasDerivAt_pow 4 T).const_mul (0.0055422525 : ℝ)
  have := ((h6.add h5).sub h4).const_mul (stefanBoltzmann / 0.9709)
  refine this.congr_deriv ?_
  unfold radiated'
  norm_num

theorem radiated'_hasDeriv (T : ℝ) : HasDerivAt radiated' (stefanBoltzmann / 0.9709 *
    (-0.000000053824 * (30 * T ^ 4) + 0.0004518200 * (20 * T ^ 3) - 0.0055422525 * (12 * T ^ 2))) T := by
  have h6 := (hasDerivAt_pow 5 T).const_mul (-0.000000053824 * 6 : ℝ)
  have h5 := (hasDerivAt_pow 4 T).const_mul (0.0004518200 * 5 : ℝ)
  have h4 := (hasDerivAt_pow 3 T).const_mul (0.0055422525 * 4 : ℝ)
  have := ((h6.add h5).sub h4).const_mul (stefanBoltzmann / 0.9709)
  have e : radiated' = fun T => stefanBoltzmann / 0.9709 *
    (-0.000000053824 * 6 * T ^ 5 + 0.0004518200 * 5 * T ^ 4 - 0.0055422525 * 4 * T ^ 3) := by
    funext T; unfold radiated'; ring
  rw [e]
  refine this.congr_deriv ?_
  push_cast
  ring

theorem radiated_convex : ConvexOn ℝ (Set.Icc 160 900) radiated := by
  refine convexOn_of_deriv2_nonneg (convex_Icc _ _) ?_ ?_ ?_ ?_
  · exact fun x _ => (radiated_hasDeriv x).continuousAt.continuousWithinAt
  · exact fun x _ => (radiated_hasDeriv x).differentiableAt.differentiableWithinAt
  · have : deriv radiated = radiated' := funext fun x => (radiated_hasDeriv x).deriv
    rw [this]
    exact fun x _ => (radiated'_hasDeriv x).differentiableAt.differentiableWithinAt
  · intro x hx
    rw [interior_Icc] at hx
    have : deriv radiated = radiated' := funext fun x => (radiated_hasDeriv x).deriv
    simp only [Function.iterate_succ, Function.iterate_zero, Function.comp, id]
    rw [this, (radiated'_hasDeriv x).deriv]
    have hs : 0 ≤ stefanBoltzmann / 0.9709 := by norm_num [stefanBoltzmann]
    refine mul_nonneg hs ?_
    have e : -0.000000053824 * (30 * x ^ 4) + 0.0004518200 * (20 * x ^ 3) - 0.0055422525 * (12 * x ^ 2) =
      x ^ 2 * (-0.00000161472 * x ^ 2 + 0.0090364 * x - 0.06650703) := by ring
    rw [e]
    refine mul_nonneg (by positivity) ?_
    obtain ⟨h1, h2⟩ := hx
    nlinarith [mul_nonneg (sub_nonneg.2 h1.le) (sub_nonneg.2 h2.le)]

/-- Between 160 K and 900 K every kelvin radiates at least 0.07 W/m² more. -/
theorem radiated_slope {x y : ℝ} (hx : 160 ≤ x) (hxy : x ≤ y) (hy : y ≤ 900) :
    0.07 * (y - x) ≤ radiated y - radiated x := by
  refine Convex.mul_sub_le_image_sub_of_le_deriv (convex_Icc (160 : ℝ) 900) ?_ ?_ ?_ x
    ⟨hx, by linarith⟩ y ⟨by linarith, hy⟩ hxy
  · exact fun x _ => (radiated_hasDeriv x).continuousAt.continuousWithinAt
  · exact fun x _ => (radiated_hasDeriv x).differentiableAt.differentiableWithinAt
  · intro z hz
    rw [interior_Icc] at hz
    obtain ⟨h1, h2⟩ := hz
    rw [(radiated_hasDeriv z).deriv]
    unfold radiated'
    have e : -0.000000053824 * (6 * z ^ 5) + 0.0004518200 * (5 * z ^ 4) - 0.0055422525 * (4 * z ^ 3) =
      z ^ 3 * (-0.000000322944 * z ^ 2 + 0.0022591 * z - 0.02216901) := by ring
    rw [e]
    have h3 : (160 : ℝ) ^ 3 ≤ z ^ 3 := pow_le_pow_left₀ (by norm_num) h1.le 3
    have h4 : 0.33 ≤ -0.000000322944 * z ^ 2 + 0.0022591 * z - 0.02216901 := by
      nlinarith [mul_nonneg (sub_nonneg.2 h1.le) (sub_nonneg.2 h2.le)]
    have h5 := mul_le_mul h3 h4 (by norm_num) (by positivity)
    have hs : stefanBoltzmann / 0.9709 = 0.000000056704 / 0.9709 := rfl
    rw [hs]
    norm_num at h5 ⊢
    linarith

/-- Temperatures at the layer boundaries, sharper. -/
theorem tTrans_range {α : ℝ} (h0 : 0 ≤ α) (h1 : α ≤ 1) {i : ℕ} (hi : i ≤ 7) :
    169.6 ≤ tTrans α i ∧ tTrans α i ≤ 300 := by
  interval_cases i <;> norm_num [tTrans, lapse, lapseLow, lapseHigh, hTrans] <;>
    (try constructor) <;> nlinarith

/-- Every ambient temperature of the standard atmosphere is between 169.6 K and 300 K. -/
theorem atPressure_temp_range {α p : ℝ} {v : AtmVals} (h0 : 0 ≤ α) (h1 : α ≤ 1) (hv : atPressure α p = .ok v) :
    169.6 ≤ v.temperature ∧ v.temperature ≤ 300 := by
  obtain ⟨_, r⟩ := C43_pressure_roundtrip α h0 h1 p v hv
  obtain ⟨i, hi, ha, hb, hve⟩ := atHeight_ok r
  have ht : v.temperature = layerT α i v.height := congrArg AtmVals.temperature hve
  rw [ht]
  have t0 := tTrans_range h0 h1 (i := i) (by omega)
  have t1 := tTrans_range h0 h1 (i := i + 1) (by omega)
  have e : tTrans α (i + 1) = tTrans α i + lapse α i * (hTrans (i + 1) - hTrans i) := rfl
  have hl := hTrans_lt hi
  unfold layerT
  rcases le_total 0 (lapse α i) with hs | hs
  · constructor
    · nlinarith [mul_nonneg hs (sub_nonneg.2 ha)]
    · nlinarith [mul_nonneg hs (sub_nonneg.2 hb.le)]
  · constructor
    · nlinarith [mul_nonneg (neg_nonneg.2 hs) (sub_nonneg.2 hb.le)]
    · nlinarith [mul_nonneg (neg_nonneg.2 hs) (sub_nonneg.2 ha)]

/-- The Newton loop never raises and stays in a bracket that satisfies `newton_bracket`. -/
theorem newtonLoop_bracket (f : ℝ → Except Err ℝ) (g : ℝ → ℝ) (K L U : ℝ) (hK : 0 < K)
    (hf : ∀ t, L - 0.005 ≤ t → t ≤ U + 0.005 → f t = .ok (-(K * g t)))
    (hstep : ∀ t, L ≤ t → t ≤ U → 0 < (g (t + 0.005) - g (t - 0.005)) / (2 * 0.005) ∧
      L ≤ t - (g (t - 0.005) + g (t + 0.005)) / 2 / ((g (t + 0.005) - g (t - 0.005)) / (2 * 0.005)) ∧
      t - (g (t - 0.005) + g (t + 0.005)) / 2 / ((g (t + 0.005) - g (t - 0.005)) / (2 * 0.005)) ≤ U)
    (m : ℕ) (t : ℝ) (h1 : L ≤ t) (h2 : t ≤ U) :
    ∃ t', newtonLoop f m t = .ok t' ∧ L ≤ t' ∧ t' ≤ U := by
  induction m generalizing t with
  | zero => exact ⟨t, rfl, h1, h2⟩
  | succ m ih =>
    obtain ⟨s1, s2, s3⟩ := hstep t h1 h2
    have e1 := hf (t - 0.005) (by linarith) (by linarith)
    have e2 := hf (t + 0.005) (by linarith) (by linarith)
    have ed : (0.01 / 2 : ℝ) = 0.005 := by norm_num
    rw [newtonLoop]
    simp only [bind, Except.bind, ed, e1, e2]
    have hdd : (-(K * g (t + 0.005)) - -(K * g (t - 0.005))) / 0.01 =
        -(K * ((g (t + 0.005) - g (t - 0.005)) / (2 * 0.005))) := by
      rw [show (0.01 : ℝ) = 2 * 0.005 by norm_num]; ring
    have hmm : (-(K * g (t - 0.005)) + -(K * g (t + 0.005))) / 2 =
        -(K * ((g (t - 0.005) + g (t + 0.005)) / 2)) := by ring
    rw [hdd, hmm]
    generalize (g (t + 0.005) - g (t - 0.005)) / (2 * 0.005) = d at *
    generalize (g (t - 0.005) + g (t + 0.005)) / 2 = mm at *
    have hq : -(K * mm) / -(K * d) = mm / d := by
      rw [neg_div_neg_eq, mul_div_mul_left _ _ hK.ne']
    have hif : (if |-(K * d)| > 0 then t - -(K * mm) / -(K * d) else t) = t - mm / d := by
      rw [if_pos (by rw [abs_neg]; exact abs_pos.2 (mul_pos hK s1).ne'), hq]
    rw [hif]
    split_ifs
    · exact ⟨_, rfl, s2, s3⟩
    · exact ih _ s2 s3

/-- Nusselt number as a function of the temperature difference. -/
noncomputable def nusseltOf (G x : ℝ) : ℝ :=
  2 + 0.457 * (G * x) ^ (0.25 : ℝ) + (1 + 2.69e-8 * (G * x)) ^ (1.0 / 12.0 : ℝ)

theorem nusseltOf_nonneg {G x : ℝ} (hG : 0 ≤ G) (hx : 0 ≤ x) : 0 ≤ nusseltOf G x := by
  unfold nusseltOf
  have := mul_nonneg hG hx
  positivity

theorem nusseltOf_mono {G x y : ℝ} (hG : 0 ≤ G) (hx : 0 ≤ x) (hxy : x ≤ y) : nusseltOf G x ≤ nusseltOf G y := by
  unfold nusseltOf
  have h1 := mul_nonneg hG hx
  have h2 : G * x ≤ G * y := mul_le_mul_of_nonneg_left hxy hG
  have h3 := Real.rpow_le_rpow h1 h2 (show (0 : ℝ) ≤ 0.25 by norm_num)
  have h4 := Real.rpow_le_rpow (show 0 ≤ 1 + 2.69e-8 * (G * x) by positivity)
    (show 1 + 2.69e-8 * (G * x) ≤ 1 + 2.69e-8 * (G * y) by linarith) (show (0 : ℝ) ≤ 1.0 / 12.0 by norm_num)
  linarith

/-- The convective factor as `k n(|tb - ta|) (ta - tb)`. -/
theorem convective_form {radius ta p : ℝ} (hr : 0 ≤ radius) (h0 : 0 < ta) (h1 : ta ≤ 300) :
    ∃ G k, 0 ≤ G ∧ 0 ≤ k ∧ ∀ tb, convectiveFactor radius tb ta p =
      -(k * nusseltOf G |tb - ta| * (tb - ta)) := by
  refine ⟨(0.804 - 3.25e-4 * ta) * (9.80665 * (p * airM / (gasR * ta)) ^ 2 * (2 * radius) ^ 3 /
      (ta * (1.458e-6 * ta ^ (1.5 : ℝ) / (ta + 110.4)) ^ 2)),
    0.0241 * (ta / 273.15) ^ (0.9 : ℝ) / (2 * radius), ?_, ?_, ?_⟩
  · refine mul_nonneg (by norm_num; linarith) ?_
    positivity
  · positivity
  · intro tb
    unfold convectiveFactor nusseltOf
    simp only
    rw [abs_sub_comm ta tb]
    simp only [mul_assoc]
    ring

theorem radiated_nonneg {T : ℝ} (h0 : 13 ≤ T) (h1 : T ≤ 8000) : 0 ≤ radiated T := by
  obtain ⟨a, b⟩ := absorptivityIr_range h0 h1
  unfold radiated tempToFlux
  refine mul_nonneg (by norm_num [stefanBoltzmann]; positivity) (mul_nonneg a ?_)
  generalize absorptivityIr T = x at *
  rw [show 1 + (1 - x - 0.0291) / (1 - 0.0291) = (1.9418 - x) / 0.9709 by field_simp; norm_num; ring]
  exact div_nonneg (by linarith) (by norm_num)

theorem fluxToTemp_mono {f g : ℝ} (h0 : 0 ≤ f) (h : f ≤ g) : fluxToTemp f ≤ fluxToTemp g := by
  unfold fluxToTemp
  have hs : (0 : ℝ) < stefanBoltzmann := by norm_num [stefanBoltzmann]
  exact Real.rpow_le_rpow (div_nonneg h0 hs.le) (div_le_div_of_nonneg_right h hs.le) (by norm_num)

/-- Total absorptivity of the Earth's radiation for upwelling flux between 225 and 450 W/m². -/
theorem earth_absorptivity {f : ℝ} (h0 : 225 ≤ f) (h1 : f ≤ 450) :
    0.107 ≤ absorptivityIr (fluxToTemp f) * (1 + (1 - absorptivityIr (fluxToTemp f) - 0.0291) / (1 - 0.0291)) ∧
    absorptivityIr (fluxToTemp f) * (1 + (1 - absorptivityIr (fluxToTemp f) - 0.0291) / (1 - 0.0291)) ≤ 0.13 := by
  have a1 : (250 : ℝ) ≤ fluxToTemp f := by
    rw [← (C52_black_body 250 0).1 (by norm_num)]
    exact fluxToTemp_mono (by norm_num [tempToFlux, stefanBoltzmann])
      (le_trans (by norm_num [tempToFlux, stefanBoltzmann]) h0)
  have a2 : fluxToTemp f ≤ 300 := by
    rw [← (C52_black_body 300 0).1 (by norm_num)]
    exact fluxToTemp_mono (by linarith)
      (le_trans h1 (by norm_num [tempToFlux, stefanBoltzmann]))
  generalize fluxToTemp f = T at *
  have b1 : 0.05515 ≤ absorptivityIr T := by unfold absorptivityIr; norm_num at *; linarith
  have b2 : absorptivityIr T ≤ 0.06675 := by unfold absorptivityIr; norm_num at *; linarith
  generalize absorptivityIr T = x at *
  rw [show x * (1 + (1 - x - 0.0291) / (1 - 0.0291)) = x * (1.9418 - x) / 0.9709 by
    field_simp; norm_num; ring]
  rw [le_div_iff₀ (by norm_num), div_le_iff₀ (by norm_num)]
  constructor <;> nlinarith

/-- The temperature rate of the envelope as minus a constant times a heat balance. -/
theorem dTempDt_form {vol mass ta p el sf ef : ℝ} (hv : 0 < vol) (hm : 0 < mass) (h0 : 0 < ta) (h1 : ta ≤ 300)
    (hp : 0 ≤ p) (hp' : p ≤ 101325) (he0 : -90 ≤ el) (he1 : el ≤ 90) (hs0 : 0 ≤ sf) (hs1 : sf ≤ 1500)
    (hf0 : 225 ≤ ef) (hf1 : ef ≤ 450) :
    ∃ K G k c, 0 < K ∧ 0 ≤ G ∧ 0 ≤ k ∧ 11 ≤ c ∧ c ≤ 38 ∧ ∀ tb, 13 ≤ tb → tb ≤ 8000 →
      dTempDt vol mass tb ta p el sf ef =
        .ok (-(K * (k * nusseltOf G |tb - ta| * (tb - ta) + radiated tb - c))) := by
  obtain ⟨att, hatt, hat0, hat1, _⟩ := (C51_attenuation el p).2 he0 he1 hp hp'
  obtain ⟨f0, f1⟩ := fluxToTemp_range (by linarith : (1:ℝ) ≤ ef) (by linarith)
  obtain ⟨g0, g1⟩ := absorptivityIr_range f0 f1
  have hr : 0 < (3 * vol / (4 * Real.pi)) ^ (1 / 3 : ℝ) := by
    apply Real.rpow_pos_of_pos; positivity
  obtain ⟨G, k, hG, hk, hcf⟩ := convective_form (p := p) hr.le h0 h1
  obtain ⟨ea1, ea2⟩ := earth_absorptivity hf0 hf1
  refine ⟨4 * Real.pi * (3 * vol / (4 * Real.pi)) ^ (1 / 3 : ℝ) * (3 * vol / (4 * Real.pi)) ^ (1 / 3 : ℝ) /
    (1500 * mass), G, k, sf * att * 0.25 * (0.01435 * (1 + (1 - 0.01435 - 0.0291) / (1 - 0.0291))) +
    ef * 0.4605 * (absorptivityIr (fluxToTemp ef) *
      (1 + (1 - absorptivityIr (fluxToTemp ef) - 0.0291) / (1 - 0.0291))), by positivity, hG, hk, ?_, ?_, ?_⟩
  · generalize absorptivityIr (fluxToTemp ef) *
      (1 + (1 - absorptivityIr (fluxToTemp ef) - 0.0291) / (1 - 0.0291)) = aE at *
    have b1 := mul_le_mul hf0 ea1 (by norm_num) (by linarith)
    have b2 : 0 ≤ sf * att * 0.25 * (0.01435 * (1 + (1 - 0.01435 - 0.0291) / (1 - 0.0291))) := by
      norm_num
      positivity
    norm_num at b1 b2 ⊢
    linarith
  · generalize absorptivityIr (fluxToTemp ef) *
      (1 + (1 - absorptivityIr (fluxToTemp ef) - 0.0291) / (1 - 0.0291)) = aE at *
    have b1 := mul_le_mul hf1 ea2 (by linarith) (by linarith)
    have b2 := mul_le_mul hs1 hat1 hat0 (by linarith)
    have b3 : sf * att * 0.25 * (0.01435 * (1 + (1 - 0.01435 - 0.0291) / (1 - 0.0291))) =
      sf * att * (0.25 * (0.01435 * (1 + (1 - 0.01435 - 0.0291) / (1 - 0.0291)))) := by ring
    rw [b3]
    norm_num at b1 b2 ⊢
    linarith
  · intro tb ht ht'
    obtain ⟨k0, k1⟩ := absorptivityIr_range ht ht'
    unfold dTempDt
    simp only [bind, Except.bind, hatt, totalAbsorptivity_ok g0 g1, totalAbsorptivity_ok k0 k1,
      totalAbsorptivity_ok (show (0 : ℝ) ≤ 0.01435 by norm_num) (by norm_num)]
    have hne : 1500 * mass ≠ 0 := by positivity
    simp only [pyDiv_ok hne, hcf]
    unfold radiated
    congr 1
    rw [eq_comm, div_mul_eq_mul_div, ← neg_div]
    congr 1
    ring

/-- The cold-start solver: no error, and the temperature found is at least the smaller of 206 K and the
ambient temperature (less 0.01 K) and at most 850 K. -/
theorem newton_total {vol mass ta p el sf ef : ℝ} (hv : 0 < vol) (hm : 0 < mass) (h0 : 169.6 ≤ ta)
    (h1 : ta ≤ 300) (hp : 0 ≤ p) (hp' : p ≤ 101325) (he0 : -90 ≤ el) (he1 : el ≤ 90) (hs0 : 0 ≤ sf)
    (hs1 : sf ≤ 1500) (hf0 : 225 ≤ ef) (hf1 : ef ≤ 450) (m : ℕ) :
    ∃ t, newtonLoop (fun t => dTempDt vol mass t ta p el sf ef) m 206 = .ok t ∧
      min 206 (ta - 0.01) ≤ t ∧ t ≤ 850 := by
  obtain ⟨K, G, k, c, hK, hG, hk, hc0, hc1, hform⟩ := dTempDt_form hv hm (by linarith) h1 hp hp' he0 he1
    hs0 hs1 hf0 hf1
  have hL0 : 169.5 ≤ min 206 (ta - 0.01) := le_min (by norm_num) (by norm_num at *; linarith)
  have hL1 : min 206 (ta - 0.01) ≤ 206 := min_le_left _ _
  have hL2 : min 206 (ta - 0.01) ≤ ta - 0.01 := min_le_right _ _
  generalize min 206 (ta - 0.01) = L at *
  have hr206 : radiated 206.01 ≤ 11 := by
    rw [radiated_poly]; norm_num [stefanBoltzmann]
  have hr302 : (38 : ℝ) ≤ radiated 302 := by
    rw [radiated_poly]; norm_num [stefanBoltzmann]
  refine newtonLoop_bracket _ (fun tb => k * nusseltOf G |tb - ta| * (tb - ta) + radiated tb - c) K L 850 hK
    ?_ ?_ m 206 hL1 (by norm_num)
  · intro t a b
    exact hform t (by norm_num at *; linarith) (by norm_num at *; linarith)
  · intro t a b
    have hsub : Set.Icc (L - 0.005) (850 + 0.005) ⊆ Set.Icc (160 : ℝ) 900 :=
      Set.Icc_subset_Icc (by norm_num at *; linarith) (by norm_num)
    refine newton_bracket (nusseltOf G) radiated (fun x hx => nusseltOf_nonneg hG hx)
      (fun x y hx hxy => nusseltOf_mono hG hx hxy) k 0.005 ta c 0.07 L 850 302 hk (by norm_num) (by norm_num)
      (radiated_convex.subset hsub (convex_Icc _ _)) ?_ (by norm_num at *; linarith) ?_ ?_ (by linarith)
      (by linarith) ?_ (by linarith) t a b _ (fun _ => rfl)
    · intro x y hx hxy hy
      exact radiated_slope (by norm_num at *; linarith) hxy (by norm_num at *; linarith)
    · have := radiated_slope (x := L + 2 * 0.005) (y := 206.01) (by norm_num at *; linarith)
        (by norm_num at *; linarith) (by norm_num)
      have h3 : (0 : ℝ) ≤ 0.07 * (206.01 - (L + 2 * 0.005)) := by norm_num; linarith
      linarith
    · exact radiated_nonneg (by norm_num at *; linarith) (by norm_num at *; linarith)
    · have : c / 0.07 ≤ 543 := by rw [div_le_iff₀ (by norm_num)]; norm_num; linarith
      norm_num at *; linarith

end BLE
