import Verif.Lemmas.Flight
import Mathlib.Analysis.SpecificLimits.Basic

/-!
# C51, C52: solar attenuation, solar power, black bodies
-/

namespace BLE

/-! ## C51 -/

theorem minSolarEl_val : minSolarEl = -4.242 := rfl

/-- Air mass at an elevation: never negative, and decreasing with the sine of the elevation. -/
theorem airmass_nonneg (s : ℝ) : 0 ≤ Real.sqrt (1229 + s * s) - s := by
  have : s ≤ Real.sqrt (1229 + s * s) := Real.le_sqrt_of_sq_le (by nlinarith)
  linarith

theorem airmass_anti {s t : ℝ} (h : s ≤ t) :
    Real.sqrt (1229 + t * t) - t ≤ Real.sqrt (1229 + s * s) - s := by
  have h1 : Real.sqrt (1229 + t * t) ≤ Real.sqrt (1229 + s * s) + (t - s) := by
    apply Real.sqrt_le_iff.2
    refine ⟨by have := Real.sqrt_nonneg (1229 + s * s); linarith, ?_⟩
    have h2 := Real.sq_sqrt (show 0 ≤ 1229 + s * s by nlinarith)
    have h3 := airmass_nonneg s
    nlinarith [mul_nonneg (sub_nonneg.2 h) h3]
  linarith

theorem sin_radians_mono {e f : ℝ} (h0 : -90 ≤ e) (h : e ≤ f) (h1 : f ≤ 90) :
    Real.sin (radians e) ≤ Real.sin (radians f) := by
  have hpi := Real.pi_pos
  apply Real.sin_le_sin_of_le_of_le_pi_div_two <;> unfold radians <;> nlinarith

/-- Out-of-range elevations and pressures raise `ValueError`, in-range ones never do; the factor lies
in [0,1] and is exactly 0 below the minimum elevation and positive from it on. -/
theorem C51_attenuation (el p : ℝ) :
    ((el < -90 ∨ 90 < el ∨ p < 0 ∨ 101325 < p) → attenuation el p = .error .value ∧
      solarPower el p = .error .value) ∧
    (-90 ≤ el → el ≤ 90 → 0 ≤ p → p ≤ 101325 → ∃ a, attenuation el p = .ok a ∧ 0 ≤ a ∧ a ≤ 1 ∧
      (el < -4.242 → a = 0) ∧ (-4.242 ≤ el → 0 < a)) := by
  constructor
  · intro h
    have : attenuation el p = .error .value := by
      unfold attenuation
      by_cases h1 : el > 90 ∨ el < -90
      · rw [if_pos h1]
      · rw [if_neg h1, if_pos]
        push Not at h1
        rcases h with h | h | h | h
        · linarith
        · linarith
        · exact Or.inr h
        · exact Or.inl h
    exact ⟨this, by rw [solarPower, this]⟩
  · intro h0 h1 h2 h3
    unfold attenuation
    rw [if_neg (by push Not; exact ⟨h1, h0⟩), if_neg (by push Not; exact ⟨h3, h2⟩), minSolarEl_val]
    by_cases hl : el < -4.242
    · rw [if_pos hl]
      exact ⟨0, rfl, le_refl _, zero_le_one, fun _ => rfl, fun h => by linarith⟩
    · rw [if_neg hl]
      have hm := mul_nonneg (mul_nonneg (show (0 : ℝ) ≤ 0.34764 by norm_num) (div_nonneg h2 (show (0 : ℝ) ≤ 101325 by norm_num)))
        (airmass_nonneg (614 * Real.sin (radians el)))
      refine ⟨_, rfl, ?_, ?_, fun h => absurd h hl, fun _ => ?_⟩
      · positivity
      · have e1 := Real.exp_le_one_iff.2 (show -0.65 * (0.34764 * (p / 101325) * (Real.sqrt (1229 + 614 * Real.sin (radians el) * (614 * Real.sin (radians el))) - 614 * Real.sin (radians el))) ≤ 0 by linarith)
        have e2 := Real.exp_le_one_iff.2 (show -0.95 * (0.34764 * (p / 101325) * (Real.sqrt (1229 + 614 * Real.sin (radians el) * (614 * Real.sin (radians el))) - 614 * Real.sin (radians el))) ≤ 0 by linarith)
        linarith
      · positivity

/-- Less air, more light: the factor never decreases when the sun is higher or the pressure lower. -/
theorem C51_attenuation_monotone {el el' p p' a a' : ℝ} (h : attenuation el p = .ok a)
    (h' : attenuation el' p' = .ok a') (he : el ≤ el') (hp : p' ≤ p) : a ≤ a' := by
  have dom : ∀ {el p a : ℝ}, attenuation el p = .ok a → -90 ≤ el ∧ el ≤ 90 ∧ 0 ≤ p ∧ p ≤ 101325 := by
    intro el p a h
    by_contra hc
    have := ((C51_attenuation el p).1 (by
      by_contra h2; push Not at h2; exact hc ⟨h2.1, h2.2.1, h2.2.2.1, h2.2.2.2⟩)).1
    rw [this] at h; cases h
  obtain ⟨d0, d1, d2, d3⟩ := dom h
  obtain ⟨d0', d1', d2', d3'⟩ := dom h'
  obtain ⟨b, hb, hb0, -, hbz, -⟩ := (C51_attenuation el p).2 d0 d1 d2 d3
  obtain ⟨b', hb', hb0', -, -, -⟩ := (C51_attenuation el' p').2 d0' d1' d2' d3'
  rw [h] at hb; rw [h'] at hb'
  cases hb; cases hb'
  by_cases hl : el < -4.242
  · rw [hbz hl]; exact hb0'
  unfold attenuation at h h'
  rw [if_neg (by push Not; exact ⟨d1, d0⟩), if_neg (by push Not; exact ⟨d3, d2⟩), minSolarEl_val,
    if_neg hl] at h
  rw [if_neg (by push Not; exact ⟨d1', d0'⟩), if_neg (by push Not; exact ⟨d3', d2'⟩), minSolarEl_val,
    if_neg (by linarith)] at h'
  simp only [Except.ok.injEq] at h h'
  rw [← h, ← h']
  have hs := airmass_anti (show 614 * Real.sin (radians el) ≤ 614 * Real.sin (radians el') by
    have := sin_radians_mono d0 he d1'; linarith)
  have hn := airmass_nonneg (614 * Real.sin (radians el'))
  generalize Real.sqrt (1229 + 614 * Real.sin (radians el) * (614 * Real.sin (radians el))) - 614 * Real.sin (radians el) = m at *
  generalize Real.sqrt (1229 + 614 * Real.sin (radians el') * (614 * Real.sin (radians el'))) - 614 * Real.sin (radians el') = m' at *
  have hm : 0.34764 * (p' / 101325) * m' ≤ 0.34764 * (p / 101325) * m := by
    have : p' / 101325 ≤ p / 101325 := by gcongr
    have h0 : 0 ≤ p' / 101325 := by positivity
    nlinarith [mul_le_mul this hs hn (h0.trans this)]
  have e1 := Real.exp_le_exp.2 (show -0.65 * (0.34764 * (p / 101325) * m) ≤ -0.65 * (0.34764 * (p' / 101325) * m') by linarith)
  have e2 := Real.exp_le_exp.2 (show -0.95 * (0.34764 * (p / 101325) * m) ≤ -0.95 * (0.34764 * (p' / 101325) * m') by linarith)
  linarith

theorem cos_radians_pos {d : ℝ} (h0 : -90 < d) (h1 : d < 90) : 0 < Real.cos (radians d) := by
  have hpi := Real.pi_pos
  apply Real.cos_pos_of_mem_Ioo
  constructor <;> unfold radians <;> nlinarith

theorem balloonShadow_range (el h : ℝ) : 0 < balloonShadow el h ∧ balloonShadow el h ≤ 1 := by
  unfold balloonShadow
  simp only
  split_ifs <;> norm_num

/-- Solar power: never negative, zero below the minimum elevation, positive from it on, and never more
than the panels' 1260 W. -/
theorem C51_solar_power (el p w : ℝ) (h : solarPower el p = .ok w) :
    0 ≤ w ∧ w ≤ 1260 ∧ (el < -4.242 → w = 0) ∧ (-4.242 ≤ el → 0 < w) := by
  by_cases hin : -90 ≤ el ∧ el ≤ 90 ∧ 0 ≤ p ∧ p ≤ 101325
  · obtain ⟨h0, h1, h2, h3⟩ := hin
    obtain ⟨a, ha, a0, a1, az, ap⟩ := (C51_attenuation el p).2 h0 h1 h2 h3
    unfold solarPower at h
    rw [ha] at h
    simp only [Except.ok.injEq] at h
    obtain ⟨s0, s1⟩ := balloonShadow_range el 3.3
    obtain ⟨t0, t1⟩ := balloonShadow_range el 2.7
    by_cases hl : el < -4.242
    · rw [az hl] at h
      have : w = 0 := by rw [← h]; ring
      rw [this]
      exact ⟨le_refl _, by norm_num, fun _ => rfl, fun h => by linarith⟩
    · have hl' : -4.242 ≤ el := not_lt.1 hl
      have c1 := cos_radians_pos (d := el - 35) (by norm_num at hl' ⊢; linarith) (by linarith)
      have c2 := cos_radians_pos (d := el - 65) (by norm_num at hl' ⊢; linarith) (by linarith)
      have c1' := Real.cos_le_one (radians (el - 35))
      have c2' := Real.cos_le_one (radians (el - 65))
      have hap := ap hl'
      have hw : 0 < w := by rw [← h]; positivity
      refine ⟨hw.le, ?_, fun h => absurd h hl, fun _ => hw⟩
      rw [← h]
      generalize Real.cos (radians (el - 35)) = x at *
      generalize Real.cos (radians (el - 65)) = y at *
      generalize balloonShadow el 3.3 = s at *
      generalize balloonShadow el 2.7 = t at *
      have hx : x * s ≤ 1 := by nlinarith
      have hy : y * t ≤ 1 := by nlinarith
      have hx0 : 0 < x * s := mul_pos c1 s0
      have hy0 : 0 < y * t := mul_pos c2 t0
      nlinarith [mul_nonneg a0 (show 0 ≤ 6 - (4 * (x * s) + 2 * (y * t)) by linarith)]
  · have := ((C51_attenuation el p).1 (by
      by_contra h2; push Not at h2; exact hin ⟨h2.1, h2.2.1, h2.2.2.1, h2.2.2.2⟩)).2
    rw [this] at h; cases h

/-- A bright case, a dark case and a rejected case. -/
example : (∃ w, solarPower 45 8000 = .ok w ∧ 0 < w) ∧ solarPower (-20) 8000 = .ok 0 ∧
    solarPower 91 8000 = .error .value := by
  refine ⟨?_, ?_, ((C51_attenuation 91 8000).1 (by norm_num)).2⟩
  · obtain ⟨w, hw⟩ := solarPower_ok (el := 45) (p := 8000) (by norm_num) (by norm_num) (by norm_num) (by norm_num)
    exact ⟨w, hw, (C51_solar_power 45 8000 w hw).2.2.2 (by norm_num)⟩
  · obtain ⟨w, hw⟩ := solarPower_ok (el := -20) (p := 8000) (by norm_num) (by norm_num) (by norm_num) (by norm_num)
    rw [hw, (C51_solar_power (-20) 8000 w hw).2.2.1 (by norm_num)]

/-! ## C52 -/

theorem rpow_quarter {x : ℝ} (hx : 0 ≤ x) : (x ^ 4) ^ (0.25 : ℝ) = x := by
  have := Real.pow_rpow_inv_natCast hx (n := 4) (by norm_num)
  rw [show (0.25 : ℝ) = ((4 : ℕ) : ℝ)⁻¹ by norm_num]; exact this

theorem quarter_pow {x : ℝ} (hx : 0 ≤ x) : (x ^ (0.25 : ℝ)) ^ 4 = x := by
  have := Real.rpow_inv_natCast_pow hx (n := 4) (by norm_num)
  rw [show (0.25 : ℝ) = ((4 : ℕ) : ℝ)⁻¹ by norm_num]; exact this

/-- The two black-body conversions are inverse on non-negative temperatures and fluxes. -/
theorem C52_black_body (t f : ℝ) :
    (0 ≤ t → fluxToTemp (tempToFlux t) = t) ∧ (0 ≤ f → tempToFlux (fluxToTemp f) = f) ∧
    (0 ≤ f → 0 ≤ fluxToTemp f) := by
  have hs : (0 : ℝ) < stefanBoltzmann := by norm_num [stefanBoltzmann]
  refine ⟨?_, ?_, ?_⟩
  · intro h
    unfold fluxToTemp tempToFlux
    rw [mul_div_cancel_left₀ _ hs.ne']
    exact rpow_quarter h
  · intro h
    unfold fluxToTemp tempToFlux
    rw [quarter_pow (by positivity)]
    field_simp
  · intro h; unfold fluxToTemp; positivity

/-- Any absorptivity factor that is returned lies in [0,1]; and for every physical film
(non-negative absorptivity and reflectivity adding up to at most 1, not a perfect mirror) one is
returned, namely the sum of the infinite series of internal reflections
`A + T·A + T·R·A + T·R²·A + …` with `T = 1 - R - A`. -/
theorem C52_total_absorptivity (a r : ℝ) :
    (∀ f, totalAbsorptivity a r = .ok f → 0 ≤ f ∧ f ≤ 1) ∧
    (0 ≤ a → 0 ≤ r → a + r ≤ 1 → r < 1 →
      ∃ f, totalAbsorptivity a r = .ok f ∧ a ≤ f ∧
        HasSum (fun n : ℕ => (1 - r - a) * r ^ n * a) (f - a)) ∧
    (r = 1 → totalAbsorptivity a r = .error .zeroDivision) := by
  refine ⟨?_, ?_, ?_⟩
  · intro f h
    unfold totalAbsorptivity at h
    split at h
    · cases h
    · simp only at h
      split at h
      · cases h
      · rename_i hc
        cases h
        push Not at hc
        exact hc
  · intro ha hr hs h1
    have hp : 0 < 1 - r := by linarith
    have hf : a * (1 + (1 - a - r) / (1 - r)) = a * (2 * (1 - r) - a) / (1 - r) := by
      field_simp; ring
    have g0 : 0 ≤ a * (1 + (1 - a - r) / (1 - r)) :=
      mul_nonneg ha (add_nonneg zero_le_one (div_nonneg (by linarith) hp.le))
    have g1 : a * (1 + (1 - a - r) / (1 - r)) ≤ 1 := by
      rw [hf, div_le_one hp]
      nlinarith [sq_nonneg (a - (1 - r))]
    refine ⟨a * (1 + (1 - a - r) / (1 - r)), ?_, ?_, ?_⟩
    · unfold totalAbsorptivity
      rw [pyDiv_ok hp.ne']
      simp only
      rw [if_neg (by push Not; exact ⟨g0, g1⟩)]
    · have : 0 ≤ a * ((1 - a - r) / (1 - r)) := mul_nonneg ha (div_nonneg (by linarith) hp.le)
      linarith
    · have hg := (hasSum_geometric_of_lt_one hr h1).mul_left ((1 - r - a) * a)
      have e1 : (fun n : ℕ => (1 - r - a) * r ^ n * a) = fun n : ℕ => (1 - r - a) * a * r ^ n := by
        funext n; ring
      rw [e1]
      have e2 : a * (1 + (1 - a - r) / (1 - r)) - a = (1 - r - a) * a * (1 - r)⁻¹ := by
        field_simp; ring
      rw [e2]; exact hg
  · rintro rfl
    simp [totalAbsorptivity, pyDiv]

/-- The balloon film itself, and a non-physical pair that is nevertheless not rejected. -/
example : ∃ f, totalAbsorptivity 0.01435 0.0291 = .ok f ∧ 0.01435 ≤ f :=
  let ⟨f, h, h', _⟩ := (C52_total_absorptivity 0.01435 0.0291).2.1 (by norm_num) (by norm_num) (by norm_num) (by norm_num)
  ⟨f, h, h'⟩
example : totalAbsorptivity 1.5 0 = .ok 0.75 := by norm_num [totalAbsorptivity, pyDiv]
example : totalAbsorptivity (-0.1) 0 = .error .value := by norm_num [totalAbsorptivity, pyDiv]
example : fluxToTemp (tempToFlux 250) = 250 := (C52_black_body 250 0).1 (by norm_num)

end BLE
