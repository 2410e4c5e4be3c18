import Verif.Lemmas.Sun1
import Verif.Props.Ephemeris

/-!
# The sun's elevation as a function of the second

For a Gregorian calendar and instants from 1970 to 2096 the elevation of `solar.py:43-174` is a function of the whole
second: refraction applied to the arcsine of `sin lat · sin dec − cos lat · cos dec · cos φ`, with a hour angle `φ`
(measured from midnight) that grows almost uniformly.
-/

namespace BLE

/-- What is assumed of the calendar of `datetime`: it always yields dates, and from 1970 to 2096 these are counted from
0001-01-01 in the proleptic Gregorian calendar. -/
def Spec.Gregorian (cal : Calendar) : Prop :=
  (∀ t, (1 ≤ (cal t).1 ∧ (cal t).1 ≤ 9999) ∧ (1 ≤ (cal t).2.1 ∧ (cal t).2.1 ≤ 12) ∧ 1 ≤ (cal t).2.2 ∧ (cal t).2.2 ≤ 31) ∧
  ∀ t : ℤ, 0 ≤ t → t < 4000000000 * 1000000 → cal t = Spec.civil (719162 + (t / (86400 * 1000000)).toNat)

/-- Julian century of second `σ` after 1970-01-01. -/
noncomputable def sunJc (σ : ℝ) : ℝ := (σ / 86400 - 10957.5) / 36525

theorem civil_day_le (n : ℕ) : (Spec.civil n).2.2 ≤ 31 := by
  obtain ⟨-, -, -, -, h⟩ := civil_valid n
  refine h.trans ?_
  unfold Spec.monthLength
  split_ifs <;> norm_num

theorem julianDay_modern (n : ℕ) (h0 : 719162 ≤ n) (h1 : n < 719162 + 46297) :
    julianDayNumber (Spec.civil n).1 (Spec.civil n).2.1 (Spec.civil n).2.2 = 1721425.5 + n ∧ (Spec.civil n).1 < 2100 := by
  obtain ⟨v1, v2, v3, v4, -⟩ := civil_valid n
  have hd := civil_day_le n
  obtain ⟨r0, r1⟩ := julianDay_range _ _ _ v1 v2 v3 v4 hd
  have e := C86_julian_day_partial n
  have h0' : (719162 : ℚ) ≤ n := by exact_mod_cast h0
  have h1' : (n : ℚ) < 719162 + 46297 := by exact_mod_cast h1
  have e0 : 1721425.5 + (n : ℚ) ≤ julianDayNumber (Spec.civil n).1 (Spec.civil n).2.1 (Spec.civil n).2.2 := by
    rw [e]; split_ifs <;> linarith
  have e1 : julianDayNumber (Spec.civil n).1 (Spec.civil n).2.1 (Spec.civil n).2.2 ≤ 1721425.5 + n + 1 := by
    rw [e]; split_ifs <;> linarith
  have lt : (Spec.civil n).1 < 2100 := by
    have : ((Spec.civil n).1 : ℚ) < 2100 := by clear e; norm_num at r0 r1 e0 e1; linarith
    exact_mod_cast this
  refine ⟨C86_modern _ ?_ (Or.inl lt), lt⟩
  left
  have : (1901 : ℚ) < (Spec.civil n).1 := by clear e; norm_num at r0 r1 e0 e1; linarith
  exact_mod_cast this

theorem day_split (t : ℤ) (h0 : 0 ≤ t) :
    fractionOfDay t = ((t / 1000000 : ℤ) : ℝ) / 86400 - ((t / (86400 * 1000000) : ℤ) : ℝ) := by
  unfold fractionOfDay
  have e : Int.tdiv t usPerSec = t / 1000000 := by
    rw [Int.tdiv_eq_ediv_of_nonneg h0]; rfl
  rw [e]
  have e2 : t / 1000000 % 86400 = t / 1000000 - 86400 * (t / (86400 * 1000000)) := by omega
  have e3 : (t / 1000000).emod 86400 = t / 1000000 - 86400 * (t / (86400 * 1000000)) := e2
  rw [e3]
  push_cast
  ring

theorem julianCentury_sec (cal : Calendar) (hcal : Spec.Gregorian cal) (t : ℤ) (h0 : 0 ≤ t) (h1 : t < 4000000000 * 1000000) :
    julianCentury (cal t).1 (cal t).2.1 (cal t).2.2 t = sunJc ((t / 1000000 : ℤ) : ℝ) := by
  unfold julianCentury
  rw [hcal.2 t h0 h1, (julianDay_modern _ (by omega) (by omega)).1, day_split t h0]
  unfold sunJc
  have hn : (((t / (86400 * 1000000)).toNat : ℕ) : ℝ) = ((t / (86400 * 1000000) : ℤ) : ℝ) := by
    have : (((t / (86400 * 1000000)).toNat : ℕ) : ℤ) = t / (86400 * 1000000) := Int.toNat_of_nonneg (by positivity)
    exact_mod_cast this
  generalize t / (86400 * 1000000) = d at *
  push_cast
  rw [hn]
  ring

theorem sunJc_range {σ : ℝ} (h0 : 0 ≤ σ) (h1 : σ ≤ 4000000000) : |sunJc σ| ≤ 1 := by
  unfold sunJc
  rw [abs_le]
  constructor
  · rw [le_div_iff₀ (by norm_num)]; norm_num; linarith
  · rw [div_le_iff₀ (by norm_num)]; norm_num; linarith

/-- Sine of the declination at second `σ`. -/
noncomputable def sunS (σ : ℝ) : ℝ := sinDeclination (sunJc σ)

/-- Hour angle at second `σ` and longitude `lng` [rad], counted from midnight. -/
noncomputable def sunPhi (lng σ : ℝ) : ℝ := 2 * Real.pi * (σ / 86400) + eqTime (sunJc σ) + lng

/-- Sine of the geometric elevation. -/
noncomputable def sunX (l : LatLng) (σ : ℝ) : ℝ :=
  Real.sin l.lat * sunS σ - Real.cos l.lat * Real.sqrt (1 - sunS σ ^ 2) * Real.cos (sunPhi l.lng σ)

/-- Apparent elevation from the geometric one. -/
noncomputable def apparent (e : ℝ) : ℝ := e + refraction e / 3600

theorem cos_hourAngle (jc frac lng : ℝ) (k : ℤ) :
    Real.cos (hourAngle jc (frac - k) (degrees lng)) = -Real.cos (2 * Real.pi * frac + eqTime jc + lng) := by
  have hpi := Real.pi_pos.ne'
  have key : ∀ n : ℤ, radians (1440 * (frac - k) + degrees (equationOfTime jc) + 4 * degrees lng - 1440 * n) / 4 =
      (2 * Real.pi * frac + eqTime jc + lng) - (k + n : ℤ) * (2 * Real.pi) := by
    intro n
    unfold radians degrees eqTime
    push_cast
    field_simp
    ring
  have fin : ∀ n : ℤ, Real.cos ((2 * Real.pi * frac + eqTime jc + lng) - (k + n : ℤ) * (2 * Real.pi) + Real.pi) =
      -Real.cos (2 * Real.pi * frac + eqTime jc + lng) := by
    intro n; rw [Real.cos_add_pi, Real.cos_sub_int_mul_two_pi]
  have fin' : ∀ n : ℤ, Real.cos ((2 * Real.pi * frac + eqTime jc + lng) - (k + n : ℤ) * (2 * Real.pi) - Real.pi) =
      -Real.cos (2 * Real.pi * frac + eqTime jc + lng) := by
    intro n; rw [Real.cos_sub_pi, Real.cos_sub_int_mul_two_pi]
  unfold hourAngle
  simp only
  have hf : ∃ n : ℤ, fmod (1440 * (frac - k) + degrees (equationOfTime jc) + 4 * degrees lng) 1440 =
      1440 * (frac - k) + degrees (equationOfTime jc) + 4 * degrees lng - 1440 * n := by
    unfold fmod; split_ifs
    · exact ⟨_, rfl⟩
    · exact ⟨_, rfl⟩
  obtain ⟨n, hn⟩ := hf
  rw [hn, key]
  split_ifs
  · exact fin n
  · exact fin' n

/-- The elevation of the code's ephemeris. -/
theorem realSun_el (cal : Calendar) (hcal : Spec.Gregorian cal) (l : LatLng) (t : ℤ) (h0 : 0 ≤ t)
    (h1 : t < 4000000000 * 1000000) :
    (realSun cal l t).el = apparent (degrees (Real.arcsin (sunX l ((t / 1000000 : ℤ) : ℝ)))) := by
  have hpi := Real.pi_pos.ne'
  have hz : cosZenith (sunJc ((t / 1000000 : ℤ) : ℝ)) (fractionOfDay t) l.lat (degrees l.lng) =
      sunX l ((t / 1000000 : ℤ) : ℝ) := by
    unfold cosZenith sunX
    simp only
    obtain ⟨s1, s2⟩ := (C85_position (sunJc ((t / 1000000 : ℤ) : ℝ)) 0 0 0).1
    rw [day_split t h0, cos_hourAngle, Real.sin_arcsin s1 s2, Real.cos_arcsin]
    unfold sunS sunPhi
    ring
  have he : ∀ x, 90 - degrees (Real.arccos x) = degrees (Real.arcsin x) := by
    intro x
    unfold degrees
    rw [Real.arccos_eq_pi_div_two_sub_arcsin]
    field_simp
    ring
  unfold realSun solarCalculator solarCalculatorAt
  simp only
  rw [julianCentury_sec cal hcal t h0 h1, hz, he]
  rfl

/-! ## Rates -/

theorem sunS_bound {σ : ℝ} (h0 : 0 ≤ σ) (h1 : σ ≤ 4000000000) : |sunS σ| ≤ 0.41 :=
  (lip_sinDeclination _ _ (sunJc_range h0 h1) (sunJc_range h0 h1)).1

theorem sunJc_sub (σ τ : ℝ) : |sunJc σ - sunJc τ| = |σ - τ| / 3155760000 := by
  unfold sunJc
  rw [show (σ / 86400 - 10957.5) / 36525 - (τ / 86400 - 10957.5) / 36525 = (σ - τ) / 3155760000 by ring, abs_div,
    abs_of_pos (by norm_num : (0 : ℝ) < 3155760000)]

theorem sunS_rate {σ τ : ℝ} (h0 : 0 ≤ σ) (h1 : σ ≤ 4000000000) (h2 : 0 ≤ τ) (h3 : τ ≤ 4000000000) :
    |sunS σ - sunS τ| ≤ 1e-7 * |σ - τ| := by
  have h := (lip_sinDeclination _ _ (sunJc_range h0 h1) (sunJc_range h2 h3)).2
  rw [sunJc_sub] at h
  refine h.trans ?_
  have := abs_nonneg (σ - τ)
  rw [show (272 : ℝ) * (|σ - τ| / 3155760000) = (272 / 3155760000) * |σ - τ| by ring]
  exact mul_le_mul_of_nonneg_right (by norm_num) this

theorem sunPhi_rate (lng : ℝ) {σ τ : ℝ} (h0 : 0 ≤ σ) (h1 : σ ≤ 4000000000) (h2 : 0 ≤ τ) (h3 : τ ≤ 4000000000) :
    |sunPhi lng σ - sunPhi lng τ - 2 * Real.pi * ((σ - τ) / 86400)| ≤ 4e-8 * |σ - τ| := by
  have h := (lip_eqTime _ _ (sunJc_range h0 h1) (sunJc_range h2 h3)).2
  rw [sunJc_sub] at h
  have := abs_nonneg (σ - τ)
  rw [show (100 : ℝ) * (|σ - τ| / 3155760000) = (100 / 3155760000) * |σ - τ| by ring] at h
  rw [show sunPhi lng σ - sunPhi lng τ - 2 * Real.pi * ((σ - τ) / 86400) = eqTime (sunJc σ) - eqTime (sunJc τ) by
    unfold sunPhi; ring]
  exact h.trans (mul_le_mul_of_nonneg_right (by norm_num) this)

end BLE
