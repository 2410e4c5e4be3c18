import Verif.Lemmas.Sun3

/-!
# The daily course of the sun within 30° of the equator
-/

namespace BLE

/-- Apparent elevation at second `σ`. -/
noncomputable def sunEl (l : LatLng) (σ : ℝ) : ℝ := apparent (degrees (Real.arcsin (sunX l σ)))

/-- Amplitude of the daily oscillation of `sunX`. -/
noncomputable def sunP (l : LatLng) (σ : ℝ) : ℝ := Real.cos l.lat * Real.sqrt (1 - sunS σ ^ 2)

/-- Within the seconds 1970–2096. -/
def InEra (σ : ℝ) : Prop := 0 ≤ σ ∧ σ ≤ 4000000000

/-- Within 30° of the equator. -/
def Tropical (l : LatLng) : Prop := |l.lat| ≤ Real.pi / 6

theorem tropical_trig {l : LatLng} (hl : Tropical l) : |Real.sin l.lat| ≤ 0.5 ∧ 0.866 ≤ Real.cos l.lat := by
  have hpi := Real.pi_pos
  obtain ⟨h0, h1⟩ := abs_le.1 hl
  have s1 := Real.sin_le_sin_of_le_of_le_pi_div_two (x := l.lat) (y := Real.pi / 6) (by linarith) (by linarith) h1
  have s0 := Real.sin_le_sin_of_le_of_le_pi_div_two (x := -(Real.pi / 6)) (y := l.lat) (by linarith) (by linarith) h0
  rw [Real.sin_neg, Real.sin_pi_div_six] at s0
  rw [Real.sin_pi_div_six] at s1
  refine ⟨abs_le.2 ⟨by norm_num at *; linarith, by norm_num at *; linarith⟩, ?_⟩
  have c : Real.cos (Real.pi / 6) ≤ Real.cos |l.lat| := by
    apply Real.cos_le_cos_of_nonneg_of_le_pi (abs_nonneg _) (by linarith) hl
  rw [Real.cos_abs, Real.cos_pi_div_six] at c
  have : 1.732 ≤ Real.sqrt 3 := by apply Real.le_sqrt_of_sq_le; norm_num
  norm_num at *; linarith

theorem sunS_sqrt {σ : ℝ} (h : InEra σ) : 0.912 ≤ Real.sqrt (1 - sunS σ ^ 2) ∧ Real.sqrt (1 - sunS σ ^ 2) ≤ 1 ∧
    Real.sqrt (1 - sunS σ ^ 2) ^ 2 = 1 - sunS σ ^ 2 := by
  have hs := sunS_bound h.1 h.2
  have hs2 : sunS σ ^ 2 ≤ 0.41 ^ 2 := by
    rw [← sq_abs]; exact pow_le_pow_left₀ (abs_nonneg _) hs 2
  refine ⟨?_, ?_, ?_⟩
  · apply Real.le_sqrt_of_sq_le; norm_num at *; linarith
  · rw [Real.sqrt_le_iff]; exact ⟨by norm_num, by linarith [sq_nonneg (sunS σ)]⟩
  · apply Real.sq_sqrt; norm_num at *; linarith

theorem sunP_range {l : LatLng} (hl : Tropical l) {σ : ℝ} (h : InEra σ) : 0.789 ≤ sunP l σ ∧ sunP l σ ≤ 1 := by
  obtain ⟨-, c⟩ := tropical_trig hl
  obtain ⟨q0, q1, -⟩ := sunS_sqrt h
  unfold sunP
  constructor
  · have := mul_le_mul c q0 (by norm_num) (by norm_num at *; linarith)
    norm_num at *; linarith
  · exact mul_le_one₀ (Real.cos_le_one _) (Real.sqrt_nonneg _) q1

theorem sunX_eq (l : LatLng) (σ : ℝ) : sunX l σ = Real.sin l.lat * sunS σ - sunP l σ * Real.cos (sunPhi l.lng σ) := rfl

theorem sunQ_bound {l : LatLng} (hl : Tropical l) {σ : ℝ} (h : InEra σ) : |Real.sin l.lat * sunS σ| ≤ 0.205 := by
  obtain ⟨s, -⟩ := tropical_trig hl
  have hs := sunS_bound h.1 h.2
  rw [abs_mul]
  have := mul_le_mul s hs (abs_nonneg _) (by norm_num)
  norm_num at *; linarith

/-- Declination and latitude together never exceed the unit circle. -/
theorem sunQP (l : LatLng) {σ : ℝ} (h : InEra σ) :
    Real.sin l.lat * sunS σ + sunP l σ ≤ 1 ∧ -1 ≤ Real.sin l.lat * sunS σ - sunP l σ := by
  obtain ⟨-, -, q2⟩ := sunS_sqrt h
  have sc := Real.sin_sq_add_cos_sq l.lat
  unfold sunP
  generalize Real.sqrt (1 - sunS σ ^ 2) = c at *
  constructor
  · nlinarith [sq_nonneg (Real.sin l.lat - sunS σ), sq_nonneg (Real.cos l.lat - c)]
  · nlinarith [sq_nonneg (Real.sin l.lat + sunS σ), sq_nonneg (Real.cos l.lat - c)]

theorem sunX_range (l : LatLng) {σ : ℝ} (hl : Tropical l) (h : InEra σ) : -1 ≤ sunX l σ ∧ sunX l σ ≤ 1 := by
  obtain ⟨a, b⟩ := sunQP l h
  obtain ⟨p0, -⟩ := sunP_range hl h
  have c1 := Real.cos_le_one (sunPhi l.lng σ)
  have c0 := Real.neg_one_le_cos (sunPhi l.lng σ)
  rw [sunX_eq]
  constructor <;> norm_num at p0 ⊢ <;> nlinarith

/-- Change of `sunX`: that of the hour angle, up to the slow change of the declination. -/
theorem sunX_diff {l : LatLng} (hl : Tropical l) {σ τ : ℝ} (h : InEra σ) (h' : InEra τ) :
    |sunX l σ - sunX l τ - sunP l τ * (Real.cos (sunPhi l.lng τ) - Real.cos (sunPhi l.lng σ))| ≤ 1e-7 * |σ - τ| := by
  obtain ⟨s, c⟩ := tropical_trig hl
  obtain ⟨a0, a1, a2⟩ := sunS_sqrt h
  obtain ⟨b0, b1, b2⟩ := sunS_sqrt h'
  have rate := sunS_rate h.1 h.2 h'.1 h'.2
  have s1 := sunS_bound h.1 h.2
  have s2 := sunS_bound h'.1 h'.2
  have hq : |Real.sqrt (1 - sunS σ ^ 2) - Real.sqrt (1 - sunS τ ^ 2)| ≤ 0.45 * |sunS σ - sunS τ| := by
    generalize Real.sqrt (1 - sunS σ ^ 2) = a at *
    generalize Real.sqrt (1 - sunS τ ^ 2) = b at *
    have e : (a - b) * (a + b) = -((sunS σ - sunS τ) * (sunS σ + sunS τ)) := by linear_combination a2 - b2
    have e' : |a - b| * (a + b) = |sunS σ - sunS τ| * |sunS σ + sunS τ| := by
      rw [← abs_of_nonneg (show 0 ≤ a + b by norm_num at a0 b0; linarith), ← abs_mul, ← abs_mul, e, abs_neg]
    have hsum : |sunS σ + sunS τ| ≤ 0.82 := (abs_add_le _ _).trans (by norm_num at s1 s2 ⊢; linarith)
    have n1 := abs_nonneg (sunS σ - sunS τ)
    have n2 := abs_nonneg (a - b)
    have m1 := mul_le_mul_of_nonneg_left hsum n1
    have m2 := mul_le_mul_of_nonneg_left (show 1.824 ≤ a + b by norm_num at a0 b0 ⊢; linarith) n2
    norm_num at m1 m2 ⊢
    linarith
  have e : sunX l σ - sunX l τ - sunP l τ * (Real.cos (sunPhi l.lng τ) - Real.cos (sunPhi l.lng σ)) =
      Real.sin l.lat * (sunS σ - sunS τ) -
      Real.cos l.lat * (Real.sqrt (1 - sunS σ ^ 2) - Real.sqrt (1 - sunS τ ^ 2)) * Real.cos (sunPhi l.lng σ) := by
    unfold sunX sunP; ring
  rw [e]
  refine (abs_sub _ _).trans ?_
  rw [abs_mul, abs_mul, abs_mul]
  have n1 := abs_nonneg (sunS σ - sunS τ)
  have t1 := mul_le_mul_of_nonneg_right s n1
  have t2 : |Real.cos l.lat| * |Real.sqrt (1 - sunS σ ^ 2) - Real.sqrt (1 - sunS τ ^ 2)| * |Real.cos (sunPhi l.lng σ)| ≤
      |Real.sqrt (1 - sunS σ ^ 2) - Real.sqrt (1 - sunS τ ^ 2)| := by
    have k1 := Real.abs_cos_le_one l.lat
    have k2 := Real.abs_cos_le_one (sunPhi l.lng σ)
    have n := abs_nonneg (Real.sqrt (1 - sunS σ ^ 2) - Real.sqrt (1 - sunS τ ^ 2))
    calc _ ≤ 1 * |Real.sqrt (1 - sunS σ ^ 2) - Real.sqrt (1 - sunS τ ^ 2)| * 1 := by gcongr
      _ = _ := by ring
  norm_num at t1 hq rate ⊢
  linarith

/-! ## From the sine to the elevation -/

theorem arcsin_expand {a b : ℝ} (h0 : -1 ≤ a) (h : a ≤ b) (h1 : b ≤ 1) : b - a ≤ Real.arcsin b - Real.arcsin a := by
  have m := Real.monotone_arcsin h
  have := Real.abs_sin_sub_sin_le (Real.arcsin b) (Real.arcsin a)
  rw [Real.sin_arcsin (by linarith) h1, Real.sin_arcsin h0 (by linarith), abs_of_nonneg (by linarith),
    abs_of_nonneg (by linarith)] at this
  exact this

theorem arcsin_close {a b : ℝ} (h0 : -1 ≤ a) (h : a ≤ b) (h1 : b ≤ 1) (hd : b - a < 0.0199) :
    Real.arcsin b - Real.arcsin a < 0.2 := by
  by_contra hc
  rw [not_lt] at hc
  have hpi := Real.pi_gt_three
  have x0 := Real.neg_pi_div_two_le_arcsin a
  have y1 := Real.arcsin_le_pi_div_two b
  have e1 := Real.sin_arcsin (by linarith : -1 ≤ b) h1
  have e0 := Real.sin_arcsin h0 (by linarith : a ≤ 1)
  set x := Real.arcsin a
  set y := Real.arcsin b
  have hs := Real.sin_sub_sin y x
  have c : Real.sin ((y - x) / 2) ≤ Real.cos ((y + x) / 2) := by
    rw [← Real.cos_pi_div_two_sub, ← Real.cos_abs ((y + x) / 2)]
    apply Real.cos_le_cos_of_nonneg_of_le_pi (abs_nonneg _)
    · linarith
    · rw [abs_le]; constructor <;> linarith
  have s0 : Real.sin 0.1 ≤ Real.sin ((y - x) / 2) :=
    Real.sin_le_sin_of_le_of_le_pi_div_two (by linarith) (by linarith) (by norm_num at *; linarith)
  have s1 : 0.0998 ≤ Real.sin 0.1 := by
    have := Real.sin_gt_sub_cube (x := 0.1) (by norm_num)
    norm_num at *; linarith
  have s2 : 0.0998 ≤ Real.sin ((y - x) / 2) := s1.trans s0
  have p : 0.0998 * 0.0998 ≤ Real.sin ((y - x) / 2) * Real.cos ((y + x) / 2) :=
    mul_le_mul s2 (s2.trans c) (by norm_num) (by norm_num at *; linarith)
  rw [e1, e0] at hs
  norm_num at *; linarith

theorem degrees_arcsin_range (x : ℝ) : -90 ≤ degrees (Real.arcsin x) ∧ degrees (Real.arcsin x) ≤ 90 := by
  have hpi := Real.pi_pos
  have h0 := Real.neg_pi_div_two_le_arcsin x
  have h1 := Real.arcsin_le_pi_div_two x
  unfold degrees
  rw [show (-90 : ℝ) = -(Real.pi / 2) * (180 / Real.pi) by field_simp; norm_num,
    show (90 : ℝ) = (Real.pi / 2) * (180 / Real.pi) by field_simp; norm_num]
  constructor <;> gcongr

theorem degrees_sub (a b : ℝ) : degrees a - degrees b = degrees (a - b) := by unfold degrees; ring

theorem degrees_bounds {a : ℝ} (h : 0 ≤ a) : 57.29 * a ≤ degrees a ∧ degrees a ≤ 57.3 * a := by
  have h1 := Real.pi_gt_d4
  have h2 := Real.pi_lt_d4
  have hpi := Real.pi_pos
  unfold degrees
  rw [mul_comm a]
  constructor
  · refine mul_le_mul_of_nonneg_right ?_ h
    rw [le_div_iff₀ hpi]; norm_num at *; linarith
  · refine mul_le_mul_of_nonneg_right ?_ h
    rw [div_le_iff₀ hpi]; norm_num at *; linarith

/-- Nearby sines give elevations less than 15° apart. -/
theorem elevation_close {a b : ℝ} (ha0 : -1 ≤ a) (ha1 : a ≤ 1) (hb0 : -1 ≤ b) (hb1 : b ≤ 1) (h : |a - b| < 0.0199) :
    |apparent (degrees (Real.arcsin a)) - apparent (degrees (Real.arcsin b))| < 15 := by
  have key : ∀ a b : ℝ, -1 ≤ a → b ≤ 1 → a ≤ b → b - a < 0.0199 →
      |apparent (degrees (Real.arcsin b)) - apparent (degrees (Real.arcsin a))| < 15 := by
    intro a b ha hb hab hd
    have c := arcsin_close ha hab hb hd
    have m := Real.monotone_arcsin hab
    obtain ⟨d0, d1⟩ := degrees_bounds (a := Real.arcsin b - Real.arcsin a) (by linarith)
    rw [← degrees_sub] at d0 d1
    obtain ⟨r0, r1⟩ := degrees_arcsin_range a
    obtain ⟨q0, q1⟩ := degrees_arcsin_range b
    obtain ⟨n0, n1⟩ := apparent_near r0 r1
    obtain ⟨m0, m1⟩ := apparent_near q0 q1
    rw [abs_lt]
    constructor <;> norm_num at * <;> linarith
  rcases le_total a b with hab | hab
  · rw [abs_sub_comm] at h ⊢
    rw [abs_of_nonneg (by linarith)] at h
    exact key a b ha0 hb1 hab h
  · rw [abs_of_nonneg (by linarith)] at h
    exact key b a hb0 ha1 hab h

/-- Geometric elevation with a sine of at most 0.99 is below 84°. -/
theorem arcsin_below {x : ℝ} (h : x ≤ 0.99) : degrees (Real.arcsin x) ≤ 84 := by
  have hpi := Real.pi_pos
  have hle : Real.arcsin x ≤ radians 84 := by
    rw [Real.arcsin_le_iff_le_sin' ⟨by unfold radians; nlinarith, by unfold radians; nlinarith⟩]
    refine h.trans ?_
    have e : Real.sin (radians 84) = Real.cos (radians 6) := by
      rw [← Real.sin_pi_div_two_sub]; congr 1; unfold radians; ring
    rw [e]
    have c := Real.one_sub_sq_div_two_le_cos (x := radians 6)
    obtain ⟨r0, r1⟩ := radians_bounds (e := 6) (by norm_num)
    have : radians 6 ^ 2 ≤ 0.11 ^ 2 := pow_le_pow_left₀ (by norm_num at *; linarith) (by norm_num at *; linarith) 2
    norm_num at *; linarith
  have : degrees (Real.arcsin x) ≤ degrees (radians 84) := by
    unfold degrees; gcongr
  have e : degrees (radians 84) = 84 := by unfold degrees radians; field_simp
  rwa [e] at this

/-- A visibly larger sine is a larger apparent elevation. -/
theorem elevation_lt {a b : ℝ} (h0 : -1 ≤ a) (hd : a + 1e-5 ≤ b) (h1 : b ≤ 0.99) :
    apparent (degrees (Real.arcsin a)) < apparent (degrees (Real.arcsin b)) := by
  have hab : a ≤ b := by norm_num at *; linarith
  have c := arcsin_expand h0 hab (by norm_num at *; linarith)
  obtain ⟨d0, -⟩ := degrees_bounds (a := Real.arcsin b - Real.arcsin a) (by linarith)
  rw [← degrees_sub] at d0
  obtain ⟨r0, r1⟩ := degrees_arcsin_range a
  have h84 := arcsin_below h1
  have m := apparent_mono r0 (by norm_num at *; linarith) h84
  norm_num at *; linarith

end BLE
