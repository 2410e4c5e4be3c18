import Verif.Lemmas.Halving
import Mathlib.Analysis.Real.Pi.Bounds

/-!
# What the search for the sunrise elevation finds

Real analysis behind C132: the search of `solar.py:296-375` for the level of −4.242° between a midnight
and a noon, for an elevation that follows `Q − P·cos ψ` with nearly constant `Q`, `P` and nearly uniform `ψ`.
-/

namespace BLE

/-- Refraction is between 0 and 0.581°; at most 0.08° below −4.242°, and small far from the horizon. -/
theorem refraction_fine {e : ℝ} (h0 : -90 ≤ e) (h1 : e ≤ 90) :
    0 ≤ refraction e ∧ refraction e ≤ 2090 ∧ (e ≤ -4.242 → refraction e ≤ 286) ∧
    (e ≤ -44 → refraction e ≤ 30) ∧ (44 ≤ e → refraction e ≤ 80) := by
  have hpi3 := Real.pi_gt_d2
  have hpi := Real.pi_pos
  rcases le_or_gt e (-0.575) with a | a
  · rw [refraction_one a]
    have g := refr1_mono h0 a le_rfl
    have g0 : 0 ≤ refr1 e := by
      have := refr1_mono le_rfl h0 a
      have e90 : refr1 (-90) = 0 := by
        rw [refr1_neg, show radians (- -90) = Real.pi / 2 by unfold radians; ring, Real.tan_pi_div_two, div_zero]
      linarith
    have j := refr1_low
    have e2 : refr2 (-0.575) ≤ 2070 := by unfold refr2; norm_num
    have key : ∀ x B : ℝ, 0 < x → x < 90 → 20.772 ≤ B * (0.01744 * x) → e ≤ -x → refr1 e ≤ B := by
      intro x B hx hx' hB hle
      rw [refr1_neg]
      have hr0 : 0.01744 * x ≤ radians x := by
        unfold radians
        have : 0.01744 ≤ Real.pi / 180 := by linarith
        nlinarith
      have hr1 : radians x < Real.pi / 2 := by unfold radians; nlinarith
      have ht := Real.le_tan (by nlinarith : 0 ≤ radians x) hr1
      rcases eq_or_lt_of_le h0 with h90 | h90
      · rw [← h90, show radians (- -90) = Real.pi / 2 by unfold radians; ring, Real.tan_pi_div_two, div_zero]
        by_contra hneg
        nlinarith
      · have hmono : Real.tan (radians x) ≤ Real.tan (radians (-e)) := by
          rcases eq_or_lt_of_le (by linarith : x ≤ -e) with q | q
          · rw [q]
          · refine (Real.tan_lt_tan_of_nonneg_of_lt_pi_div_two ?_ ?_ ?_).le
            · unfold radians; positivity
            · unfold radians; nlinarith
            · unfold radians; nlinarith
        have hlow : 0.01744 * x ≤ Real.tan (radians (-e)) := hr0.trans (ht.trans hmono)
        have hpos : 0 < Real.tan (radians (-e)) := by nlinarith
        rw [div_le_iff₀ hpos]
        have : 0 ≤ B := by by_contra hneg; nlinarith
        nlinarith
    refine ⟨g0, by norm_num at *; linarith, fun h => key 4.242 286 (by norm_num) (by norm_num) (by norm_num) h,
      fun h => key 44 30 (by norm_num) (by norm_num) (by norm_num) h, fun h => by norm_num at *; linarith⟩
  rcases le_or_gt e 5 with a' | a'
  · rw [refraction_two a a']
    have e2 : refr2 e = 1735 - 518.2 * e + e ^ 2 * (0.711 * e ^ 2 - 12.79 * e + 103.4) := by unfold refr2; ring
    have q : 57 ≤ 0.711 * e ^ 2 - 12.79 * e + 103.4 := by norm_num at *; nlinarith
    have g0 : 0 ≤ refr2 e := by
      have q2 := mul_le_mul_of_nonneg_left q (sq_nonneg e)
      rw [e2]
      norm_num at q2 ⊢
      nlinarith [sq_nonneg (e - 4.5)]
    refine ⟨g0, ?_, fun h => by norm_num at *; linarith, fun h => by norm_num at *; linarith,
      fun h => by norm_num at *; linarith⟩
    unfold refr2
    rcases le_or_gt 0 e with p | p
    · have i1 : e * (-12.79 + e * 0.711) ≤ 0 := mul_nonpos_of_nonneg_of_nonpos p (by norm_num at *; linarith)
      have i2 : e * (103.4 + e * (-12.79 + e * 0.711)) ≤ 517 := by
        have : e * (103.4 + e * (-12.79 + e * 0.711)) ≤ e * 103.4 := mul_le_mul_of_nonneg_left (by linarith) p
        norm_num at *; linarith
      have i3 : e * (-518.2 + e * (103.4 + e * (-12.79 + e * 0.711))) ≤ 0 :=
        mul_nonpos_of_nonneg_of_nonpos p (by norm_num at *; linarith)
      linarith
    · have r1 : 0.711 * e ^ 2 - 12.79 * e + 103.4 ≤ 112 := by norm_num at *; nlinarith
      have r2 : e ^ 2 ≤ 0.3307 := by norm_num at *; nlinarith
      have : e ^ 2 * (0.711 * e ^ 2 - 12.79 * e + 103.4) ≤ 0.3307 * 112 :=
        mul_le_mul r2 r1 (by linarith) (by norm_num)
      have e3 : 1735 + e * (-518.2 + e * (103.4 + e * (-12.79 + e * 0.711))) =
        1735 - 518.2 * e + e ^ 2 * (0.711 * e ^ 2 - 12.79 * e + 103.4) := by ring
      rw [e3]
      norm_num at *; linarith
  rcases le_or_gt e 85 with a'' | a''
  · rw [refraction_three a' a'']
    have hr0 : 0.08 ≤ radians e := by unfold radians; nlinarith
    have hr1 : radians e < Real.pi / 2 := by unfold radians; nlinarith
    have ht := Real.le_tan (by linarith) hr1
    have ht' : 0.08 ≤ Real.tan (radians e) := le_trans hr0 ht
    have hbig : 44 ≤ e → 0.76 ≤ Real.tan (radians e) := fun h => le_trans (by unfold radians; nlinarith) ht
    unfold refr3
    generalize Real.tan (radians e) = t at *
    have htp : 0 < t := by linarith
    have a1 : 58.1 / t ≤ 800 := by rw [div_le_iff₀ htp]; linarith
    have t2 : 0.0064 ≤ t ^ 2 := by have := pow_le_pow_left₀ (by norm_num) ht' 2; norm_num at *; linarith
    have t5 : 0.000003 ≤ t ^ 5 := by
      have := pow_le_pow_left₀ (by norm_num) ht' 5; norm_num at this ⊢; linarith
    have b2 : 0 ≤ 0.07 / t ^ 3 := by positivity
    have d1 : 0.000086 / t ^ 5 ≤ 100 := by rw [div_le_iff₀ (by positivity)]; linarith
    have d2 : 0 ≤ 0.000086 / t ^ 5 := by positivity
    have k : 0 ≤ 58.1 / t - 0.07 / t ^ 3 := by
      rw [show 58.1 / t - 0.07 / t ^ 3 = (58.1 * t ^ 2 - 0.07) / t ^ 3 by field_simp]
      have : 0 ≤ 58.1 * t ^ 2 - 0.07 := by norm_num at *; linarith
      positivity
    refine ⟨by linarith, by linarith, fun h => by norm_num at *; linarith, fun h => by norm_num at *; linarith, fun h => ?_⟩
    have ht := hbig h
    have a1 : 58.1 / t ≤ 77 := by rw [div_le_iff₀ htp]; norm_num at *; linarith
    have t5 : 0.25 ≤ t ^ 5 := by
      have := pow_le_pow_left₀ (by norm_num) ht 5; norm_num at this ⊢; linarith
    have d1 : 0.000086 / t ^ 5 ≤ 1 := by rw [div_le_iff₀ (by positivity)]; linarith
    linarith
  · have : refraction e = 0 := by unfold refraction; rw [if_pos a'']
    rw [this]
    norm_num

/-! ## Elevations from sines -/

/-- The elevation shown for a sine of the geometric elevation. -/
noncomputable def elOf (x : ℝ) : ℝ := apparent (degrees (Real.arcsin x))

theorem elOf_geo (x : ℝ) : degrees (Real.arcsin x) ≤ elOf x ∧ elOf x ≤ degrees (Real.arcsin x) + 0.581 ∧
    (degrees (Real.arcsin x) ≤ -4.242 → elOf x ≤ degrees (Real.arcsin x) + 0.08) ∧
    (degrees (Real.arcsin x) ≤ -44 ∨ 44 ≤ degrees (Real.arcsin x) → elOf x ≤ degrees (Real.arcsin x) + 0.023) := by
  obtain ⟨d0, d1⟩ := degrees_arcsin_range x
  obtain ⟨r1, r2, r3, r4, r5⟩ := refraction_fine d0 d1
  unfold elOf apparent
  refine ⟨by linarith, by norm_num at *; linarith, fun h => ?_, fun h => ?_⟩
  · have := r3 h; norm_num at *; linarith
  · rcases h with h | h
    · have := r4 h; norm_num at *; linarith
    · have := r5 h; norm_num at *; linarith

/-- Two elevations whose geometric mean value is known bound the mean of the sines. -/
theorem mean_sine (a b : ℝ) (ha : -1 ≤ a ∧ a ≤ 1) (hb : -1 ≤ b ∧ b ≤ 1) :
    (∀ m, 0 ≤ m → -(2 * m) ≤ degrees (Real.arcsin a) + degrees (Real.arcsin b) → -(0.01746 * m) ≤ (a + b) / 2) ∧
    (degrees (Real.arcsin a) + degrees (Real.arcsin b) ≤ 0 → (a + b) / 2 ≤ 0) := by
  have hpi := Real.pi_pos
  have hpi' := Real.pi_lt_d4
  have ea := Real.sin_arcsin ha.1 ha.2
  have eb := Real.sin_arcsin hb.1 hb.2
  have a1 := Real.neg_pi_div_two_le_arcsin a
  have a2 := Real.arcsin_le_pi_div_two a
  have b1 := Real.neg_pi_div_two_le_arcsin b
  have b2 := Real.arcsin_le_pi_div_two b
  have hsum : degrees (Real.arcsin a) + degrees (Real.arcsin b) = (Real.arcsin a + Real.arcsin b) * (180 / Real.pi) := by
    unfold degrees; ring
  rw [hsum]
  generalize Real.arcsin a = x at *
  generalize Real.arcsin b = y at *
  have hs : (a + b) / 2 = Real.sin ((x + y) / 2) * Real.cos ((x - y) / 2) := by
    rw [← ea, ← eb]
    have h1 := Real.sin_add ((x + y) / 2) ((x - y) / 2)
    have h2 := Real.sin_sub ((x + y) / 2) ((x - y) / 2)
    rw [show (x + y) / 2 + (x - y) / 2 = x by ring] at h1
    rw [show (x + y) / 2 - (x - y) / 2 = y by ring] at h2
    linarith
  have hc0 : 0 ≤ Real.cos ((x - y) / 2) := Real.cos_nonneg_of_neg_pi_div_two_le_of_le (by linarith) (by linarith)
  have hc1 := Real.cos_le_one ((x - y) / 2)
  rw [hs]
  have hq : 0 < 180 / Real.pi := by positivity
  constructor
  · intro m hm h
    have h1 : -(0.01746 * m) ≤ (x + y) / 2 := by
      have : (x + y) * (180 / Real.pi) * (Real.pi / 180) = x + y := by field_simp
      have hp : Real.pi / 180 ≤ 0.01746 := by linarith
      have h2 := mul_le_mul_of_nonneg_right h (by positivity : 0 ≤ Real.pi / 180)
      rw [this] at h2
      nlinarith
    rcases le_or_gt 0 ((x + y) / 2) with p | p
    · have := Real.sin_nonneg_of_nonneg_of_le_pi p (by linarith)
      have := mul_nonneg this hc0
      nlinarith
    · have h3 : (x + y) / 2 ≤ Real.sin ((x + y) / 2) := by
        have := Real.sin_lt (x := -((x + y) / 2)) (by linarith)
        rw [Real.sin_neg] at this; linarith
      have h4 : Real.sin ((x + y) / 2) ≤ 0 := Real.sin_nonpos_of_nonpos_of_neg_pi_le p.le (by linarith)
      nlinarith
  · intro h
    have p : (x + y) / 2 ≤ 0 := by
      by_contra hn
      have : 0 < (x + y) * (180 / Real.pi) := mul_pos (by linarith) hq
      linarith
    have h4 : Real.sin ((x + y) / 2) ≤ 0 := Real.sin_nonpos_of_nonpos_of_neg_pi_le p (by linarith)
    exact mul_nonpos_of_nonpos_of_nonneg h4 hc0

/-- Sine bounds for small elevations and elevation bounds for sines. -/
theorem deg_of_sine {x : ℝ} (h0 : -1 ≤ x) (h1 : x ≤ 1) :
    (∀ c, 0 ≤ c → c ≤ x → 57.29 * c ≤ degrees (Real.arcsin x)) ∧
    (∀ c, 0 ≤ c → x ≤ -c → degrees (Real.arcsin x) ≤ -(57.29 * c)) ∧
    (∀ c, 0 ≤ c → c ≤ 0.16 → |x| ≤ c → |degrees (Real.arcsin x)| ≤ 58.5 * c) ∧
    (∀ m, 0 ≤ m → m ≤ 80 → -m ≤ degrees (Real.arcsin x) → -(0.01746 * m) ≤ x) ∧
    (degrees (Real.arcsin x) ≤ 0 → x ≤ 0) := by
  have hpi := Real.pi_pos
  have hpi' := Real.pi_lt_d4
  have hpi3 := Real.pi_gt_d4
  have key : ∀ {y c : ℝ}, -1 ≤ y → y ≤ 1 → 0 ≤ c → c ≤ y → 57.29 * c ≤ degrees (Real.arcsin y) := by
    intro y c hy0 hy1 hc hcy
    have h2 : y ≤ Real.arcsin y := by
      have := Real.sin_le (Real.arcsin_nonneg.2 (hc.trans hcy))
      rw [Real.sin_arcsin hy0 hy1] at this
      exact this
    have := (degrees_bounds (hc.trans (hcy.trans h2))).1
    nlinarith
  have hneg : degrees (Real.arcsin (-x)) = -degrees (Real.arcsin x) := by
    rw [Real.arcsin_neg]; unfold degrees; ring
  have hup : ∀ {y c : ℝ}, 0 ≤ y → y ≤ c → c ≤ 0.16 → degrees (Real.arcsin y) ≤ 58.5 * c := by
    intro y c hy hyc hc
    have h2 : Real.arcsin y ≤ 1.02 * c := by
      rcases eq_or_lt_of_le (hy.trans hyc) with e | hcp
      · have : y = 0 := by linarith
        rw [this, ← e]; simp
      · rw [Real.arcsin_le_iff_le_sin' ⟨by linarith, by linarith⟩]
        have := Real.sin_gt_sub_cube (x := 1.02 * c) (by positivity)
        have hc3 : (1.02 * c) ^ 3 ≤ 0.03 * c := by
          have : (1.02 * c) ^ 3 = 1.061208 * c ^ 2 * c := by ring
          rw [this]
          have : c ^ 2 ≤ 0.0256 := by norm_num at *; nlinarith
          exact mul_le_mul_of_nonneg_right (by norm_num at *; linarith) hcp.le
        linarith
    have h0 : 0 ≤ Real.arcsin y := Real.arcsin_nonneg.2 hy
    have := (degrees_bounds h0).2
    have : (0 : ℝ) ≤ c := hy.trans hyc
    norm_num at *
    nlinarith
  refine ⟨fun c hc h => key h0 h1 hc h, fun c hc h => ?_, fun c hc hc' h => ?_, fun m hm hm' h => ?_, fun h => ?_⟩
  · have := key (y := -x) (c := c) (by linarith) (by linarith) hc (by linarith)
    rw [hneg] at this; linarith
  · obtain ⟨h2, h3⟩ := abs_le.1 h
    rcases le_or_gt 0 x with p | p
    · have u1 := hup p h3 hc'
      have u2 := key h0 h1 le_rfl p
      rw [abs_of_nonneg (by linarith)]; exact u1
    · have u1 := hup (y := -x) (by linarith) (by linarith) hc'
      have u2 := key (y := -x) (c := 0) (by linarith) (by linarith) le_rfl (by linarith)
      rw [hneg] at u1 u2
      rw [abs_of_nonpos (by linarith)]; exact u1
  · have h2 : -(0.01746 * m) ≤ Real.arcsin x := by
      unfold degrees at h
      have e : Real.arcsin x * (180 / Real.pi) * (Real.pi / 180) = Real.arcsin x := by field_simp
      have h2 := mul_le_mul_of_nonneg_right h (by positivity : 0 ≤ Real.pi / 180)
      rw [e] at h2
      have hp : Real.pi / 180 ≤ 0.01746 := by linarith
      nlinarith
    rcases le_or_gt 0 x with p | p
    · have : 0 ≤ 0.01746 * m := by positivity
      linarith
    · have h3 : Real.arcsin x ≤ x := by
        have h4 : 0 < Real.arcsin (-x) := Real.arcsin_pos.2 (by linarith)
        have := Real.sin_lt h4
        rw [Real.sin_arcsin (by linarith) (by linarith), Real.arcsin_neg] at this
        linarith
      linarith
  · by_contra hn
    have h3 : 0 < Real.arcsin x := Real.arcsin_pos.2 (not_le.1 hn)
    have : 0 < degrees (Real.arcsin x) := by unfold degrees; positivity
    linarith

end BLE
