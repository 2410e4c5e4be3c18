import Verif.Lemmas.DayLength
import Verif.Props.NightReserve
import Verif.Props.RealSun

/-!
# C82 and C130 under the code's own sun
-/

namespace BLE

/-- The sun is low: its hour angle at longitude `lng` is within 5 hours (1.328 rad) of midnight, from which `sunPhi` is
counted. -/
def Spec.SunLow (lng : ℝ) (t : ℤ) : Prop := 0.24 ≤ Real.cos (sunPhi lng ((t / 1000000 : ℤ) : ℝ))

theorem near_night {c : LatLng} (hc : |degrees c.lat| ≤ 10) {x y σ : ℝ} (hσ : InEra σ)
    (hd : Real.sqrt (x ^ 2 + y ^ 2) ≤ 350000) (hh : 0.24 ≤ Real.cos (sunPhi c.lng σ)) :
    elOf (sunX (latlngFromOffset c x y) σ) ≤ -4.242 := by
  have hpi := Real.pi_pos
  have hpi3 := Real.pi_gt_d4
  have hpi4 := Real.pi_lt_d4
  obtain ⟨hQ, hP⟩ := station_sun hc hσ
  have hl : |c.lat| ≤ 0.2 := by
    unfold degrees at hc
    rw [abs_mul, abs_of_pos (by positivity : 0 < 180 / Real.pi), ← mul_div_assoc, div_le_iff₀ hpi] at hc
    norm_num at *
    linarith
  obtain ⟨l0, l1⟩ := abs_le.1 hl
  have near := sunX_near c x y hσ (by norm_num at *; linarith) (by norm_num at *; linarith) (by linarith)
  have near' : |sunX (latlngFromOffset c x y) σ - sunX c σ| ≤ 0.05494 := by
    refine near.trans ?_
    rw [div_le_iff₀ (by norm_num)]
    norm_num; linarith
  obtain ⟨n0, n1⟩ := abs_le.1 near'
  have ex : sunX c σ = Real.sin c.lat * sunS σ - sunP c σ * Real.cos (sunPhi c.lng σ) := by rw [sunX_eq]
  obtain ⟨Q0, Q1⟩ := abs_le.1 hQ
  have hX : sunX (latlngFromOffset c x y) σ ≤ -0.0893 := by
    have : (0.898 * 0.24 : ℝ) ≤ sunP c σ * Real.cos (sunPhi c.lng σ) := mul_le_mul hP hh (by norm_num) (by linarith)
    norm_num at *
    linarith
  obtain ⟨-, -, g3, -⟩ := elOf_geo (sunX (latlngFromOffset c x y) σ)
  generalize sunX (latlngFromOffset c x y) σ = X at *
  have ha : Real.arcsin X ≤ -0.0893 := by
    have h1 : Real.arcsin X ≤ Real.arcsin (-0.0893) := Real.arcsin_le_arcsin hX
    refine h1.trans ?_
    rw [Real.arcsin_neg]
    have : (0.0893 : ℝ) ≤ Real.arcsin 0.0893 := by
      rw [Real.le_arcsin_iff_sin_le' ⟨by norm_num at *; linarith, by norm_num at *; linarith⟩]
      exact (Real.sin_lt (by norm_num)).le
    linarith
  have hg : degrees (Real.arcsin X) ≤ -5 := by
    unfold degrees
    rw [← mul_div_assoc, div_le_iff₀ hpi]
    norm_num at *
    linarith
  have := g3 (by norm_num at *; linarith)
  norm_num at *
  linarith

/-- Around a station within 10° of the equator it is dark, by the code's own ephemeris, as long as its midnight is less than
5 hours away and the wind cannot have carried the balloon further than 350 km. -/
theorem C130_real_dark (cal : Calendar) (hcal : Spec.Gregorian cal) (s : BState) (w : ℝ) (T : ℤ) (hw : 0 ≤ w)
    (hlat : |degrees s.center.lat| ≤ 10) (h0 : 0 ≤ s.dateTime) (h1 : T ≤ 4000000000 * 1000000)
    (hreach : Real.sqrt (s.x ^ 2 + s.y ^ 2) + w * (((T - s.dateTime : ℤ) : ℝ) / 1000000) ≤ 350000)
    (hlow : ∀ t, s.dateTime ≤ t → t < T → Spec.SunLow s.center.lng t) :
    Spec.DarkAround (realSun cal) s w T := by
  intro x y t ht hT hd
  rw [realSun_el cal hcal _ t (by omega) (by omega)]
  have hera : InEra ((t / 1000000 : ℤ) : ℝ) := by
    constructor
    · exact_mod_cast (by omega : (0 : ℤ) ≤ t / 1000000)
    · exact_mod_cast (by omega : t / 1000000 ≤ (4000000000 : ℤ))
  refine near_night hlat hera ?_ (hlow t ht hT)
  have htri := drift_triangle s.x s.y (x - s.x) (y - s.y) 1 _ (by norm_num) (le_refl _)
  rw [mul_one, mul_one, mul_one, show s.x + (x - s.x) = x by ring, show s.y + (y - s.y) = y by ring] at htri
  have hlt : (((t - s.dateTime : ℤ) : ℝ) / 1000000) ≤ ((T - s.dateTime : ℤ) : ℝ) / 1000000 := by
    have : ((t - s.dateTime : ℤ) : ℝ) ≤ ((T - s.dateTime : ℤ) : ℝ) := by exact_mod_cast (by omega)
    linarith
  have := mul_le_mul_of_nonneg_left hlt hw
  linarith

/-- Non-vacuity: a calm night of nine hours at some longitude. -/
example : ∃ s : BState, Spec.DarkAround (realSun gregorian) s 10 (s.dateTime + 32400 * 1000000) ∧
    Spec.reserveAt { s with charge := 1600 } (s.dateTime + 32400 * 1000000) ≤ 0 := by
  set lng : ℝ := -sunPhi 0 1300016200 with hl
  refine ⟨{ demo with center := ⟨0, lng⟩, dateTime := 1300000000 * 1000000 }, ?_, ?_⟩
  · refine C130_real_dark gregorian gregorian_ok _ 10 _ (by norm_num) (by simp [degrees]) (by norm_num) (by norm_num) ?_ ?_
    · have : Real.sqrt (demo.x ^ 2 + demo.y ^ 2) = 0 := by simp [demo]
      simp only [this]
      push_cast
      norm_num
    · intro τ h0 h1
      simp only at h0 h1 ⊢
      have z0 : (1300000000 : ℝ) ≤ ((τ / 1000000 : ℤ) : ℝ) := by exact_mod_cast (by omega : (1300000000 : ℤ) ≤ τ / 1000000)
      have z1 : ((τ / 1000000 : ℤ) : ℝ) ≤ 1300032400 := by exact_mod_cast (by omega : τ / 1000000 ≤ (1300032400 : ℤ))
      unfold Spec.SunLow
      generalize ((τ / 1000000 : ℤ) : ℝ) = σ at *
      have hpi4 := Real.pi_lt_d4
      have hpi := Real.pi_pos
      have hn := sunPhi_near lng (σ := σ) (τ := 1300016200) ⟨by linarith, by linarith⟩ ⟨by norm_num, by norm_num⟩
        (by rw [abs_le]; constructor <;> linarith)
      have hp : sunPhi lng 1300016200 = 0 := by
        rw [hl]; unfold sunPhi; ring
      rw [hp, zero_add] at hn
      have hr : |2 * Real.pi * ((σ - 1300016200) / 86400)| ≤ 1.1785 := by
        rw [abs_le]
        have a0 : -0.1875 ≤ (σ - 1300016200) / 86400 := by rw [le_div_iff₀ (by norm_num)]; linarith
        have a1 : (σ - 1300016200) / 86400 ≤ 0.1875 := by rw [div_le_iff₀ (by norm_num)]; linarith
        generalize (σ - 1300016200) / 86400 = r at *
        constructor <;> norm_num at * <;> nlinarith
      have hx : |sunPhi lng σ| ≤ 1.19 := by
        generalize 2 * Real.pi * ((σ - 1300016200) / 86400) = r at *
        rw [abs_le] at hn hr ⊢
        constructor <;> norm_num at * <;> linarith
      rw [← Real.cos_abs]
      have hc := Real.one_sub_sq_div_two_le_cos (x := |sunPhi lng σ|)
      have : |sunPhi lng σ| ^ 2 ≤ 1.19 ^ 2 := pow_le_pow_left₀ (abs_nonneg _) hx 2
      norm_num at *; linarith
  · simp only [Spec.reserveAt, demo]
    push_cast
    norm_num

end BLE
