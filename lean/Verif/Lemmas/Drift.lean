import Verif.Lemmas.Balloon

/-!
# Distances covered with the wind
-/

namespace BLE

/-- Distances add up at most. -/
theorem drift_triangle (x y u v h B : ℝ) (h0 : 0 ≤ h) (hB : Real.sqrt (u ^ 2 + v ^ 2) ≤ B) :
    Real.sqrt ((x + u * h) ^ 2 + (y + v * h) ^ 2) ≤ Real.sqrt (x ^ 2 + y ^ 2) + B * h := by
  have hs := Real.sqrt_nonneg (x ^ 2 + y ^ 2)
  have hw := Real.sqrt_nonneg (u ^ 2 + v ^ 2)
  have es := Real.sq_sqrt (show 0 ≤ x ^ 2 + y ^ 2 by positivity)
  have ew := Real.sq_sqrt (show 0 ≤ u ^ 2 + v ^ 2 by positivity)
  have hm : Real.sqrt (u ^ 2 + v ^ 2) * h ≤ B * h := mul_le_mul_of_nonneg_right hB h0
  refine le_trans ?_ (add_le_add_right hm _)
  generalize Real.sqrt (x ^ 2 + y ^ 2) = r at *
  generalize Real.sqrt (u ^ 2 + v ^ 2) = q at *
  rw [Real.sqrt_le_iff]
  refine ⟨by positivity, ?_⟩
  have cs : x * u + y * v ≤ r * q := by
    refine abs_le_of_sq_le_sq' ?_ (by positivity) |>.2
    have := sq_nonneg (x * v - y * u)
    rw [mul_pow, es, ew]
    nlinarith
  have := mul_le_mul_of_nonneg_right cs h0
  calc (x + u * h) ^ 2 + (y + v * h) ^ 2 = (x ^ 2 + y ^ 2) + 2 * ((x * u + y * v) * h) + (u ^ 2 + v ^ 2) * h ^ 2 := by ring
    _ ≤ (x ^ 2 + y ^ 2) + 2 * (r * q * h) + (u ^ 2 + v ^ 2) * h ^ 2 := by linarith
    _ = (r + q * h) ^ 2 := by rw [← es, ← ew]; ring

/-- The same for the distance from any other point. -/
theorem drift_from (x0 y0 x y u v h B : ℝ) (h0 : 0 ≤ h) (hB : Real.sqrt (u ^ 2 + v ^ 2) ≤ B) :
    Real.sqrt ((x + u * h - x0) ^ 2 + (y + v * h - y0) ^ 2) ≤ Real.sqrt ((x - x0) ^ 2 + (y - y0) ^ 2) + B * h := by
  have := drift_triangle (x - x0) (y - y0) u v h B h0 hB
  rwa [show x - x0 + u * h = x + u * h - x0 by ring, show y - y0 + v * h = y + v * h - y0 by ring] at this

/-- Until the instant `T` it is night (the sun at or below −4.242°) wherever a wind of at most `w` [m/s] can have carried the
balloon by then. -/
def Spec.DarkAround (sun : Sun) (s : BState) (w : ℝ) (T : ℤ) : Prop :=
  ∀ (x y : ℝ) (t : ℤ), s.dateTime ≤ t → t < T →
    Real.sqrt ((x - s.x) ^ 2 + (y - s.y) ^ 2) ≤ w * (((t - s.dateTime : ℤ) : ℝ) / 1000000) →
    (sun (latlngFromOffset s.center x y) t).el ≤ -4.242

/-- Where a balloon is after some calls. -/
structure Drifted (s : BState) (w : ℝ) (x : BState) : Prop where
  center : x.center = s.center
  later : s.dateTime ≤ x.dateTime
  near : Real.sqrt ((x.x - s.x) ^ 2 + (x.y - s.y) ^ 2) ≤ w * (((x.dateTime - s.dateTime : ℤ) : ℝ) / 1000000)

theorem drifted_self (s : BState) (w : ℝ) : Drifted s w s :=
  { center := rfl, later := le_refl _, near := by simp }

theorem drifted_substep {sun : Sun} {α u v w : ℝ} {a : Command} {stride : ℤ} {s x x' : BState} (h0 : 0 ≤ stride)
    (hw : Real.sqrt (u ^ 2 + v ^ 2) ≤ w) (h : substep sun α u v a stride x = .ok x') (hx : Drifted s w x) : Drifted s w x' := by
  obtain ⟨_, _, _, _, _, _, _, _, hs'⟩ := substep_ok h
  have ed : x'.dateTime = x.dateTime + stride := by rw [hs']
  have ex : x'.x = x.x + u * totalSeconds stride := by rw [hs']
  have ey : x'.y = x.y + v * totalSeconds stride := by rw [hs']
  have et : totalSeconds stride = (stride : ℝ) / 1000000 := by norm_num [totalSeconds, usPerSec]
  have h0' : (0 : ℝ) ≤ (stride : ℝ) / 1000000 := by
    have : (0 : ℝ) ≤ stride := by exact_mod_cast h0
    positivity
  refine { center := by rw [hs']; exact hx.center, later := by have := hx.later; omega, near := ?_ }
  rw [ex, ey, et, ed]
  refine (drift_from s.x s.y x.x x.y u v _ w h0' hw).trans ?_
  have e : (((x.dateTime + stride - s.dateTime : ℤ) : ℝ) / 1000000) =
      ((x.dateTime - s.dateTime : ℤ) : ℝ) / 1000000 + (stride : ℝ) / 1000000 := by push_cast; ring
  rw [e, mul_add]
  linarith [hx.near]

theorem Drifted.dark {sun : Sun} {s x : BState} {w : ℝ} {T : ℤ} (hx : Drifted s w x) (hd : Spec.DarkAround sun s w T)
    (hT : x.dateTime < T) : (sun x.latlng x.dateTime).el ≤ -4.242 := by
  unfold BState.latlng
  rw [hx.center]
  exact hd x.x x.y x.dateTime hx.later hT hx.near

end BLE
