import Verif.Props.Sunrise

/-!
# The sun between a sunrise and a sunset, from day to day and from place to place
-/

namespace BLE

/-- From a morning phase to an evening phase less than a day later, `cos` is never above both ends. -/
theorem arc_low {u w v : ℝ} (hu : 0.1 ≤ Real.sin u) (hv : Real.sin v ≤ -0.1) (h0 : u ≤ w) (h1 : w ≤ v)
    (h2 : v - u ≤ 2 * Real.pi + 0.01) : Real.cos w ≤ Real.cos u ∨ Real.cos w ≤ Real.cos v := by
  have hpi := Real.pi_pos
  obtain ⟨m, hm⟩ := phase_turn u
  rw [(turn_cos u m).2] at hu
  rw [(turn_cos v m).2] at hv
  rw [(turn_cos u m).1, (turn_cos v m).1, (turn_cos w m).1]
  have w0 : u - 2 * Real.pi * m ≤ w - 2 * Real.pi * m := by linarith
  have w1 : w - 2 * Real.pi * m ≤ v - 2 * Real.pi * m := by linarith
  have w2 : v - 2 * Real.pi * m - (u - 2 * Real.pi * m) ≤ 2 * Real.pi + 0.01 := by linarith
  generalize u - 2 * Real.pi * m = a at *
  generalize v - 2 * Real.pi * m = b at *
  generalize w - 2 * Real.pi * m = c at *
  obtain ⟨a0, a1⟩ := abs_le.1 hm
  have ap : 0.1 ≤ a := by
    rcases le_total 0 a with q | q
    · exact hu.trans (Real.sin_le q)
    · have := Real.sin_nonpos_of_nonpos_of_neg_pi_le q a0
      norm_num at hu; linarith
  have ap' : a ≤ Real.pi - 0.1 := by
    have := Real.sin_le (x := Real.pi - a) (by linarith)
    rw [Real.sin_pi_sub] at this
    linarith
  have hb : b ≤ 2 * Real.pi := by
    by_contra hn
    have : 0 ≤ Real.sin (b - 2 * Real.pi) := Real.sin_nonneg_of_nonneg_of_le_pi (by linarith) (by norm_num at w2 ap'; linarith)
    rw [Real.sin_sub_two_pi] at this
    norm_num at hv; linarith
  rcases le_total c Real.pi with q | q
  · exact Or.inl (Real.cos_le_cos_of_nonneg_of_le_pi (by norm_num at ap; linarith) q w0)
  · right
    have := Real.cos_le_cos_of_nonneg_of_le_pi (x := 2 * Real.pi - b) (y := 2 * Real.pi - c) (by linarith) (by linarith) (by linarith)
    rwa [Real.cos_two_pi_sub, Real.cos_two_pi_sub] at this

theorem arc_high {u w v : ℝ} (hu : Real.sin u ≤ -0.1) (hv : 0.1 ≤ Real.sin v) (h0 : u ≤ w) (h1 : w ≤ v)
    (h2 : v - u ≤ 2 * Real.pi + 0.01) : Real.cos u ≤ Real.cos w ∨ Real.cos v ≤ Real.cos w := by
  have := arc_low (u := u - Real.pi) (w := w - Real.pi) (v := v - Real.pi) (by rw [Real.sin_sub_pi]; linarith)
    (by rw [Real.sin_sub_pi]; linarith) (by linarith) (by linarith) (by linarith)
  simp only [Real.cos_sub_pi, neg_le_neg_iff] at this
  exact this

/-- Later means a larger hour angle. -/
theorem sunPhi_le (lng : ℝ) {σ τ : ℝ} (h : InEra σ) (h' : InEra τ) (hle : σ ≤ τ) : sunPhi lng σ ≤ sunPhi lng τ := by
  have p1 := Real.pi_gt_d4
  have r := (abs_le.1 (sunPhi_rate lng h'.1 h'.2 h.1 h.2)).1
  rw [abs_of_nonneg (sub_nonneg.2 hle)] at r
  have : 4e-8 * (τ - σ) ≤ 2 * Real.pi * ((τ - σ) / 86400) := by
    rw [mul_div_assoc', le_div_iff₀ (by norm_num)]
    have := sub_nonneg.2 hle
    norm_num at p1 ⊢; nlinarith
  linarith

theorem sunPhi_span (lng : ℝ) {σ τ : ℝ} (h : InEra σ) (h' : InEra τ) (hle : σ ≤ τ) (hd : τ - σ ≤ 86400) :
    sunPhi lng τ - sunPhi lng σ ≤ 2 * Real.pi + 0.01 := by
  have hpi := Real.pi_pos
  have r := (abs_le.1 (sunPhi_rate lng h'.1 h'.2 h.1 h.2)).2
  rw [abs_of_nonneg (sub_nonneg.2 hle)] at r
  have : 2 * Real.pi * ((τ - σ) / 86400) ≤ 2 * Real.pi * 1 := by
    apply mul_le_mul_of_nonneg_left _ (by positivity)
    rw [div_le_one (by norm_num)]; exact hd
  norm_num at r ⊢; linarith

/-- Between a morning and the evening of the same day the sun is not much below the lower of the two. -/
theorem sunX_between {l : LatLng} (hl : Tropical l) {a s b : ℝ} (ha : InEra a) (hs : InEra s) (hb : InEra b) (h0 : a ≤ s) (h1 : s ≤ b)
    (h2 : b - a ≤ 86400) (hu : 0.1 ≤ Real.sin (sunPhi l.lng a)) (hv : Real.sin (sunPhi l.lng b) ≤ -0.1) {x : ℝ}
    (hxa : x ≤ sunX l a) (hxb : x ≤ sunX l b) : x - 0.0087 ≤ sunX l s := by
  have key : ∀ c : ℝ, InEra c → |s - c| ≤ 86400 → x ≤ sunX l c → Real.cos (sunPhi l.lng s) ≤ Real.cos (sunPhi l.lng c) → x - 0.0087 ≤ sunX l s := by
    intro c hc hd hx hcos
    have d := (abs_le.1 (sunX_diff hl hs hc)).1
    obtain ⟨p0, -⟩ := sunP_range hl hc
    have : 0 ≤ sunP l c * (Real.cos (sunPhi l.lng c) - Real.cos (sunPhi l.lng s)) :=
      mul_nonneg (by norm_num at p0 ⊢; linarith) (by linarith)
    norm_num at d ⊢; linarith
  rcases arc_low hu hv (sunPhi_le _ ha hs h0) (sunPhi_le _ hs hb h1) (sunPhi_span _ ha hb (h0.trans h1) h2) with q | q
  · exact key a ha (abs_le.2 ⟨by linarith, by linarith⟩) hxa q
  · exact key b hb (abs_le.2 ⟨by linarith, by linarith⟩) hxb q

/-- Between an evening and the next morning the sun is not much above the higher of the two. -/
theorem sunX_overnight {l : LatLng} (hl : Tropical l) {a s b : ℝ} (ha : InEra a) (hs : InEra s) (hb : InEra b) (h0 : a ≤ s) (h1 : s ≤ b)
    (h2 : b - a ≤ 86400) (hu : Real.sin (sunPhi l.lng a) ≤ -0.1) (hv : 0.1 ≤ Real.sin (sunPhi l.lng b)) {x : ℝ}
    (hxa : sunX l a ≤ x) (hxb : sunX l b ≤ x) : sunX l s ≤ x + 0.0087 := by
  have key : ∀ c : ℝ, InEra c → |s - c| ≤ 86400 → sunX l c ≤ x → Real.cos (sunPhi l.lng c) ≤ Real.cos (sunPhi l.lng s) → sunX l s ≤ x + 0.0087 := by
    intro c hc hd hx hcos
    have d := (abs_le.1 (sunX_diff hl hs hc)).2
    obtain ⟨p0, -⟩ := sunP_range hl hc
    have : 0 ≤ sunP l c * (Real.cos (sunPhi l.lng s) - Real.cos (sunPhi l.lng c)) :=
      mul_nonneg (by norm_num at p0 ⊢; linarith) (by linarith)
    norm_num at d ⊢; linarith
  rcases arc_high hu hv (sunPhi_le _ ha hs h0) (sunPhi_le _ hs hb h1) (sunPhi_span _ ha hb (h0.trans h1) h2) with q | q
  · exact key a ha (abs_le.2 ⟨by linarith, by linarith⟩) hxa q
  · exact key b hb (abs_le.2 ⟨by linarith, by linarith⟩) hxb q

/-- One day later. -/
theorem sunX_day {l : LatLng} (hl : Tropical l) {s : ℝ} (h : InEra s) (h' : InEra (s + 86400)) :
    |sunX l (s + 86400) - sunX l s| ≤ 0.0127 := by
  have d := abs_le.1 (sunX_diff hl h' h)
  rw [show s + 86400 - s = 86400 by ring, abs_of_pos (by norm_num : (0 : ℝ) < 86400)] at d
  have c := (day_phase l.lng h h').1
  obtain ⟨p0, p1⟩ := sunP_range hl h
  have : |sunP l s * (Real.cos (sunPhi l.lng s) - Real.cos (sunPhi l.lng (s + 86400)))| ≤ 1 * 0.004 := by
    rw [abs_mul, abs_sub_comm (Real.cos (sunPhi l.lng s))]
    refine mul_le_mul ?_ c (abs_nonneg _) (by norm_num)
    rw [abs_of_nonneg (by norm_num at p0 ⊢; linarith)]; exact p1
  have := abs_le.1 this
  rw [abs_le]; constructor <;> norm_num at d this ⊢ <;> linarith

/-- Up to two days later or one earlier. -/
theorem sun_days {l : LatLng} (hl : Tropical l) {s : ℝ} (h : InEra (s - 86400)) (h' : InEra (s + 2 * 86400)) {n : ℤ} (h0 : -1 ≤ n) (h1 : n ≤ 2) :
    |sunX l (s + 86400 * n) - sunX l s| ≤ 0.0254 ∧ |Real.sin (sunPhi l.lng (s + 86400 * n)) - Real.sin (sunPhi l.lng s)| ≤ 0.008 := by
  have e : ∀ x : ℝ, -86400 ≤ x → x ≤ 2 * 86400 → InEra (s + x) := fun x q0 q1 => ⟨by linarith [h.1], by linarith [h'.2]⟩
  have es : InEra s := by simpa using e 0 (by norm_num) (by norm_num)
  have a1 := abs_le.1 (sunX_day hl es (e 86400 (by norm_num) (by norm_num)))
  have b1 := abs_le.1 (day_phase l.lng es (e 86400 (by norm_num) (by norm_num))).2
  have a2 := abs_le.1 (sunX_day hl (e 86400 (by norm_num) (by norm_num)) (by rw [add_assoc]; exact e _ (by norm_num) (by norm_num)))
  have b2 := abs_le.1 (day_phase l.lng (e 86400 (by norm_num) (by norm_num)) (by rw [add_assoc]; exact e _ (by norm_num) (by norm_num))).2
  have a0 := abs_le.1 (sunX_day hl h (by rw [sub_add_cancel]; exact es))
  have b0 := abs_le.1 (day_phase l.lng h (by rw [sub_add_cancel]; exact es)).2
  rw [sub_add_cancel] at a0 b0
  rw [show s + 86400 + 86400 = s + 86400 * 2 by ring] at a2 b2
  have : n = -1 ∨ n = 0 ∨ n = 1 ∨ n = 2 := by omega
  rcases this with rfl | rfl | rfl | rfl
  · rw [show s + 86400 * ((-1 : ℤ) : ℝ) = s - 86400 by push_cast; ring]
    rw [abs_le, abs_le]; refine ⟨⟨?_, ?_⟩, ?_, ?_⟩ <;> norm_num at a0 b0 ⊢ <;> linarith
  · norm_num
  · rw [show s + 86400 * ((1 : ℤ) : ℝ) = s + 86400 by push_cast; ring]
    rw [abs_le, abs_le]; refine ⟨⟨?_, ?_⟩, ?_, ?_⟩ <;> norm_num at a1 b1 ⊢ <;> linarith
  · rw [show s + 86400 * ((2 : ℤ) : ℝ) = s + 86400 * 2 by push_cast; ring]
    rw [abs_le, abs_le]; refine ⟨⟨?_, ?_⟩, ?_, ?_⟩ <;> norm_num at a1 b1 a2 b2 ⊢ <;> linarith

/-- Half an hour changes the phase by 0.131. -/
theorem half_hour (lng : ℝ) {s u : ℝ} (h : InEra s) (h' : InEra (s + u)) (hu : |u| ≤ 1801) :
    |Real.sin (sunPhi lng (s + u)) - Real.sin (sunPhi lng s)| ≤ 0.132 ∧ |Real.cos (sunPhi lng (s + u)) - Real.cos (sunPhi lng s)| ≤ 0.132 := by
  have p2 := Real.pi_lt_d4
  have hpi := Real.pi_pos
  have r := sunPhi_rate lng h'.1 h'.2 h.1 h.2
  rw [add_sub_cancel_left] at r
  have e : |sunPhi lng (s + u) - sunPhi lng s| ≤ 0.132 := by
    have t := abs_add_le (sunPhi lng (s + u) - sunPhi lng s - 2 * Real.pi * (u / 86400)) (2 * Real.pi * (u / 86400))
    rw [sub_add_cancel, abs_mul, abs_div, abs_of_pos (by positivity : 0 < 2 * Real.pi), abs_of_pos (by norm_num : (0 : ℝ) < 86400)] at t
    have : 2 * Real.pi * (|u| / 86400) ≤ 6.2834 * (1801 / 86400) := by
      apply mul_le_mul (by norm_num at p2 ⊢; linarith) (by apply div_le_div_of_nonneg_right hu; norm_num) (by positivity) (by norm_num)
    norm_num at r t this ⊢; linarith
  exact ⟨(Real.abs_sin_sub_sin_le _ _).trans e, (Real.abs_cos_sub_cos_le _ _).trans e⟩

/-- From place to place: the sine of the elevation moves by no more than the angles do. -/
theorem sunX_place (l l' : LatLng) {s : ℝ} (h : InEra s) (k : ℤ) :
    |sunX l' s - sunX l s| ≤ |l'.lat - l.lat| + |l'.lng - l.lng - 2 * Real.pi * k| := by
  obtain ⟨q0, q1, q2⟩ := sunS_sqrt h
  unfold sunX
  set C := Real.sqrt (1 - sunS s ^ 2)
  set K := C * Real.cos (sunPhi l'.lng s) with hK
  have hK1 : sunS s ^ 2 + K ^ 2 ≤ 1 := by
    rw [hK, mul_pow, q2]
    have := Real.cos_sq_le_one (sunPhi l'.lng s)
    have : 0 ≤ 1 - sunS s ^ 2 := by rw [← q2]; positivity
    nlinarith
  have a1 : |sunS s * (Real.sin l'.lat - Real.sin l.lat) - K * (Real.cos l'.lat - Real.cos l.lat)| ≤ |l'.lat - l.lat| := by
    apply sq_le_sq.1
    have e1 : (Real.sin l'.lat - Real.sin l.lat) ^ 2 + (Real.cos l'.lat - Real.cos l.lat) ^ 2 = 2 - 2 * Real.cos (l'.lat - l.lat) := by
      rw [Real.cos_sub]
      linear_combination Real.sin_sq_add_cos_sq l'.lat + Real.sin_sq_add_cos_sq l.lat
    have e2 := Real.one_sub_sq_div_two_le_cos (x := l'.lat - l.lat)
    generalize Real.sin l'.lat - Real.sin l.lat = y at *
    generalize Real.cos l'.lat - Real.cos l.lat = z at *
    have : (sunS s * y - K * z) ^ 2 ≤ (sunS s ^ 2 + K ^ 2) * (y ^ 2 + z ^ 2) := by nlinarith [sq_nonneg (sunS s * z + K * y)]
    have : (sunS s ^ 2 + K ^ 2) * (y ^ 2 + z ^ 2) ≤ 1 * (y ^ 2 + z ^ 2) := mul_le_mul_of_nonneg_right hK1 (by positivity)
    nlinarith
  have a2 : |Real.cos l.lat * C * (Real.cos (sunPhi l'.lng s) - Real.cos (sunPhi l.lng s))| ≤ |l'.lng - l.lng - 2 * Real.pi * k| := by
    rw [abs_mul]
    have c1 := Real.abs_cos_sub_cos_le (sunPhi l'.lng s - 2 * Real.pi * k) (sunPhi l.lng s)
    rw [← (turn_cos (sunPhi l'.lng s) k).1] at c1
    have c2 : sunPhi l'.lng s - 2 * Real.pi * k - sunPhi l.lng s = l'.lng - l.lng - 2 * Real.pi * k := by unfold sunPhi; ring
    rw [c2] at c1
    have c3 : |Real.cos l.lat * C| ≤ 1 := by
      rw [abs_mul]
      exact mul_le_one₀ (Real.abs_cos_le_one _) (abs_nonneg _) (by rw [abs_of_nonneg (by norm_num at q0; linarith)]; exact q1)
    calc _ ≤ 1 * |l'.lng - l.lng - 2 * Real.pi * k| := mul_le_mul c3 c1 (abs_nonneg _) (by norm_num)
      _ = _ := one_mul _
  have := abs_sub (sunS s * (Real.sin l'.lat - Real.sin l.lat) - K * (Real.cos l'.lat - Real.cos l.lat))
    (Real.cos l.lat * C * (Real.cos (sunPhi l'.lng s) - Real.cos (sunPhi l.lng s)))
  refine le_trans (le_of_eq ?_) (this.trans (add_le_add a1 a2))
  rw [hK]; congr 1; ring

/-- Sines and elevations. -/
theorem elevation_above {x : ℝ} (h0 : -1 ≤ x) (h1 : x ≤ 1) (h : -0.0724 ≤ x) : minSolarEl < elOf x := by
  have g := (elOf_geo x).1
  refine lt_of_lt_of_le ?_ g
  rcases le_or_gt 0 x with q | q
  · have := (deg_of_sine h0 h1).1 0 le_rfl q
    unfold minSolarEl
    norm_num at this ⊢; linarith
  · have := abs_le.1 ((deg_of_sine h0 h1).2.2.1 0.0724 (by norm_num) (by norm_num) (abs_le.2 ⟨h, by norm_num at q ⊢; linarith⟩))
    unfold minSolarEl
    norm_num at this ⊢; linarith

theorem elevation_below {x : ℝ} (h : x ≤ 0.25) : elOf x ≤ 16 := by
  have p1 := Real.pi_gt_d4
  have p2 := Real.pi_lt_d4
  have hpi := Real.pi_pos
  obtain ⟨-, g, -⟩ := elOf_geo x
  have hs : x ≤ Real.sin (Real.pi / 12) := by
    have := Real.sin_gt_sub_cube (x := Real.pi / 12) (by positivity)
    have c : (Real.pi / 12) ^ 3 ≤ 0.2618 ^ 3 := pow_le_pow_left₀ (by positivity) (by norm_num at p2 ⊢; linarith) 3
    norm_num at this c p1 h ⊢; linarith
  have := Real.arcsin_le_iff_le_sin' (x := x) (y := Real.pi / 12) ⟨by linarith, by linarith⟩ |>.2 hs
  have d : degrees (Real.arcsin x) ≤ 15 := by
    unfold degrees
    rw [mul_div_assoc', div_le_iff₀ hpi]; linarith
  norm_num at g ⊢; linarith

end BLE
