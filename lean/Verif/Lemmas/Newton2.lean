import Verif.Lemmas.Newton
import Mathlib.Analysis.Convex.SpecificFunctions.Basic
import Mathlib.Analysis.Convex.SpecificFunctions.Pow

/-!
# Convergence of the Newton iteration of the cold start
-/

namespace BLE

/-- The Nusselt number grows at most like the fourth root. -/
theorem nusseltOf_scale {G x y : ℝ} (hG : 0 ≤ G) (hx : 0 < x) (hxy : x ≤ y) :
    nusseltOf G y ≤ nusseltOf G x * (1 + (y / x - 1) / 4) := by
  have hl : 1 ≤ y / x := (one_le_div hx).2 hxy
  have hy : y = y / x * x := (div_mul_cancel₀ _ hx.ne').symm
  generalize y / x = l at *
  subst hy
  unfold nusseltOf
  have hGx := mul_nonneg hG hx.le
  have e1 : G * (l * x) = l * (G * x) := by ring
  rw [e1]
  generalize G * x = z at *
  have b1 : l ^ (0.25 : ℝ) ≤ 1 + (l - 1) / 4 := by
    have := _root_.rpow_one_add_le_one_add_mul_self (s := l - 1) (by linarith) (p := 0.25) (by norm_num) (by norm_num)
    rw [show 1 + (l - 1) = l by ring] at this
    linarith
  have b2 : l ^ (1.0 / 12.0 : ℝ) ≤ 1 + (l - 1) / 4 := by
    have := _root_.rpow_one_add_le_one_add_mul_self (s := l - 1) (by linarith) (p := 1.0 / 12.0) (by norm_num) (by norm_num)
    rw [show 1 + (l - 1) = l by ring] at this
    have : (1.0 / 12.0 : ℝ) * (l - 1) ≤ (l - 1) / 4 := by norm_num; linarith
    linarith
  rw [Real.mul_rpow (by linarith) hGx]
  have c1 : (1 + 2.69e-8 * (l * z)) ^ (1.0 / 12.0 : ℝ) ≤ l ^ (1.0 / 12.0 : ℝ) * (1 + 2.69e-8 * z) ^ (1.0 / 12.0 : ℝ) := by
    rw [← Real.mul_rpow (by linarith) (by positivity)]
    exact Real.rpow_le_rpow (by positivity) (by linarith) (by norm_num)
  have p1 : 0 ≤ z ^ (0.25 : ℝ) := by positivity
  have p2 : 0 ≤ (1 + 2.69e-8 * z) ^ (1.0 / 12.0 : ℝ) := by positivity
  generalize z ^ (0.25 : ℝ) = A at *
  generalize (1 + 2.69e-8 * z) ^ (1.0 / 12.0 : ℝ) = B at *
  generalize l ^ (0.25 : ℝ) = a at *
  generalize l ^ (1.0 / 12.0 : ℝ) = b at *
  generalize hs : 1 + (l - 1) / 4 = s at *
  have : 1 ≤ s := by linarith
  nlinarith [mul_le_mul_of_nonneg_right b1 p1, mul_le_mul_of_nonneg_right b2 p2]

/-- `x ↦ x (1 + b x) ^ (1/12)` is convex. -/
theorem convex_mul_rpow {b : ℝ} (hb : 0 ≤ b) :
    ConvexOn ℝ (Set.Ici 0) (fun x : ℝ => (1 + b * x) ^ (1.0 / 12.0 : ℝ) * x) := by
  rcases hb.eq_or_lt with rfl | hb
  · simp only [zero_mul, add_zero, Real.one_rpow, one_mul]
    exact convexOn_id (convex_Ici 0)
  have e : ∀ x ∈ Set.Ici (0 : ℝ), (1 + b * x) ^ (1.0 / 12.0 : ℝ) * x =
      ((1 + b * x) ^ (13.0 / 12.0 : ℝ) - (1 + b * x) ^ (1.0 / 12.0 : ℝ)) / b := by
    intro x hx
    have hp : 0 < 1 + b * x := by have := mul_nonneg hb.le hx; linarith
    rw [show (13.0 / 12.0 : ℝ) = 1 + 1.0 / 12.0 by norm_num, Real.rpow_add hp, Real.rpow_one]
    field_simp
    ring
  refine ⟨convex_Ici 0, fun x hx y hy s t hs ht hst => ?_⟩
  have hx' : (0 : ℝ) ≤ x := hx
  have hy' : (0 : ℝ) ≤ y := hy
  have hxy : s • x + t • y ∈ Set.Ici (0 : ℝ) := by
    show (0 : ℝ) ≤ s * x + t * y
    positivity
  have c1 := (convexOn_rpow (p := 13.0 / 12.0) (by norm_num)).2 (x := 1 + b * x) (y := 1 + b * y)
    (show (0 : ℝ) ≤ _ by positivity) (show (0 : ℝ) ≤ _ by positivity) hs ht hst
  have c2 := (Real.concaveOn_rpow (p := 1.0 / 12.0) (by norm_num) (by norm_num)).2 (x := 1 + b * x) (y := 1 + b * y)
    (show (0 : ℝ) ≤ _ by positivity) (show (0 : ℝ) ≤ _ by positivity) hs ht hst
  simp only
  rw [e _ hxy, e x hx, e y hy]
  simp only [smul_eq_mul] at c1 c2 ⊢
  have ea : s * (1 + b * x) + t * (1 + b * y) = 1 + b * (s * x + t * y) := by
    calc s * (1 + b * x) + t * (1 + b * y) = (s + t) + b * (s * x + t * y) := by ring
      _ = _ := by rw [hst]
  rw [ea] at c1 c2
  rw [mul_div_assoc', mul_div_assoc', ← add_div]
  apply div_le_div_of_nonneg_right _ hb.le
  linarith

/-- `x ↦ x Nu(x)` is convex. -/
theorem nusseltOf_convex {G : ℝ} (hG : 0 ≤ G) : ConvexOn ℝ (Set.Ici 0) (fun x => nusseltOf G x * x) := by
  have e : Set.EqOn (fun x => nusseltOf G x * x) (fun x => (2 * x + (0.457 * G ^ (0.25 : ℝ)) * x ^ (1.25 : ℝ)) +
      (1 + 2.69e-8 * G * x) ^ (1.0 / 12.0 : ℝ) * x) (Set.Ici 0) := by
    intro x hx
    have hx : (0 : ℝ) ≤ x := hx
    simp only [nusseltOf]
    rw [Real.mul_rpow hG hx, show (1.25 : ℝ) = 1 + 0.25 by norm_num, Real.rpow_add' hx (by norm_num), Real.rpow_one,
      show 2.69e-8 * (G * x) = 2.69e-8 * G * x by ring]
    ring
  refine ConvexOn.congr ?_ e.symm
  refine ((?_ : ConvexOn ℝ (Set.Ici 0) fun x : ℝ => 2 * x).add ?_).add (convex_mul_rpow (by positivity))
  · exact (convexOn_id (convex_Ici 0)).smul (c := (2 : ℝ)) (by norm_num)
  · exact (convexOn_rpow (p := 1.25) (by norm_num)).smul (c := 0.457 * G ^ (0.25 : ℝ)) (by positivity)

/-- Chord slopes of `x Nu(x)`: at most 1.25 times the Nusselt number at the right end. -/
theorem nusselt_lip {G x y : ℝ} (hG : 0 ≤ G) (hx : 0 ≤ x) (hxy : x ≤ y) :
    nusseltOf G y * y - nusseltOf G x * x ≤ 1.25 * nusseltOf G y * (y - x) := by
  have n0 := nusseltOf_nonneg hG hx
  have nm := nusseltOf_mono hG hx hxy
  rcases hx.eq_or_lt with rfl | hx
  · nlinarith [mul_nonneg (n0.trans nm) hxy]
  have h := nusseltOf_scale hG hx hxy
  have e : nusseltOf G x * (1 + (y / x - 1) / 4) * x = nusseltOf G x * (x + (y - x) / 4) := by
    field_simp
  have h' := mul_le_mul_of_nonneg_right h hx.le
  rw [e] at h'
  nlinarith [mul_le_mul_of_nonneg_right nm (sub_nonneg.2 hxy)]

/-- Heat balance [W/m²] of the envelope at temperature `t` (positive: cooling). -/
noncomputable def balance (k G ta c t : ℝ) : ℝ := k * nusseltOf G |t - ta| * (t - ta) + radiated t - c

theorem radiated'_mono {x y : ℝ} (hx : 160 ≤ x) (hxy : x ≤ y) (hy : y ≤ 900) : radiated' x ≤ radiated' y := by
  have := radiated_convex.monotoneOn_derivWithin (fun z _ => (radiated_hasDeriv z).differentiableAt.differentiableWithinAt)
  have hu : ∀ z ∈ Set.Icc (160 : ℝ) 900, derivWithin radiated (Set.Icc 160 900) z = radiated' z := fun z hz =>
    (radiated_hasDeriv z).hasDerivWithinAt.derivWithin (uniqueDiffOn_Icc (by norm_num) z hz)
  have h := this (a := x) ⟨hx, by linarith⟩ (b := y) ⟨by linarith, hy⟩ hxy
  rwa [hu x ⟨hx, by linarith⟩, hu y ⟨by linarith, hy⟩] at h

theorem radiated_slope_ge {a x y : ℝ} (ha : 160 ≤ a) (hx : a ≤ x) (hxy : x ≤ y) (hy : y ≤ 900) :
    radiated' a * (y - x) ≤ radiated y - radiated x := by
  refine Convex.mul_sub_le_image_sub_of_le_deriv (convex_Icc a 900) ?_ ?_ ?_ x
    ⟨hx, by linarith⟩ y ⟨by linarith, hy⟩ hxy
  · exact fun x _ => (radiated_hasDeriv x).continuousAt.continuousWithinAt
  · exact fun x _ => (radiated_hasDeriv x).differentiableAt.differentiableWithinAt
  · intro z hz
    rw [interior_Icc] at hz
    rw [(radiated_hasDeriv z).deriv]
    exact radiated'_mono ha hz.1.le hz.2.le

theorem radiated_slope_le {b x y : ℝ} (hx : 160 ≤ x) (hxy : x ≤ y) (hy : y ≤ b) (hb : b ≤ 900) :
    radiated y - radiated x ≤ radiated' b * (y - x) := by
  refine Convex.image_sub_le_mul_sub_of_deriv_le (convex_Icc 160 b) ?_ ?_ ?_ x
    ⟨hx, by linarith⟩ y ⟨by linarith, hy⟩ hxy
  · exact fun x _ => (radiated_hasDeriv x).continuousAt.continuousWithinAt
  · exact fun x _ => (radiated_hasDeriv x).differentiableAt.differentiableWithinAt
  · intro z hz
    rw [interior_Icc] at hz
    rw [(radiated_hasDeriv z).deriv]
    exact radiated'_mono hz.1.le hz.2.le hb

theorem balance_convex {k G ta c : ℝ} (hk : 0 ≤ k) (hG : 0 ≤ G) (hta : 160 ≤ ta) :
    ConvexOn ℝ (Set.Icc ta 900) (balance k G ta c) := by
  have h1 : ConvexOn ℝ (Set.Icc ta 900) (fun t => k * (nusseltOf G (t - ta) * (t - ta))) := by
    refine ⟨convex_Icc _ _, fun x hx y hy s t hs ht hst => ?_⟩
    have := (nusseltOf_convex hG).2 (x := x - ta) (y := y - ta) (show (0 : ℝ) ≤ _ by linarith [hx.1])
      (show (0 : ℝ) ≤ _ by linarith [hy.1]) hs ht hst
    simp only [smul_eq_mul] at this ⊢
    have e : s * (x - ta) + t * (y - ta) = s * x + t * y - ta := by
      calc s * (x - ta) + t * (y - ta) = s * x + t * y - (s + t) * ta := by ring
        _ = _ := by rw [hst, one_mul]
    rw [e] at this
    have := mul_le_mul_of_nonneg_left this hk
    linarith
  have h2 := (h1.add (radiated_convex.subset (Set.Icc_subset_Icc hta le_rfl) (convex_Icc _ _))).add_const (-c)
  refine h2.congr fun t ht => ?_
  simp only [balance, Pi.add_apply]
  rw [abs_of_nonneg (by linarith [ht.1])]
  ring

/-- Midpoint value and slope of the chord over `[t - δ, t + δ]`. -/
noncomputable def chordMean (g : ℝ → ℝ) (t : ℝ) : ℝ := (g (t - 0.005) + g (t + 0.005)) / 2

/-- Slope of the chord over `[t - δ, t + δ]`. -/
noncomputable def chordSlope (g : ℝ → ℝ) (t : ℝ) : ℝ := (g (t + 0.005) - g (t - 0.005)) / (2 * 0.005)

/-- Where the chord crosses zero. -/
noncomputable def newtonStep (g : ℝ → ℝ) (t : ℝ) : ℝ := t - chordMean g t / chordSlope g t

theorem chordSlope_pos {g : ℝ → ℝ} {A B t : ℝ} (hm : ∀ x y, A ≤ x → x < y → y ≤ B → g x < g y)
    (h1 : A ≤ t - 0.005) (h2 : t + 0.005 ≤ B) : 0 < chordSlope g t := by
  have := hm (t - 0.005) (t + 0.005) h1 (by linarith) h2
  unfold chordSlope
  exact div_pos (by linarith) (by norm_num)

theorem chord_left (g : ℝ → ℝ) (t : ℝ) : chordMean g t = g (t - 0.005) + chordSlope g t * 0.005 := by
  unfold chordMean chordSlope; ring

theorem chord_right (g : ℝ → ℝ) (t : ℝ) : chordMean g t = g (t + 0.005) - chordSlope g t * 0.005 := by
  unfold chordMean chordSlope; ring

/-- The step does not fall below a point just left of which (by more than the chord) the balance is negative. -/
theorem step_ge {g : ℝ → ℝ} {A B L t : ℝ} (hc : ConvexOn ℝ (Set.Icc A B) g)
    (hm : ∀ x y, A ≤ x → x < y → y ≤ B → g x < g y) (h1 : A ≤ t - 0.005) (h2 : t + 0.005 ≤ B) (hA : A ≤ L)
    (hL : L ≤ t) (hB : L + 0.01 ≤ B) (hg : g (L + 0.01) ≤ 0) :
    L ≤ newtonStep g t ∧ (g (L + 0.01) < 0 → L < newtonStep g t) := by
  have hd := chordSlope_pos hm h1 h2
  have key : chordMean g t ≤ (t - L) * chordSlope g t ∧ (g (L + 0.01) < 0 → chordMean g t < (t - L) * chordSlope g t) := by
    have hgL := hm L (L + 0.01) hA (by linarith) hB
    rcases lt_or_ge t (L + 0.005) with h | h
    · have b1 : g (t + 0.005) ≤ g (L + 0.01) := by
        rcases (show t + 0.005 ≤ L + 0.01 by norm_num at *; linarith).eq_or_lt with e | e
        · rw [e]
        · exact (hm _ _ (by linarith) e hB).le
      have b2 : g (t - 0.005) < g (t + 0.005) := hm _ _ h1 (by linarith) h2
      have b3 : 0 ≤ (t - L) * chordSlope g t := mul_nonneg (by linarith) hd.le
      have b4 : chordMean g t < g (t + 0.005) := by unfold chordMean; linarith
      exact ⟨by linarith, fun _ => by linarith⟩
    · rw [chord_left]
      have b1 : g (t - 0.005) ≤ g L + chordSlope g t * (t - 0.005 - L) := by
        rcases (show L ≤ t - 0.005 by linarith).eq_or_lt with e | e
        · rw [← e]; simp
        · have := hc.slope_mono_adjacent (x := L) (y := t - 0.005) (z := t + 0.005)
            ⟨hA, by linarith⟩ ⟨by linarith, h2⟩ e (by linarith)
          rw [div_le_iff₀ (by linarith), show t + 0.005 - (t - 0.005) = 2 * 0.005 by ring] at this
          unfold chordSlope
          linarith
      have b2 : chordSlope g t * (t - 0.005 - L) + chordSlope g t * 0.005 = (t - L) * chordSlope g t := by ring
      exact ⟨by linarith, fun _ => by linarith⟩
  unfold newtonStep
  constructor
  · have := (div_le_iff₀ hd).2 key.1; linarith
  · intro h
    have := (div_lt_iff₀ hd).2 (key.2 h); linarith

/-- After a step, the balance is non-negative (just to the right). -/
theorem step_right {g : ℝ → ℝ} {A B t : ℝ} (hc : ConvexOn ℝ (Set.Icc A B) g)
    (hm : ∀ x y, A ≤ x → x < y → y ≤ B → g x < g y) (h1 : A ≤ t - 0.005) (h2 : t + 0.005 ≤ B)
    (hA : A ≤ newtonStep g t) (hB : newtonStep g t + 0.01 ≤ B) : 0 ≤ g (newtonStep g t + 0.01) := by
  have hd := chordSlope_pos hm h1 h2
  by_contra hneg
  push Not at hneg
  rcases le_or_gt (newtonStep g t) t with h | h
  · exact absurd ((step_ge hc hm h1 h2 hA h hB hneg.le).2 hneg) (lt_irrefl _)
  · have e : chordMean g t = -((newtonStep g t - t) * chordSlope g t) := by
      unfold newtonStep; field_simp; ring
    rw [chord_right] at e
    have hlt := hm (newtonStep g t) (newtonStep g t + 0.01) hA (by linarith) hB
    generalize newtonStep g t = z at *
    rcases lt_or_ge z (t + 0.005) with h' | h'
    · have b1 : 0 < g (t + 0.005) := by
        have : g (t + 0.005) = chordSlope g t * (t + 0.005 - z) := by linarith
        rw [this]; exact mul_pos hd (by linarith)
      have b2 := hm (t + 0.005) (z + 0.01) (by linarith) (by norm_num at *; linarith) hB
      linarith
    · have b1 : g (t + 0.005) + chordSlope g t * (z - (t + 0.005)) ≤ g z := by
        rcases h'.eq_or_lt with e' | e'
        · rw [← e']; simp
        · have := hc.slope_mono_adjacent (x := t - 0.005) (y := t + 0.005) (z := z)
            ⟨h1, by linarith⟩ ⟨by linarith, by linarith⟩ (by linarith) e'
          rw [le_div_iff₀ (by linarith), show t + 0.005 - (t - 0.005) = 2 * 0.005 by ring] at this
          unfold chordSlope
          linarith
      linarith

end BLE
