import Verif.Lemmas.Balloon
import Verif.Lemmas.Acs
import Verif.Props.Atmosphere
import Verif.Props.Envelope

/-!
# When a sub-step cannot fail
-/

namespace BLE

theorem pyDiv_ok {a b : ℝ} (h : b ≠ 0) : pyDiv a b = .ok (a / b) := if_neg h

theorem totalAbsorptivity_ok {a : ℝ} (h0 : 0 ≤ a) (h1 : a ≤ 1.9418) :
    totalAbsorptivity a 0.0291 = .ok (a * (1 + (1 - a - 0.0291) / (1 - 0.0291))) := by
  unfold totalAbsorptivity
  rw [pyDiv_ok (by norm_num)]
  simp only
  rw [if_neg]
  push Not
  have e : a * (1 + (1 - a - 0.0291) / (1 - 0.0291)) = a * (1.9418 - a) / 0.9709 := by
    field_simp; norm_num; ring
  rw [e]
  constructor
  · exact div_nonneg (mul_nonneg h0 (by linarith)) (by norm_num)
  · rw [div_le_one (by norm_num)]; nlinarith [sq_nonneg (a - 0.9709)]

theorem absorptivityIr_range {t : ℝ} (h0 : 13 ≤ t) (h1 : t ≤ 8000) :
    0 ≤ absorptivityIr t ∧ absorptivityIr t ≤ 1.9418 := by
  unfold absorptivityIr
  constructor <;> norm_num <;> linarith

theorem fluxToTemp_range {f : ℝ} (h0 : 1 ≤ f) (h1 : f ≤ 1000) : 13 ≤ fluxToTemp f ∧ fluxToTemp f ≤ 8000 := by
  have hs : (0 : ℝ) < stefanBoltzmann := by norm_num [stefanBoltzmann]
  have key : ∀ x : ℝ, 0 ≤ x → (x ^ 4) ^ (0.25 : ℝ) = x := by
    intro x hx
    have := Real.pow_rpow_inv_natCast hx (n := 4) (by norm_num)
    rw [← this]; norm_num
    rw [← Real.rpow_natCast, ← Real.rpow_natCast, ← Real.rpow_mul hx, ← Real.rpow_mul hx,
      ← Real.rpow_mul hx]
    norm_num
  unfold fluxToTemp
  constructor
  · rw [← key 13 (by norm_num)]
    apply Real.rpow_le_rpow (by norm_num) _ (by norm_num)
    rw [le_div_iff₀ hs]; norm_num [stefanBoltzmann]; linarith
  · rw [← key 8000 (by norm_num)]
    apply Real.rpow_le_rpow (by positivity) _ (by norm_num)
    rw [div_le_iff₀ hs]; norm_num [stefanBoltzmann]; linarith

theorem attenuation_ok {el p : ℝ} (h0 : -90 ≤ el) (h1 : el ≤ 90) (h2 : 0 ≤ p) (h3 : p ≤ 101325) :
    ∃ a, attenuation el p = .ok a := by
  unfold attenuation
  rw [if_neg (by push Not; exact ⟨h1, h0⟩), if_neg (by push Not; exact ⟨h3, h2⟩)]
  split_ifs <;> exact ⟨_, rfl⟩

theorem solarPower_ok {el p : ℝ} (h0 : -90 ≤ el) (h1 : el ≤ 90) (h2 : 0 ≤ p) (h3 : p ≤ 101325) :
    ∃ w, solarPower el p = .ok w := by
  obtain ⟨a, ha⟩ := attenuation_ok h0 h1 h2 h3
  unfold solarPower
  rw [ha]
  exact ⟨_, rfl⟩

theorem dTempDt_ok {vol mass tb ta p el sf ef : ℝ} (hm : mass ≠ 0) (h0 : -90 ≤ el) (h1 : el ≤ 90)
    (h2 : 0 ≤ p) (h3 : p ≤ 101325) (ht0 : 13 ≤ tb) (ht1 : tb ≤ 8000) (he0 : 1 ≤ ef) (he1 : ef ≤ 1000) :
    ∃ d, dTempDt vol mass tb ta p el sf ef = .ok d := by
  obtain ⟨a, ha⟩ := attenuation_ok h0 h1 h2 h3
  obtain ⟨f0, f1⟩ := fluxToTemp_range he0 he1
  obtain ⟨g0, g1⟩ := absorptivityIr_range f0 f1
  obtain ⟨k0, k1⟩ := absorptivityIr_range ht0 ht1
  unfold dTempDt
  simp only [bind, Except.bind, ha, totalAbsorptivity_ok g0 g1, totalAbsorptivity_ok k0 k1,
    totalAbsorptivity_ok (show (0 : ℝ) ≤ 0.01435 by norm_num) (by norm_num)]
  exact ⟨_, pyDiv_ok (mul_ne_zero (by norm_num) hm)⟩

/-- Any pressure in [100 Pa, 108.8 kPa] can be looked up. -/
theorem atPressure_in {α p : ℝ} (h0 : 0 ≤ α) (h1 : α ≤ 1) (hp : 100 ≤ p) (hp' : p ≤ 108870) :
    ∃ v, atPressure α p = .ok v :=
  ((C45_pressure_domain α h0 h1 p).2.2 hp).2 (by norm_num; linarith)

/-- The unpacked new pressure. -/
theorem newPressure_ok {α p' : ℝ} {stride : ℤ} {s : BState} (h : newPressure α s stride = .ok p') :
    ∃ a0 a1, gasR * s.ambT ≠ 0 ∧ s.rhoAir * (s.cod * s.vol ^ (2.0 / 3.0 : ℝ)) ≠ 0 ∧
      atPressure α s.pressure = .ok a0 ∧
      atPressure α (s.pressure + (if s.rhoAir * s.vol ≥ s.systemMass then 1 else -1) * 1.0) = .ok a1 ∧
      a1.height - a0.height ≠ 0 ∧
      p' = s.pressure + (if s.rhoAir * s.vol ≥ s.systemMass then 1 else -1) * 1.0 / (a1.height - a0.height) *
        ((if s.rhoAir * s.vol ≥ s.systemMass then 1 else -1) *
          Real.sqrt |2 * (s.rhoAir * s.vol - s.systemMass) * gravity /
            (s.rhoAir * (s.cod * s.vol ^ (2.0 / 3.0 : ℝ)))|) * totalSeconds stride := by
  unfold newPressure at h
  simp only [bind, Except.bind, pure, Except.pure] at h
  have hrho : s.pressure * airM / (gasR * s.ambT) = s.rhoAir := rfl
  by_cases c1 : gasR * s.ambT = 0
  · simp [pyDiv, c1] at h
  rw [pyDiv_ok c1] at h
  simp only [hrho] at h
  by_cases c2 : s.rhoAir * (s.cod * s.vol ^ (2.0 / 3.0 : ℝ)) = 0
  · rw [c2] at h; simp [pyDiv] at h
  rw [pyDiv_ok c2] at h
  simp only at h
  split at h
  · cases h
  rename_i a0 ha0
  split at h
  · cases h
  rename_i a1 ha1
  by_cases c3 : a1.height - a0.height = 0
  · rw [c3] at h; simp [pyDiv] at h
  rw [pyDiv_ok c3] at h
  simp only [Except.ok.injEq] at h
  exact ⟨a0, a1, c1, c2, ha0, ha1, c3, h.symm⟩

theorem newPressure_succeeds {α : ℝ} (h0 : 0 ≤ α) (h1 : α ≤ 1) (stride : ℤ) {s : BState}
    (hp : 101 ≤ s.pressure) (hp' : s.pressure ≤ 108869) (hT : 0 < s.ambT) (hv : 0 < s.vol)
    (hc : 0 < s.cod) : ∃ p', newPressure α s stride = .ok p' := by
  have hrho : 0 < s.rhoAir := by
    unfold BState.rhoAir
    exact div_pos (mul_pos (by linarith) (by norm_num [airM])) (mul_pos (by norm_num [gasR]) hT)
  have hd : s.rhoAir * (s.cod * s.vol ^ (2.0 / 3.0 : ℝ)) ≠ 0 :=
    (mul_pos hrho (mul_pos hc (Real.rpow_pos_of_pos hv _))).ne'
  have hg : gasR * s.ambT ≠ 0 := (mul_pos (by norm_num [gasR]) hT).ne'
  obtain ⟨a0, ha0⟩ := atPressure_in h0 h1 (p := s.pressure) (by linarith) (by linarith)
  obtain ⟨dir, hdir⟩ : ∃ dir : ℝ, dir = if s.rhoAir * s.vol ≥ s.systemMass then (1 : ℝ) else -1 := ⟨_, rfl⟩
  have hdv : dir = 1 ∨ dir = -1 := by rw [hdir]; split_ifs <;> simp
  obtain ⟨a1, ha1⟩ := atPressure_in h0 h1 (p := s.pressure + dir * 1.0)
    (by rcases hdv with h | h <;> rw [h] <;> norm_num <;> linarith)
    (by rcases hdv with h | h <;> rw [h] <;> norm_num <;> linarith)
  have hne : a1.height - a0.height ≠ 0 := by
    rcases hdv with h | h
    · have := (C44_pressure_direction α h0 h1 _ _ _ _ ha0 ha1 (by rw [h]; norm_num)).1
      intro hc; linarith
    · have := (C44_pressure_direction α h0 h1 _ _ _ _ ha1 ha0 (by rw [h]; norm_num)).1
      intro hc; linarith
  unfold newPressure
  have hrr : s.pressure * airM / (gasR * s.ambT) = s.rhoAir := rfl
  simp only [bind, Except.bind, pure, Except.pure, pyDiv_ok hg, hrr, pyDiv_ok hd, ha0, ← hdir, ha1,
    pyDiv_ok hne]
  exact ⟨_, rfl⟩

/-- A sub-step from a state in the flight envelope succeeds. -/
theorem substep_no_error {sun : Sun} {α : ℝ} (h0 : 0 ≤ α) (h1 : α ≤ 1) (u v : ℝ) (a : Command)
    (stride : ℤ) {s : BState} (hp : 101 ≤ s.pressure) (hp' : s.pressure ≤ 101325) (hT : 0 < s.ambT)
    (hv : 0 < s.vol) (hc : 0 < s.cod) (hm : s.envMass ≠ 0) (ht0 : 13 ≤ s.intT) (ht1 : s.intT ≤ 8000)
    (he0 : 1 ≤ s.upwelling) (he1 : s.upwelling ≤ 1000)
    (hel : ∀ l t, -90 ≤ (sun l t).el ∧ (sun l t).el ≤ 90) :
    ∃ s', substep sun α u v a stride s = .ok s' := by
  obtain ⟨p', hp'1⟩ := newPressure_succeeds h0 h1 stride hp (by linarith) hT hv hc
  obtain ⟨amb, hamb⟩ := atPressure_in h0 h1 (p := s.pressure) (by linarith) (by linarith)
  obtain ⟨e0, e1⟩ := hel s.latlng s.dateTime
  obtain ⟨dT, hdT⟩ := dTempDt_ok (vol := s.vol) (ta := s.ambT) (sf := (sun s.latlng s.dateTime).flux)
    hm e0 e1 (by linarith : (0:ℝ) ≤ s.pressure) hp' ht0 ht1 he0 he1
  obtain ⟨w, hw⟩ := solarPower_ok e0 e1 (by linarith : (0:ℝ) ≤ s.pressure) hp'
  exact substep_succeeds hp'1 hamb hdT (fun _ => hw)

/-- In the lowest layer pressure cannot drop faster than in isothermal air at 100 K. -/
theorem layerP0_drop {α : ℝ} (h0 : 0 ≤ α) (h1 : α ≤ 1) {h h' : ℝ} (ha : -610 ≤ h) (hh : h ≤ h')
    (hb : h' ≤ 17000) :
    layerP α 0 h * (1 - gravity / airRs * ((h' - h) / 100)) ≤ layerP α 0 h' := by
  have hT := layerT_pos h0 h1 (i := 0) (h := h) (by norm_num) (by norm_num [hTrans]; linarith)
    (by norm_num [hTrans]; linarith)
  have hT' := layerT_pos h0 h1 (i := 0) (h := h') (by norm_num) (by norm_num [hTrans]; linarith)
    (by norm_num [hTrans]; linarith)
  have pp := pTrans_pos h0 h1 (i := 0) (by norm_num)
  have hP := layerP_pos h0 h1 (i := 0) (by norm_num) pp (show 0 < layerT α 0 h by linarith [hT.1])
  have hP' := layerP_pos h0 h1 (i := 0) (by norm_num) pp (show 0 < layerT α 0 h' by linarith [hT'.1])
  have l1 := log_layerP h0 h1 (i := 0) (by norm_num) (h := h) (by linarith [hT.1])
  have l2 := log_layerP h0 h1 (i := 0) (by norm_num) (h := h') (by linarith [hT'.1])
  have hL : lapse α 0 < 0 := by norm_num [lapse, lapseLow, lapseHigh]; nlinarith
  rw [if_neg hL.ne] at l1 l2
  have t0 : 0 < tTrans α 0 := by norm_num [tTrans]
  rw [Real.log_div (by linarith [hT.1]) t0.ne'] at l1
  rw [Real.log_div (by linarith [hT'.1]) t0.ne'] at l2
  have hg : 0 < gravity / airRs := div_pos gravity_pos airRs_pos
  have hTe : layerT α 0 h - layerT α 0 h' = -lapse α 0 * (h' - h) := by unfold layerT; ring
  have hlog : Real.log (layerT α 0 h) - Real.log (layerT α 0 h') ≤ -lapse α 0 * ((h' - h) / 100) := by
    rw [← Real.log_div (by linarith [hT.1]) (by linarith [hT'.1])]
    refine (Real.log_le_sub_one_of_pos (div_pos (by linarith [hT.1]) (by linarith [hT'.1]))).trans ?_
    have hx : layerT α 0 h / layerT α 0 h' - 1 = (-lapse α 0 * (h' - h)) / layerT α 0 h' := by
      rw [← hTe]; field_simp [show layerT α 0 h' ≠ 0 by linarith [hT'.1]]
    rw [hx, div_le_iff₀ (by linarith [hT'.1])]
    have : 0 ≤ -lapse α 0 * ((h' - h) / 100) := mul_nonneg (by linarith) (by linarith)
    nlinarith [hT'.1]
  have hdiff : Real.log (layerP α 0 h) - Real.log (layerP α 0 h') ≤ gravity / airRs * ((h' - h) / 100) := by
    rw [l1, l2]
    have : (Real.log (layerT α 0 h') - Real.log (tTrans α 0)) / lapse α 0 -
        (Real.log (layerT α 0 h) - Real.log (tTrans α 0)) / lapse α 0 ≤ (h' - h) / 100 := by
      rw [← sub_div, div_le_iff_of_neg hL]
      linarith
    nlinarith
  have := Real.one_sub_inv_le_log_of_pos (div_pos hP' hP)
  rw [Real.log_div hP'.ne' hP.ne', inv_div] at this
  have hexp := Real.add_one_le_exp (-(gravity / airRs * ((h' - h) / 100)))
  have hle : Real.exp (-(gravity / airRs * ((h' - h) / 100))) ≤ layerP α 0 h' / layerP α 0 h := by
    rw [← Real.le_log_iff_exp_le (div_pos hP' hP), Real.log_div hP'.ne' hP.ne']
    linarith
  have h3 := hexp.trans hle
  rw [le_div_iff₀ hP] at h3
  linarith

/-- At 10 kPa or less every atmosphere is above 51,000 ft. -/
theorem high_above_restart {α : ℝ} (h0 : 0 ≤ α) (h1 : α ≤ 1) {p : ℝ} {v : AtmVals}
    (hv : atPressure α p = .ok v) (hp : p ≤ 10000) : 51000 * 0.3048 < v.height := by
  obtain ⟨e, r⟩ := C43_pressure_roundtrip α h0 h1 p v hv
  by_contra hc
  have hc := not_lt.1 hc
  have hlo : -610 ≤ v.height := ((C45_height_domain α v.height).1.1 ⟨v, r⟩).1
  have hat := atHeight_eq (α := α) (h := v.height) (i := 0) (by norm_num)
    (by norm_num [hTrans]; linarith) (by norm_num [hTrans]; norm_num at hc; linarith)
  have hpe : v.pressure = layerP α 0 v.height := by
    rw [hat] at r; injection r with r; rw [← r]
  have hfl := floor_pressure h0 h1
  have hdrop := layerP0_drop h0 h1 (h := 15240) (h' := 51000 * 0.3048) (by norm_num) (by norm_num)
    (by norm_num)
  have h10 : 10000 < layerP α 0 (51000 * 0.3048) := by
    have : (0.85 : ℝ) ≤ 1 - gravity / airRs * ((51000 * 0.3048 - 15240) / 100) := by
      norm_num [gravity, airRs, gasR, airM]
    have hpos : 0 ≤ layerP α 0 15240 := by linarith
    have h9 : 11400 * 0.88 ≤ layerP α 0 15240 * (1 - gravity / airRs * ((51000 * 0.3048 - 15240) / 100)) := by
      have : (0.88 : ℝ) ≤ 1 - gravity / airRs * ((51000 * 0.3048 - 15240) / 100) := by
        norm_num [gravity, airRs, gasR, airM]
      exact mul_le_mul hfl.le this (by norm_num) hpos
    norm_num at h9 ⊢
    linarith
  rcases eq_or_lt_of_le hc with h | h
  · rw [h] at hpe; linarith
  · have hT := layerT_pos h0 h1 (i := 0) (h := v.height) (by norm_num) (by norm_num [hTrans]; linarith)
      (by norm_num [hTrans]; norm_num at hc; linarith)
    have hT' := layerT_pos h0 h1 (i := 0) (h := 51000 * 0.3048) (by norm_num) (by norm_num [hTrans])
      (by norm_num [hTrans])
    have := layerP_strictAnti h0 h1 (i := 0) (by norm_num) (by linarith [hT.1]) (by linarith [hT'.1]) h
    linarith

end BLE
