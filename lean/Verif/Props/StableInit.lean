import Verif.Model.StableInit
import Verif.Props.Flight

/-!
# C79: cold start
-/

namespace BLE

theorem coldStart_ok {sun : Sun} {α : ℝ} {s s' : BState} (h : coldStart sun α s = .ok s') :
    ∃ amb t, atPressure α s.pressure = .ok amb ∧
      newtonLoop (fun t => dTempDt s.volBase s.envMass t amb.temperature s.pressure
        (sun s.latlng s.dateTime).el (sun s.latlng s.dateTime).flux s.upwelling) 10 206 = .ok t ∧
      s' = { s with
        ambT := amb.temperature, intT := t
        molsAir := stableMolsAir s.pressure s.volBase s.envMass s.payload s.molsLift amb.temperature
        vol := (superpressureAndVolume s.molsLift (stableMolsAir s.pressure s.volBase s.envMass s.payload
          s.molsLift amb.temperature) t s.pressure s.volBase s.dvdp).1
        sp := (superpressureAndVolume s.molsLift (stableMolsAir s.pressure s.volBase s.envMass s.payload
          s.molsLift amb.temperature) t s.pressure s.volBase s.dvdp).2 } := by
  unfold coldStart stableParams at h
  simp only [bind, Except.bind, pure, Except.pure] at h
  cases ha : atPressure α s.pressure with
  | error e => rw [ha] at h; cases h
  | ok amb =>
    rw [ha] at h
    simp only at h
    cases hn : newtonLoop (fun t => dTempDt s.volBase s.envMass t amb.temperature s.pressure
        (sun s.latlng s.dateTime).el (sun s.latlng s.dateTime).flux s.upwelling) 10 206 with
    | error e => rw [hn] at h; cases h
    | ok t =>
      rw [hn] at h
      injection h with h
      exact ⟨amb, t, rfl, hn, h.symm⟩

/-- Weight of air displaced by the volume `V` at the balloon's ambient conditions [kg]. -/
noncomputable def Spec.displaced (s : BState) (V : ℝ) : ℝ :=
  s.pressure * 0.02896492248116 / (8.3144621 * s.ambT) * V

/-- Mass of the flight system [kg]: helium, ballonet air, envelope, payload. -/
noncomputable def Spec.mass (s : BState) : ℝ :=
  0.004002602 * s.molsLift + 0.02896492248116 * s.molsAir + s.envMass + s.payload

/-- C79. After a cold start, the ambient temperature is the atmosphere's, the air in the ballonet is
non-negative and makes the system neutrally buoyant at the base volume; if even an empty ballonet is
too heavy the air is zero and the system is heavier than the air displaced at base volume. Nothing
else but the five initialised variables changes. -/
theorem C79_neutral_at_base_volume (sun : Sun) (α : ℝ) (h0 : 0 ≤ α) (h1 : α ≤ 1) (s s' : BState)
    (h : coldStart sun α s = .ok s') :
    (∃ v, atPressure α s.pressure = .ok v ∧ s'.ambT = v.temperature) ∧ 0 ≤ s'.molsAir ∧
    (Spec.mass { s' with molsAir := 0 } ≤ Spec.displaced s' s.volBase →
      Spec.mass s' = Spec.displaced s' s.volBase) ∧
    (Spec.displaced s' s.volBase < Spec.mass { s' with molsAir := 0 } →
      s'.molsAir = 0 ∧ Spec.displaced s' s.volBase < Spec.mass s') ∧
    s' = { s with ambT := s'.ambT, intT := s'.intT, molsAir := s'.molsAir, vol := s'.vol, sp := s'.sp } := by
  obtain ⟨amb, t, ha, _, rfl⟩ := coldStart_ok h
  obtain ⟨t1, _⟩ := atPressure_temp h0 h1 ha
  refine ⟨⟨amb, ha, rfl⟩, le_max_right _ _, ?_, ?_, rfl⟩
  all_goals
    simp only [Spec.mass, Spec.displaced, stableMolsAir]
    have hM : airM = 0.02896492248116 := by norm_num [airM]
    have hR : gasR = 8.3144621 := rfl
    have hH : heM = 0.004002602 := rfl
    rw [hM, hR, hH]
    have e : s.pressure * 0.02896492248116 / (8.3144621 * amb.temperature) * s.volBase =
      s.pressure * 0.02896492248116 * s.volBase / (8.3144621 * amb.temperature) := by ring
    rw [e]
    generalize s.pressure * 0.02896492248116 * s.volBase / (8.3144621 * amb.temperature) = D
    intro hh
  · rw [max_eq_left (div_nonneg (by linarith) (by norm_num))]
    field_simp
    ring
  · have : (D - s.envMass - s.payload - 0.004002602 * s.molsLift) / 0.02896492248116 ≤ 0 :=
      div_nonpos_of_nonpos_of_nonneg (by linarith) (by norm_num)
    rw [max_eq_right this]
    exact ⟨rfl, hh⟩

/-- C79. The initial volume and superpressure balance the envelope equations at the temperature found
(for positive lift gas, base volume and internal temperature). -/
theorem C79_envelope_balanced (sun : Sun) (α : ℝ) (h0 : 0 ≤ α) (h1 : α ≤ 1) (s s' : BState)
    (h : coldStart sun α s = .ok s') (hl : 0 < s.molsLift) (hv : 0 < s.volBase) (hd : 0 ≤ s.dvdp)
    (ht : 0 < s'.intT) :
    Spec.EnvelopeBalance (s'.molsLift + s'.molsAir) s'.intT s'.pressure s'.volBase s'.dvdp s'.vol s'.sp := by
  obtain ⟨amb, t, ha, _, rfl⟩ := coldStart_ok h
  obtain ⟨_, hp⟩ := atPressure_temp h0 h1 ha
  have hA : 0 ≤ stableMolsAir s.pressure s.volBase s.envMass s.payload s.molsLift amb.temperature :=
    le_max_right _ _
  exact C14_solves _ _ _ _ _ _ (by linarith) ht hp hv hd

/-- C79, what happens next. Neutral buoyancy is arranged for the *base* volume, but the balloon flies
with its superpressured volume. So a freshly initialised balloon that carries ballonet air and is
superpressured starts to climb in its very first sub-step, whatever the command. -/
theorem C79_starts_climbing (sun sun' : Sun) (α : ℝ) (h0 : 0 ≤ α) (h1 : α ≤ 1) (s s' s'' : BState)
    (h : coldStart sun α s = .ok s') (hl : 0 < s.molsLift) (hv : 0 < s.volBase) (hd : 0 < s.dvdp)
    (ht : 0 < s'.intT) (hair : 0 < s'.molsAir) (hsp : 0 < s'.sp) (u v : ℝ) (a : Command) (stride : ℤ)
    (hst : 0 < stride) (hstep : substep sun' α u v a stride s' = .ok s'') :
    s''.pressure < s'.pressure := by
  obtain ⟨⟨amb, ha, hT⟩, _, hneut, hheavy, hframe⟩ := C79_neutral_at_base_volume sun α h0 h1 s s' h
  obtain ⟨t1, hp⟩ := atPressure_temp h0 h1 ha
  have hbal := C79_envelope_balanced sun α h0 h1 s s' h hl hv hd.le ht
  have hbase : s'.volBase = s.volBase := by rw [hframe]
  have hdv : s'.dvdp = s.dvdp := by rw [hframe]
  have hpp : s'.pressure = s.pressure := by rw [hframe]
  have hm : Spec.mass s' = Spec.displaced s' s.volBase := by
    rcases le_or_gt (Spec.mass { s' with molsAir := 0 }) (Spec.displaced s' s.volBase) with hc | hc
    · exact hneut hc
    · rw [(hheavy hc).1] at hair; exact absurd hair (lt_irrefl _)
  have hvol : s.volBase < s'.vol := by
    unfold Spec.EnvelopeBalance at hbal
    rcases le_or_gt ((s'.molsLift + s'.molsAir) * 8.3144621 * s'.intT) (s'.pressure * s'.volBase) with hc | hc
    · rw [(hbal.1 hc).1] at hsp; exact absurd hsp (lt_irrefl _)
    · obtain ⟨_, e, _⟩ := hbal.2 hc
      rw [e, hbase, hdv]
      nlinarith
  refine (C17_buoyancy sun' α h0 h1 u v a stride s' s'' hstep hst).2.2.1 ?_
  have hm' : Spec.mass s' = 0.004002602 * s'.molsLift + 0.02896492248116 * s'.molsAir + s'.envMass + s'.payload := rfl
  rw [← hm', hm]
  unfold Spec.displaced
  have hc : 0 < s'.pressure * 0.02896492248116 / (8.3144621 * s'.ambT) := by
    rw [hpp, hT]
    apply div_pos <;> nlinarith
  nlinarith

/-! ### A concrete cold start (non-vacuity) -/

/-- The default vehicle at 10 kPa. -/
noncomputable def demoCold : BState := { demo with pressure := 10000 }

/-- At the zenith the temperature rate is affine in the solar flux, with a slope that does not depend
on the gas temperature. -/
theorem dTempDt_affine (vol mass ta p ir : ℝ) (hp : 0 ≤ p) (hp' : p ≤ 101325) (hi : 1 ≤ ir)
    (hi' : ir ≤ 1000) (hv : 0 < vol) (hm : 0 < mass) :
    ∃ K, 0 < K ∧ ∀ tb, 13 ≤ tb → tb ≤ 8000 → ∃ b, ∀ f, dTempDt vol mass tb ta p 90 f ir = .ok (K * f + b) := by
  obtain ⟨f0, f1⟩ := fluxToTemp_range hi hi'
  obtain ⟨g0, g1⟩ := absorptivityIr_range f0 f1
  obtain ⟨att, hatt, hpos⟩ : ∃ att, attenuation 90 p = .ok att ∧ 0 < att := by
    unfold attenuation
    rw [if_neg (by norm_num), if_neg (by push Not; exact ⟨hp', hp⟩), if_neg (by norm_num [minSolarEl])]
    exact ⟨_, rfl, by positivity⟩
  have hr : 0 < (3 * vol / (4 * Real.pi)) ^ (1 / 3 : ℝ) := by
    apply Real.rpow_pos_of_pos; positivity
  refine ⟨att * 0.25 * (4 * Real.pi * (3 * vol / (4 * Real.pi)) ^ (1 / 3 : ℝ) * (3 * vol / (4 * Real.pi)) ^ (1 / 3 : ℝ)) *
    (0.01435 * (1 + (1 - 0.01435 - 0.0291) / (1 - 0.0291))) / (1500 * mass), ?_, ?_⟩
  · have : (0 : ℝ) < 0.01435 * (1 + (1 - 0.01435 - 0.0291) / (1 - 0.0291)) := by norm_num
    positivity
  · intro tb ht ht'
    obtain ⟨k0, k1⟩ := absorptivityIr_range ht ht'
    unfold dTempDt
    simp only [bind, Except.bind, hatt, totalAbsorptivity_ok g0 g1, totalAbsorptivity_ok k0 k1,
      totalAbsorptivity_ok (show (0 : ℝ) ≤ 0.01435 by norm_num) (by norm_num)]
    have hne : 1500 * mass ≠ 0 := by positivity
    simp only [pyDiv_ok hne]
    generalize (3 * vol / (4 * Real.pi)) ^ (1 / 3 : ℝ) = r
    generalize ir * 0.4605 * (4 * Real.pi * r * r) *
      (absorptivityIr (fluxToTemp ir) * (1 + (1 - absorptivityIr (fluxToTemp ir) - 0.0291) / (1 - 0.0291))) = q1
    generalize 4 * Real.pi * r * r * convectiveFactor r tb ta p = q2
    generalize tempToFlux tb * (4 * Real.pi * r * r) *
      (absorptivityIr tb * (1 + (1 - absorptivityIr tb - 0.0291) / (1 - 0.0291))) = q3
    refine ⟨(q1 + q2 - q3) / (1500 * mass), fun f => ?_⟩
    congr 1
    field_simp
    ring

/-- At 10 kPa the cold-blend atmosphere is between 100 K and 201 K. -/
theorem cold_temp {v : AtmVals} (hv : atPressure 0 10000 = .ok v) : v.temperature ≤ 201 ∧ 100 < v.temperature := by
  have h0 : (0 : ℝ) ≤ 0 := le_refl _
  have h1 : (0 : ℝ) ≤ 1 := by norm_num
  obtain ⟨e, r⟩ := C43_pressure_roundtrip 0 h0 h1 _ v hv
  have hhi := high_above_restart h0 h1 hv (le_refl _)
  refine ⟨?_, (C44_positive 0 h0 h1 _ v r).1⟩
  have h21 : v.height < 21000 := by
    by_contra hc
    have hc := not_lt.1 hc
    have hat := atHeight_eq (α := 0) (h := 21000) (i := 2) (by norm_num) (by norm_num [hTrans]) (by norm_num [hTrans])
    have hp2 : pTrans 0 2 < 10000 := by
      refine lt_of_le_of_lt (pTrans_le_exp h0 h1 (i := 2) (by norm_num)) ?_
      have h24 : (2.45 : ℝ) ≤ gravity / airRs * ((hTrans 2 - hTrans 0) / 300) := by
        norm_num [gravity, airRs, gasR, airM, hTrans]
      have h2 : Real.exp (-(gravity / airRs) * ((hTrans 2 - hTrans 0) / 300)) ≤ Real.exp (-2.45) :=
        Real.exp_le_exp.2 (by linarith)
      have h3 : Real.exp (-2.45) ≤ 0.0915 := by
        rw [Real.exp_neg, inv_le_comm₀ (Real.exp_pos _) (by norm_num)]
        have e1 : Real.exp 2.45 = Real.exp 1 ^ 2 * Real.exp 0.45 := by
          rw [← Real.exp_nat_mul, ← Real.exp_add]; norm_num
        have e2 := Real.exp_one_gt_d9
        have e3 : (1.5512 : ℝ) ≤ Real.exp 0.45 := by
          have := Real.quadratic_le_exp_of_nonneg (x := 0.45) (by norm_num)
          norm_num at this ⊢; linarith
        have e4 : (2.7182 : ℝ) ^ 2 ≤ Real.exp 1 ^ 2 := by
          apply pow_le_pow_left₀ (by norm_num); linarith
        rw [e1]
        calc (0.0915 : ℝ)⁻¹ ≤ 2.7182 ^ 2 * 1.5512 := by norm_num
          _ ≤ _ := mul_le_mul e4 e3 (by norm_num) (by positivity)
      refine lt_of_le_of_lt (mul_le_mul_of_nonneg_left (h2.trans h3) (by norm_num)) ?_
      norm_num
    have hs : layerP 0 2 21000 = pTrans 0 2 := layerP_start h0 h1 (i := 2) (by norm_num)
    rcases eq_or_lt_of_le hc with hh | hh
    · rw [← hh, hat] at r
      injection r with r
      rw [← r] at e
      simp only at e
      rw [hs] at e
      linarith
    · have := (C44_higher_is_thinner 0 h0 h1 _ _ _ _ hat r hh).1
      simp only at this
      rw [hs, e] at this
      linarith
  rcases lt_or_ge v.height 17000 with hc | hc
  · have hat := atHeight_eq (α := 0) (h := v.height) (i := 0) (by norm_num) (by norm_num [hTrans]; linarith)
      (by norm_num [hTrans]; exact hc)
    rw [hat] at r
    injection r with r
    rw [← r]
    norm_num [layerT, tTrans, lapse, lapseLow, lapseHigh, hTrans] at hhi ⊢
    linarith
  · have hat := atHeight_eq (α := 0) (h := v.height) (i := 1) (by norm_num) (by norm_num [hTrans]; exact hc)
      (by norm_num [hTrans]; exact h21)
    rw [hat] at r
    injection r with r
    rw [← r]
    norm_num [layerT, tTrans, lapse, lapseLow, lapseHigh, hTrans] at h21 ⊢
    linarith

/-- There is a sun for which the default vehicle at 10 kPa cold-starts at exactly 206 K, carrying
ballonet air and superpressured: the hypotheses of the C79 theorems are met. -/
theorem demoCold_start : ∃ (sun : Sun) (s' : BState), coldStart sun 0 demoCold = .ok s' ∧ s'.intT = 206 ∧
    0 < s'.molsAir ∧ 0 < s'.sp := by
  obtain ⟨amb, hamb⟩ := atPressure_in (α := 0) (p := 10000) (by norm_num) (by norm_num) (by norm_num) (by norm_num)
  obtain ⟨t1, t2⟩ := cold_temp hamb
  obtain ⟨K, hK, hb⟩ := dTempDt_affine demoCold.volBase demoCold.envMass amb.temperature 10000 demoCold.upwelling
    (by norm_num) (by norm_num) (by norm_num [demoCold, demo]) (by norm_num [demoCold, demo])
    (by norm_num [demoCold, demo]) (by norm_num [demoCold, demo])
  obtain ⟨b1, hb1⟩ := hb (206 - 0.01 / 2) (by norm_num) (by norm_num)
  obtain ⟨b2, hb2⟩ := hb (206 + 0.01 / 2) (by norm_num) (by norm_num)
  have hN : newtonLoop (fun t => dTempDt demoCold.volBase demoCold.envMass t amb.temperature 10000
      90 (-(b1 + b2) / (2 * K)) demoCold.upwelling) 10 206 = .ok 206 := by
    rw [newtonLoop]
    simp only [bind, Except.bind, hb1, hb2]
    have hm : (K * (-(b1 + b2) / (2 * K)) + b1 + (K * (-(b1 + b2) / (2 * K)) + b2)) / 2 = 0 := by
      field_simp; ring
    rw [hm]
    have hif : ∀ dd : ℝ, (if |dd| > 0 then (206 : ℝ) - 0 / dd else 206) = 206 := by
      intro dd; split_ifs <;> simp
    rw [hif, if_pos (by norm_num)]
    rfl
  obtain ⟨s', hs'⟩ : ∃ s', coldStart (fun _ _ => ⟨90, -(b1 + b2) / (2 * K)⟩) 0 demoCold = .ok s' := by
    unfold coldStart stableParams
    have hp : demoCold.pressure = 10000 := rfl
    simp only [bind, Except.bind, pure, Except.pure, hp, hamb, hN]
    exact ⟨_, rfl⟩
  refine ⟨_, s', hs', ?_⟩
  obtain ⟨amb', t, ha, hn, rfl⟩ := coldStart_ok hs'
  have hp : demoCold.pressure = 10000 := rfl
  rw [hp] at ha hn
  rw [hamb] at ha
  injection ha with ha
  subst ha
  simp only at hn
  rw [hN] at hn
  injection hn with hn
  subst hn
  refine ⟨rfl, ?_⟩
  have hA : 4000 < stableMolsAir demoCold.pressure demoCold.volBase demoCold.envMass demoCold.payload
      demoCold.molsLift amb.temperature := by
    unfold stableMolsAir
    refine lt_max_of_lt_left ?_
    have hd : 312 < demoCold.pressure * airM * demoCold.volBase / (gasR * amb.temperature) := by
      rw [lt_div_iff₀ (mul_pos (by norm_num [gasR]) (by linarith))]
      norm_num [demoCold, demo, airM, gasR]
      linarith
    rw [lt_div_iff₀ (by norm_num [airM])]
    have e1 : demoCold.envMass = 68.5 := rfl
    have e2 : demoCold.payload = 92.5 := rfl
    have e3 : demoCold.molsLift = 6830 := rfl
    rw [e1, e2, e3]
    norm_num [airM, heM] at hd ⊢
    linarith
  refine ⟨by simp only; linarith, ?_⟩
  simp only
  generalize stableMolsAir demoCold.pressure demoCold.volBase demoCold.envMass demoCold.payload
      demoCold.molsLift amb.temperature = nA at *
  have e3 : demoCold.molsLift = 6830 := rfl
  have e4 : demoCold.volBase = 1804 := rfl
  have e5 : demoCold.dvdp = 0.0199 := rfl
  rw [e3, e4, e5, hp]
  exact (sp_range (by linarith) (by norm_num) (by norm_num) (by norm_num) (by norm_num)
    (by norm_num; linarith)).2.2

end BLE
