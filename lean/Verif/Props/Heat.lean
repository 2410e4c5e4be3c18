import Verif.Props.SafeStart
import Verif.Lemmas.Heat

/-!
# C113: the lift gas warms and cools the right way, and its temperature stays between 160 K and 300 K
-/

namespace BLE

/-! ## Direction of the heat flow -/

/-- C113. Convection carries heat from the warmer to the colder side, and none between equals: for every radius, pressure
and ambient temperature up to 300 K the convective factor has the sign of (ambient − gas). -/
theorem C113_convection (r tb ta p : ℝ) (hr : 0 < r) (h0 : 0 < ta) (h1 : ta ≤ 300) :
    (tb < ta → 0 < convectiveFactor r tb ta p) ∧ (ta < tb → convectiveFactor r tb ta p < 0) ∧
    (tb = ta → convectiveFactor r tb ta p = 0) := by
  have hk : ∃ k, 0 < k ∧ convectiveFactor r tb ta p = k * (ta - tb) := by
    unfold convectiveFactor
    simp only
    refine ⟨_, ?_, rfl⟩
    have : 0 ≤ 0.804 - 3.25e-4 * ta := by norm_num; linarith
    positivity
  obtain ⟨k, hk, e⟩ := hk
  rw [e]
  refine ⟨fun h => mul_pos hk (by linarith), fun h => mul_neg_of_pos_of_neg hk (by linarith), fun h => by rw [h]; ring⟩

/-- A 7.5 m balloon at 50 hPa with gas 20 K above the air of 210 K loses heat by convection. -/
example : convectiveFactor 7.5 230 210 5000 < 0 :=
  (C113_convection 7.5 230 210 5000 (by norm_num) (by norm_num) (by norm_num)).2.1 (by norm_num)

/-- The convective part falls with the gas temperature. -/
theorem convective_anti {k G ta x y : ℝ} (hk : 0 ≤ k) (hG : 0 ≤ G) (hxy : x ≤ y) :
    k * nusseltOf G |x - ta| * (x - ta) ≤ k * nusseltOf G |y - ta| * (y - ta) := by
  rw [mul_assoc, mul_assoc]
  refine mul_le_mul_of_nonneg_left ?_ hk
  have hn : ∀ z, 0 ≤ nusseltOf G |z| := fun z => nusseltOf_nonneg hG (abs_nonneg _)
  rcases le_total 0 (x - ta) with h | h
  · have h' : 0 ≤ y - ta := by linarith
    rw [abs_of_nonneg h, abs_of_nonneg h']
    exact mul_le_mul (nusseltOf_mono hG h (by linarith)) (by linarith) h (nusseltOf_nonneg hG h')
  · rcases le_total 0 (y - ta) with h' | h'
    · exact (mul_nonpos_of_nonneg_of_nonpos (hn _) h).trans (mul_nonneg (hn _) h')
    · have := nusseltOf_mono hG (abs_nonneg (y - ta)) (show |y - ta| ≤ |x - ta| by
        rw [abs_of_nonpos h, abs_of_nonpos h']; linarith)
      calc nusseltOf G |x - ta| * (x - ta) ≤ nusseltOf G |y - ta| * (x - ta) :=
            mul_le_mul_of_nonpos_right this h
        _ ≤ nusseltOf G |y - ta| * (y - ta) := mul_le_mul_of_nonneg_left (by linarith) (hn _)

/-- C113. All else equal, a warmer gas warms more slowly (or cools faster), and more sunlight or more infrared from the
ground warms it faster. -/
theorem C113_response (vol mass ta p el : ℝ) (hv : 0 < vol) (hm : 0 < mass) (h0 : 0 < ta) (h1 : ta ≤ 300) (hp : 0 ≤ p)
    (hp' : p ≤ 101325) (he0 : -90 ≤ el) (he1 : el ≤ 90) :
    (∀ sf ef tb tb' d d', 0 ≤ sf → sf ≤ 1500 → 225 ≤ ef → ef ≤ 450 → 160 ≤ tb → tb < tb' → tb' ≤ 900 →
      dTempDt vol mass tb ta p el sf ef = .ok d → dTempDt vol mass tb' ta p el sf ef = .ok d' → d' < d) ∧
    (∀ sf sf' ef tb d d', sf < sf' → dTempDt vol mass tb ta p el sf ef = .ok d →
      dTempDt vol mass tb ta p el sf' ef = .ok d' → d ≤ d' ∧ (-4.242 ≤ el → d < d')) ∧
    (∀ sf ef ef' tb d d', 225 ≤ ef → ef < ef' → ef' ≤ 450 → dTempDt vol mass tb ta p el sf ef = .ok d →
      dTempDt vol mass tb ta p el sf ef' = .ok d' → d < d') := by
  obtain ⟨att, hatt, hat0, hat1, -, hatp⟩ := (C51_attenuation el p).2 he0 he1 hp hp'
  have hr : 0 < (3 * vol / (4 * Real.pi)) ^ (1 / 3 : ℝ) := by
    apply Real.rpow_pos_of_pos; positivity
  have hne : 1500 * mass ≠ 0 := by positivity
  have hM : 0 < 1500 * mass := by positivity
  refine ⟨?_, ?_, ?_⟩
  · intro sf ef tb tb' d d' s0 s1 f0 f1 t0 tt t1 h h'
    obtain ⟨K, G, k, c, hK, hG, hk, -, -, hform⟩ := dTempDt_form hv hm h0 h1 hp hp' he0 he1 s0 s1 f0 f1
    rw [hform tb (by linarith) (by linarith)] at h
    rw [hform tb' (by linarith) (by linarith)] at h'
    injection h with h
    injection h' with h'
    rw [← h, ← h']
    have a := convective_anti (ta := ta) hk hG tt.le
    have b := radiated_slope t0 tt.le t1
    have : 0 < K * ((k * nusseltOf G |tb' - ta| * (tb' - ta) + radiated tb' - c) -
      (k * nusseltOf G |tb - ta| * (tb - ta) + radiated tb - c)) := mul_pos hK (by linarith)
    linarith
  · intro sf sf' ef tb d d' hs h h'
    unfold dTempDt at h h'
    simp only [bind, Except.bind, hatt, totalAbsorptivity_ok (show (0 : ℝ) ≤ 0.01435 by norm_num) (by norm_num)] at h h'
    rcases h1 : totalAbsorptivity (absorptivityIr (fluxToTemp ef)) 0.0291 with e | aE
    · rw [h1] at h; cases h
    rcases h2 : totalAbsorptivity (absorptivityIr tb) 0.0291 with e | aB
    · rw [h1, h2] at h; cases h
    simp only [h1, h2, pyDiv_ok hne] at h h'
    injection h with h
    injection h' with h'
    rw [← h, ← h']
    have aSp : 0 < 0.01435 * (1 + (1 - 0.01435 - 0.0291) / (1 - 0.0291) : ℝ) := by norm_num
    generalize 0.01435 * (1 + (1 - 0.01435 - 0.0291) / (1 - 0.0291) : ℝ) = aS at *
    have hA : 0 < 4 * Real.pi * (3 * vol / (4 * Real.pi)) ^ (1 / 3 : ℝ) * (3 * vol / (4 * Real.pi)) ^ (1 / 3 : ℝ) := by
      have := Real.pi_pos
      positivity
    generalize 4 * Real.pi * (3 * vol / (4 * Real.pi)) ^ (1 / 3 : ℝ) * (3 * vol / (4 * Real.pi)) ^ (1 / 3 : ℝ) = A at *
    have e : sf' * att * 0.25 * A * aS = sf * att * 0.25 * A * aS + (sf' - sf) * att * 0.25 * A * aS := by ring
    constructor
    · refine div_le_div_of_nonneg_right ?_ hM.le
      have : 0 ≤ (sf' - sf) * att * 0.25 * A * aS := by
        have := sub_pos.2 hs
        positivity
      linarith
    · intro hel
      refine div_lt_div_of_pos_right ?_ hM
      have : 0 < (sf' - sf) * att * 0.25 * A * aS := by
        have := sub_pos.2 hs
        have := hatp hel
        positivity
      linarith
  · intro sf ef ef' tb d d' f0 ff f1 h h'
    obtain ⟨b1, b2⟩ := fluxToTemp_range (by linarith : (1:ℝ) ≤ ef) (by linarith)
    obtain ⟨b3, b4⟩ := fluxToTemp_range (by linarith : (1:ℝ) ≤ ef') (by linarith)
    obtain ⟨g0, g1⟩ := absorptivityIr_range b1 b2
    obtain ⟨g2, g3⟩ := absorptivityIr_range b3 b4
    have hmono : absorptivityIr (fluxToTemp ef) ≤ absorptivityIr (fluxToTemp ef') := by
      have := fluxToTemp_mono (by linarith : 0 ≤ ef) ff.le
      unfold absorptivityIr
      norm_num
      linarith
    have hle : fluxToTemp ef' ≤ 300 := by
      rw [← (C52_black_body 300 0).1 (by norm_num)]
      exact fluxToTemp_mono (by linarith) (f1.trans (by norm_num [tempToFlux, stefanBoltzmann]))
    have hlt : absorptivityIr (fluxToTemp ef') ≤ 0.067 := by
      unfold absorptivityIr
      norm_num
      linarith
    have hE0 := (earth_absorptivity f0 (by linarith)).1
    unfold dTempDt at h h'
    simp only [bind, Except.bind, hatt, totalAbsorptivity_ok (show (0 : ℝ) ≤ 0.01435 by norm_num) (by norm_num),
      totalAbsorptivity_ok g0 g1, totalAbsorptivity_ok g2 g3] at h h'
    rcases h2 : totalAbsorptivity (absorptivityIr tb) 0.0291 with e | aB
    · rw [h2] at h; cases h
    simp only [h2, pyDiv_ok hne] at h h'
    injection h with h
    injection h' with h'
    rw [← h, ← h']
    have hae : absorptivityIr (fluxToTemp ef) * (1 + (1 - absorptivityIr (fluxToTemp ef) - 0.0291) / (1 - 0.0291)) ≤
        absorptivityIr (fluxToTemp ef') * (1 + (1 - absorptivityIr (fluxToTemp ef') - 0.0291) / (1 - 0.0291)) := by
      generalize absorptivityIr (fluxToTemp ef) = x at *
      generalize absorptivityIr (fluxToTemp ef') = y at *
      have q : ∀ z : ℝ, z * (1 + (1 - z - 0.0291) / (1 - 0.0291)) = z * (1.9418 - z) / 0.9709 := by
        intro z; field_simp; norm_num; ring
      rw [q, q]
      refine div_le_div_of_nonneg_right ?_ (by norm_num)
      nlinarith
    generalize absorptivityIr (fluxToTemp ef) * (1 + (1 - absorptivityIr (fluxToTemp ef) - 0.0291) / (1 - 0.0291)) = aE at *
    generalize absorptivityIr (fluxToTemp ef') * (1 + (1 - absorptivityIr (fluxToTemp ef') - 0.0291) / (1 - 0.0291)) = aE' at *
    have hA : 0 < 4 * Real.pi * (3 * vol / (4 * Real.pi)) ^ (1 / 3 : ℝ) * (3 * vol / (4 * Real.pi)) ^ (1 / 3 : ℝ) := by
      have := Real.pi_pos
      positivity
    generalize 4 * Real.pi * (3 * vol / (4 * Real.pi)) ^ (1 / 3 : ℝ) * (3 * vol / (4 * Real.pi)) ^ (1 / 3 : ℝ) = A at *
    refine div_lt_div_of_pos_right ?_ hM
    have haE : 0 < aE := by linarith
    have w1 : ef * aE < ef' * aE' := by nlinarith
    have w2 := mul_lt_mul_of_pos_left w1 (show 0 < 0.4605 * A by positivity)
    have e1 : ef * 0.4605 * A * aE = 0.4605 * A * (ef * aE) := by ring
    have e2 : ef' * 0.4605 * A * aE' = 0.4605 * A * (ef' * aE') := by ring
    linarith

/-! ## The temperature band -/

/-- The stock balloon with its gas and the surrounding air at temperatures of the atmosphere. -/
structure Spec.Temperate (s : BState) : Prop extends Spec.StockVehicle s where
  ir : 225 ≤ s.upwelling ∧ s.upwelling ≤ 450
  air : 0 ≤ s.molsAir
  vol : 0 < s.vol
  ambient : 169 ≤ s.ambT ∧ s.ambT ≤ 300
  gas : 160 ≤ s.intT ∧ s.intT ≤ 300
  /-- while flying the envelope is not stretched beyond its burst limit -/
  taut : s.status = .ok → s.vol ≤ 1900 ∧ s.sp ≤ 2380

theorem temperate_substep {sun : Sun} (hsun : ∀ l t, 0 ≤ (sun l t).flux ∧ (sun l t).flux ≤ 1500) {α : ℝ} (h0 : 0 ≤ α)
    (h1 : α ≤ 1) {u v : ℝ} {a : Command} {stride : ℤ} (hs0 : 0 ≤ stride) (hs1 : stride ≤ 10 * usPerSec) {s s' : BState}
    (hok : s.status = .ok) (hs : Spec.Temperate s) (h : substep sun α u v a stride s = .ok s') : Spec.Temperate s' := by
  obtain ⟨p', amb, dT, solar, -, hamb, hdT, -, rfl⟩ := substep_ok h
  obtain ⟨-, t2⟩ := atPressure_temp h0 h1 hamb
  obtain ⟨a0, a1⟩ := atPressure_temp_range h0 h1 hamb
  obtain ⟨f0, f1⟩ := hsun s.latlng s.dateTime
  rw [hs.envMass] at hdT
  obtain ⟨κ, K, c, k0, k1, K0, K1, c0, c1, e⟩ := stock_heat hs.vol (hs.taut hok).1 hs.ambient.1 hs.ambient.2 f0 f1 hs.ir.1
    hs.ir.2 hs.gas.1 hs.gas.2 hdT
  have hτ0 : 0 ≤ totalSeconds stride := by
    unfold totalSeconds
    have : (0 : ℝ) ≤ stride := by exact_mod_cast hs0
    positivity
  have hτ1 : totalSeconds stride ≤ 10 := by
    unfold totalSeconds usPerSec at *
    rw [div_le_iff₀ (by norm_num)]
    have : (stride : ℝ) ≤ 10 * 1000000 := by exact_mod_cast hs1
    norm_num at *
    linarith
  have hn : 0 < s.molsLift + s.molsAir := by rw [hs.molsLift]; linarith [hs.air]
  have hT : 0 < s.intT := by linarith [hs.gas.1]
  have hb0 : 0 < s.volBase := by rw [hs.volBase]; norm_num
  have hd0 : 0 ≤ s.dvdp := by rw [hs.dvdp]; norm_num
  have hbal := C14_solves s.molsLift s.molsAir s.intT s.pressure s.volBase s.dvdp hn hT t2 hb0 hd0
  have hvp := volume_pos s.molsLift s.molsAir s.intT s.pressure s.volBase s.dvdp hn hT t2 hb0 hd0
  refine { volBase := hs.volBase, dvdp := hs.dvdp, envMass := hs.envMass, payload := hs.payload, molsLift := hs.molsLift
           maxSp := hs.maxSp, ir := hs.ir, air := le_max_right _ _, vol := hvp.1, ambient := ⟨by norm_num at *; linarith, a1⟩
           gas := ?_, taut := ?_ }
  · simp only
    rw [e]
    exact band_step hs.ambient.1 hs.ambient.2 hs.gas.1 hs.gas.2 k0 k1 K0 K1 c0 c1 hτ0 hτ1
  · intro hst
    simp only at hst ⊢
    generalize superpressureAndVolume s.molsLift s.molsAir s.intT s.pressure s.volBase s.dvdp = vs at *
    have hsp : vs.2 ≤ 2380 ∧ 0 < vs.2 := by
      rw [hs.maxSp] at hst
      unfold newStatus at hst
      simp only at hst
      split_ifs at hst <;> (first | cases hst | (constructor <;> linarith))
    rcases le_or_gt ((s.molsLift + s.molsAir) * 8.3144621 * s.intT) (s.pressure * s.volBase) with hc | hc
    · have := (hbal.1 hc).1
      linarith [hsp.2]
    · refine ⟨?_, hsp.1⟩
      rw [(hbal.2 hc).2.1, hs.volBase, hs.dvdp]
      norm_num
      linarith [hsp.1]

theorem temperate_loop {sun : Sun} (hsun : ∀ l t, 0 ≤ (sun l t).flux ∧ (sun l t).flux ≤ 1500) {α : ℝ} (h0 : 0 ≤ α)
    (h1 : α ≤ 1) {u v : ℝ} {a : Command} {stride : ℤ} (hs0 : 0 ≤ stride) (hs1 : stride ≤ 10 * usPerSec) (n : ℕ)
    (s : BState) (hok : s.status = .ok) (hs : Spec.Temperate s) :
    Spec.Temperate (substepLoop (substep sun α u v a stride) n s).1 := by
  induction n generalizing s with
  | zero => exact hs
  | succ n ih =>
    unfold substepLoop
    rcases h : substep sun α u v a stride s with e | s'
    · exact hs
    · simp only
      have := temperate_substep hsun h0 h1 hs0 hs1 hok hs h
      split_ifs with hc
      · exact this
      · exact ih s' (not_not.1 hc) this

theorem temperate_step {sun : Sun} (hsun : ∀ l t, 0 ≤ (sun l t).flux ∧ (sun l t).flux ≤ 1500) {α : ℝ} (h0 : 0 ≤ α)
    (h1 : α ≤ 1) {u v : ℝ} (a : Command) (dt : ℤ) {stride : ℤ} (hs0 : 0 ≤ stride) (hs1 : stride ≤ 10 * usPerSec)
    (s : BState) (hs : Spec.Temperate s) : Spec.Temperate (simulateStep sun α u v a dt stride s).1 := by
  have hcmd : ∀ s a pw ev al, Spec.Temperate s → Spec.Temperate { s with lastCommand := a, power := pw, env := ev, alt := al } :=
    fun s a pw ev al h =>
      { volBase := h.volBase, dvdp := h.dvdp, envMass := h.envMass, payload := h.payload, molsLift := h.molsLift
        maxSp := h.maxSp, ir := h.ir, air := h.air, vol := h.vol, ambient := h.ambient, gas := h.gas, taut := h.taut }
  obtain ⟨pw, ev, al, hch⟩ := safetyChain_state α { s with lastCommand := a } a
  have hT : Spec.Temperate (safetyChain α { s with lastCommand := a } a).1 := by rw [hch]; exact hcmd s a pw ev al hs
  rcases simulateStep_cases sun α u v a dt stride s with ⟨e, _, h⟩ | ⟨hok, _, _, s1, eff, hc, h⟩
  · rcases h with ⟨_, _, h⟩ | ⟨_, h⟩
    · rw [h]; exact hcmd s a s.power s.env s.alt hs
    · rw [h]; exact hT
  · rw [h]
    rw [hc] at hT hch
    exact temperate_loop hsun h0 h1 hs0 hs1 _ s1 (by simp only at hch; rw [hch]; exact hok) hT

/-- C113. The temperature band. Fly the stock balloon from gas between 160 K and 300 K by any sequence of calls, commands,
winds and durations, with strides of at most ten seconds (the code's own), in any atmosphere and under any sun of at most
1,500 W/m²: the gas stays between 160 K and 300 K, and the ambient temperature between 169 K and 300 K. Nothing is assumed
about where the balloon goes. -/
theorem C113_band (sun : Sun) (hsun : ∀ l t, 0 ≤ (sun l t).flux ∧ (sun l t).flux ≤ 1500) (α : ℝ) (h0 : 0 ≤ α) (h1 : α ≤ 1)
    (s : BState) (hs : Spec.Temperate s) (calls : List StepCall)
    (hc : ∀ c ∈ calls, 0 ≤ c.stride ∧ c.stride ≤ 10 * usPerSec) :
    let t := simulateMany sun α s calls
    (160 ≤ t.intT ∧ t.intT ≤ 300) ∧ (169 ≤ t.ambT ∧ t.ambT ≤ 300) := by
  have key : Spec.Temperate (simulateMany sun α s calls) := by
    unfold simulateMany
    induction calls generalizing s with
    | nil => exact hs
    | cons c cs ih =>
      obtain ⟨c0, c1⟩ := hc c (by simp)
      simp only [List.foldl_cons]
      exact ih _ (temperate_step hsun h0 h1 c.action c.timeDelta c0 c1 s hs) (fun c h => hc c (by simp [h]))
  exact ⟨key.gas, key.ambient⟩

/-- C113. In flight the gas temperature moves the right way: in every successful sub-step (of positive length) gas that is at
least as warm as its surroundings and warmer than 285 K cools; gas no warmer than its surroundings and at most 205 K warms. -/
theorem C113_direction (sun : Sun) (hsun : ∀ l t, 0 ≤ (sun l t).flux ∧ (sun l t).flux ≤ 1500) (α : ℝ) (u v : ℝ) (a : Command)
    (stride : ℤ) (hst : 0 < stride) (s s' : BState) (hok : s.status = .ok) (hs : Spec.Temperate s)
    (h : substep sun α u v a stride s = .ok s') :
    (s.ambT ≤ s.intT → 285 < s.intT → s'.intT < s.intT) ∧ (s.intT ≤ s.ambT → s.intT ≤ 205 → s.intT < s'.intT) := by
  obtain ⟨p', amb, dT, solar, -, hamb, hdT, -, rfl⟩ := substep_ok h
  obtain ⟨f0, f1⟩ := hsun s.latlng s.dateTime
  rw [hs.envMass] at hdT
  obtain ⟨κ, K, c, k0, k1, K0, K1, c0, c1, e⟩ := stock_heat hs.vol (hs.taut hok).1 hs.ambient.1 hs.ambient.2 f0 f1 hs.ir.1
    hs.ir.2 hs.gas.1 hs.gas.2 hdT
  have hτ0 : 0 < totalSeconds stride := by
    unfold totalSeconds
    have : (0 : ℝ) < stride := by exact_mod_cast hst
    norm_num [usPerSec]
    positivity
  have r285 : (38 : ℝ) ≤ radiated 285 := by rw [radiated_poly]; norm_num [stefanBoltzmann]
  have r205 : radiated 205 < 11 := by rw [radiated_poly]; norm_num [stefanBoltzmann]
  have g0 := hs.gas.1
  have g1 := hs.gas.2
  constructor
  · intro h1 h2
    simp only
    have hr := radiated_slope (x := 285) (y := s.intT) (by norm_num) h2.le (by linarith)
    have hd : dT < 0 := by
      rw [e]
      have w1 : κ * (s.ambT - s.intT) ≤ 0 := mul_nonpos_of_nonneg_of_nonpos k0.le (by linarith)
      have w2 : K * (c - radiated s.intT) < 0 := mul_neg_of_pos_of_neg K0 (by norm_num at *; linarith)
      linarith
    have := mul_neg_of_neg_of_pos hd hτ0
    linarith
  · intro h1 h2
    simp only
    have hr := radiated_slope (x := s.intT) (y := 205) g0 h2 (by norm_num)
    have hd : 0 < dT := by
      rw [e]
      have w1 : 0 ≤ κ * (s.ambT - s.intT) := mul_nonneg k0.le (by linarith)
      have w2 : 0 < K * (c - radiated s.intT) := mul_pos K0 (by norm_num at *; linarith)
      linarith
    have := mul_pos hd hτ0
    linarith

/-- The demonstration balloon at 206 K and a ten-second call: both the band and the direction theorem apply. -/
example : ∃ s s', Spec.Temperate s ∧ s.status = .ok ∧ s.intT ≤ 205 ∧ s.intT ≤ s.ambT ∧
    substep nightSun 0 3 4 .stay (10 * usPerSec) s = .ok s' ∧ s.intT < s'.intT := by
  have hT : Spec.Temperate { demo with intT := 200, ambT := 210 } := by
    refine { volBase := ?_, dvdp := ?_, envMass := ?_, payload := ?_, molsLift := ?_, maxSp := ?_, ir := ?_, air := ?_
             vol := ?_, ambient := ?_, gas := ?_, taut := fun _ => ?_ } <;> norm_num [demo]
  have hok : ({ demo with intT := 200, ambT := 210 } : BState).status = .ok := by norm_num [demo]
  obtain ⟨s', hs'⟩ := substep_no_error (sun := nightSun) (α := 0) (s := { demo with intT := 200, ambT := 210 }) le_rfl
    zero_le_one 3 4 .stay (10 * usPerSec) (by norm_num [demo]) (by norm_num [demo]) (by norm_num [demo])
    (by norm_num [demo]) (by norm_num [demo]) (by norm_num [demo]) (by norm_num [demo]) (by norm_num [demo])
    (by norm_num [demo]) (by norm_num [demo]) nightSun_el
  exact ⟨_, s', hT, hok, by norm_num, by norm_num, hs', (C113_direction nightSun (by intro l t; norm_num [nightSun]) 0 3 4 .stay
    (10 * usPerSec) (by decide) _ s' hok hT hs').2 (by norm_num) (by norm_num)⟩

/-! ## Whole episodes -/

variable {K W Rd : Type}

/-- Every episode starts temperate. -/
theorem start_temperate {α : ℝ} {b : BState} (h : Spec.ValidStart α b) (hsp : b.sp < 2130) : Spec.Temperate b := by
  have hf := start_flyer h
  obtain ⟨p0, p1, -⟩ := h.height
  obtain ⟨t0, -, t2, t3⟩ := h.temperature
  obtain ⟨s0, a0, hm⟩ := h.buoyant
  obtain ⟨hbal1, hbal2⟩ := h.balance
  rw [hf.molsLift, hf.volBase] at hbal1
  rw [hf.molsLift, hf.volBase, hf.dvdp] at hbal2
  have hb : b.vol = 1804 + 0.0199 * b.sp ∧ (b.pressure + b.sp) * b.vol = (6830 + b.molsAir) * 8.3144621 * b.intT := by
    rcases le_or_gt ((6830 + b.molsAir) * 8.3144621 * b.intT) (b.pressure * 1804) with hc | hc
    · exact absurd (hbal1 hc).1 s0.ne'
    · exact (hbal2 hc).2
  have hT : b.intT ≤ 300 := by
    unfold Spec.mass Spec.displaced at hm
    rw [hf.molsLift, hf.volBase, hf.envMass, hf.payload] at hm
    have hta : 0 < b.ambT := by linarith
    have e : b.pressure * 0.02896492248116 / (8.3144621 * b.ambT) * 1804 =
        0.02896492248116 * (b.pressure * 1804 / (8.3144621 * b.ambT)) := by ring
    rw [e] at hm
    have hn : b.pressure * 1804 / (8.3144621 * b.ambT) ≤ 6830 + b.molsAir := by
      norm_num at *
      linarith
    rw [div_le_iff₀ (by positivity)] at hn
    by_contra hc
    have hc := not_lt.2 (not_le.1 hc).le
    push Not at hc
    have q1 : (b.pressure + b.sp) * b.vol ≤ (b.pressure + 2130) * 1847 :=
      mul_le_mul (by linarith) (by rw [hb.1]; norm_num; linarith) hf.vol.le (by linarith)
    have q2 : (6830 + b.molsAir) * 8.3144621 * 300 ≤ (6830 + b.molsAir) * 8.3144621 * b.intT :=
      mul_le_mul_of_nonneg_left hc (by linarith)
    have q3 : (6830 + b.molsAir) * (8.3144621 * b.ambT) ≤ (6830 + b.molsAir) * (8.3144621 * 210) :=
      mul_le_mul_of_nonneg_left (by linarith) (by linarith)
    rw [← hb.2] at q2
    norm_num at *
    linarith
  exact { volBase := hf.volBase, dvdp := hf.dvdp, envMass := hf.envMass, payload := hf.payload, molsLift := hf.molsLift
          maxSp := hf.maxSp, ir := ⟨hf.ir0, by linarith [hf.ir1]⟩, air := hf.air, vol := hf.vol
          ambient := ⟨t2.le, by linarith⟩, gas := ⟨t0.le, hT⟩
          taut := fun _ => ⟨by rw [hb.1]; norm_num; linarith, by linarith⟩ }

theorem temperate_arena {E : World K W} {cal : Calendar} (hcal : Spec.Gregorian cal) (hE : E.sun = realSun cal)
    {A : Arena K W} {i : ℕ} (hA : Spec.InEpisode E A i) (hT : Spec.Temperate (A.heap.balls i)) (a : Command) :
    Spec.Temperate ((A.step E a).1.heap.balls i) := by
  rcases arenaStep_ball E a A i hA.ball with ⟨e, -, h⟩ | ⟨w, -, h, -⟩
  · rw [h]; exact hT
  · rw [h, Function.update_self]
    refine temperate_step (fun l t => ?_) hA.blend.1 hA.blend.2 a agentStep (by decide) (by decide) _ hT
    rw [hE]
    obtain ⟨-, -, f0, f1⟩ := C100_real_sun cal hcal.1 l t
    exact ⟨f0, by linarith⟩

/-- C113, whole episodes of the environment. Reset with any seed, from any state, then issue any actions: the gas of the
balloon on the arena stays between 160 K and 300 K throughout, whatever happens to it and whether or not steps raise. -/
theorem C113_episode_band (c : EnvCfg K W Rd) (hJ : Spec.SaneDraws c.world.J) (two : Bool) (hR : c.world.R = gpr two)
    (cal : Calendar) (hcal : Spec.Gregorian cal) (hE : c.world.sun = realSun cal) (hC : Spec.GoodWind c.world.C)
    (v : Env K W Rd) (seed : Option ℤ) (as : List ℤ) :
    ∃ i, (Spec.after c as (v.reset c seed).1).arena.ball = some i ∧
      Spec.InEpisode c.world (Spec.after c as (v.reset c seed).1).arena i ∧
      Spec.Temperate ((Spec.after c as (v.reset c seed).1).arena.heap.balls i) ∧
      160 ≤ ((Spec.after c as (v.reset c seed).1).arena.heap.balls i).intT ∧
      ((Spec.after c as (v.reset c seed).1).arena.heap.balls i).intT ≤ 300 := by
  have key : ∃ i, Spec.InEpisode c.world (v.reset c seed).1.arena i ∧
      Spec.Temperate ((v.reset c seed).1.arena.heap.balls i) := by
    have hr : ∃ rng A0, (v.reset c seed).1.arena = (Arena.reset c.world rng A0).1 := by
      unfold Env.reset
      simp only
      split
      · exact ⟨_, _, rfl⟩
      · split
        · exact ⟨_, _, rfl⟩
        · exact ⟨_, _, rfl⟩
    obtain ⟨rng, A0, hr⟩ := hr
    obtain ⟨A', obs, i, h1, h2, -, ⟨α, h4⟩, -⟩ := C102_reset c.world hJ two hR cal hcal hE hC rng A0
    obtain ⟨j, g1, -, g3, -⟩ := C103_reset c.world hJ cal hcal hE rng A0 A' obs h1
    have hij : j = i := by
      have := h2.ball
      rw [g1] at this
      injection this
    subst hij
    rw [hr, h1]
    exact ⟨j, h2, start_temperate h4 g3⟩
  obtain ⟨i, k1, k2⟩ := key
  have hep : Spec.InEpisode c.world (Spec.after c as (v.reset c seed).1).arena i ∧
      Spec.Temperate ((Spec.after c as (v.reset c seed).1).arena.heap.balls i) := by
    induction as using List.reverseRecOn with
    | nil => exact ⟨k1, k2⟩
    | append_singleton as a ih =>
      unfold Spec.after at ih ⊢
      rw [List.foldl_append]
      simp only [List.foldl_cons, List.foldl_nil]
      rcases envStep_arena c a (as.foldl (fun v a => (v.step c a).1) (v.reset c seed).1) with h | ⟨cmd, h⟩
      · rw [h]; exact ih
      · rw [h]; exact ⟨inEpisode_step ih.1 cmd, temperate_arena hcal hE ih.1 ih.2 cmd⟩
  exact ⟨i, hep.1.ball, hep.1, hep.2, hep.2.gas.1, hep.2.gas.2⟩

/-- Where steps are safe, as far as an observer of the flight can tell: date, latitude and pressure, and — only for a flight
that has just ended — the superpressure. -/
structure Spec.Corridor (s : BState) : Prop where
  date : 0 ≤ s.dateTime ∧ s.dateTime < 3999000000 * 1000000
  lat : |degrees s.latlng.lat| ≤ 50
  pressure : 595 ≤ s.pressure ∧ s.pressure ≤ 101325
  ended : s.status ≠ .ok → s.sp ≤ 4 * s.pressure

/-- C113, no exception for want of a sane gas temperature. After a reset with any seed and any actions, a step with action
0, 1 or 2 raises only if the flight had already been reported as over, or its latitude, date or pressure left the
corridor: neither the gas temperature nor the superpressure of a flying balloon can be the reason. -/
theorem C113_episode (c : EnvCfg K W Rd) (hJ : Spec.SaneDraws c.world.J) (two : Bool) (hR : c.world.R = gpr two)
    (cal : Calendar) (hcal : Spec.Gregorian cal) (hE : c.world.sun = realSun cal) (hC : Spec.GoodWind c.world.C)
    (q : RewardParams) (hh : 0 < q.halflife) (hrew : c.rewardFn = reward c.world.sun q) (v : Env K W Rd)
    (seed : Option ℤ) (as : List ℤ) (a : ℤ) (e : Err)
    (herr : ((Spec.after c as (v.reset c seed).1).step c a).2 = .error e) :
    ∃ i, (Spec.after c as (v.reset c seed).1).arena.ball = some i ∧
      ((a ≠ 0 ∧ a ≠ 1 ∧ a ≠ 2) ∨ ((Spec.after c as (v.reset c seed).1).arena.heap.balls i).status ≠ .ok ∨
        ¬ Spec.Corridor ((Spec.after c as (v.reset c seed).1).arena.heap.balls i) ∨
        ¬ Spec.Corridor ((Spec.after c (as ++ [a]) (v.reset c seed).1).arena.heap.balls i)) := by
  obtain ⟨i, b1, b2, b3, -⟩ := C113_episode_band c hJ two hR cal hcal hE hC v seed as
  refine ⟨i, b1, ?_⟩
  obtain ⟨j, d1, d2, d3, -⟩ := C113_episode_band c hJ two hR cal hcal hE hC v seed (as ++ [a])
  have hep0 := C113_episode_band c hJ two hR cal hcal hE hC v seed []
  obtain ⟨k, e1, e2, -⟩ := hep0
  have hstay : ∀ as : List ℤ, (Spec.after c as (v.reset c seed).1).arena.ball = some k := by
    intro as
    have : Spec.InEpisode c.world (Spec.after c as (v.reset c seed).1).arena k := by
      induction as using List.reverseRecOn with
      | nil => exact e2
      | append_singleton as a ih =>
        unfold Spec.after at ih ⊢
        rw [List.foldl_append]
        simp only [List.foldl_cons, List.foldl_nil]
        rcases envStep_arena c a (as.foldl (fun v a => (v.step c a).1) (v.reset c seed).1) with h | ⟨cmd, h⟩
        · rw [h]; exact ih
        · rw [h]; exact inEpisode_step ih cmd
    exact this.ball
  have hik : i = k := by
    have := hstay as
    rw [b1] at this
    injection this
  have hjk : j = k := by
    have := hstay (as ++ [a])
    rw [d1] at this
    injection this
  subst hjk
  subst hik
  have henv : ∀ s : BState, Spec.Temperate s → Spec.Corridor s → Spec.Envelope s := by
    intro s hT hs
    refine { date := hs.date, lat := hs.lat, pressure := ⟨by linarith [hs.pressure.1], hs.pressure.2⟩
             temp := ⟨by linarith [hT.gas.1], by linarith [hT.gas.2]⟩, sp := ?_ }
    by_cases hok : s.status = .ok
    · linarith [(hT.taut hok).2, hs.pressure.1]
    · exact hs.ended hok
  rcases C102_episode c two hR cal hcal hE hC q hh hrew (v.reset c seed).1 i e2 as a e herr with h | h | h | h
  · exact .inl h
  · exact .inr (.inl h)
  · exact .inr (.inr (.inl (fun hc => h (henv _ b3 hc))))
  · exact .inr (.inr (.inr (fun hc => h (henv _ d3 hc))))

/-- In the sunny world every first observation is of a temperate balloon, and so is everything that follows. -/
example (seed : ℤ) (as : List ℤ) (v : Env (List ℕ) Unit Unit) :
    ∃ i, (Spec.after sunnyCfg as (v.reset sunnyCfg (some seed)).1).arena.ball = some i ∧
      160 ≤ ((Spec.after sunnyCfg as (v.reset sunnyCfg (some seed)).1).arena.heap.balls i).intT := by
  obtain ⟨i, h1, -, -, h2, -⟩ := C113_episode_band sunnyCfg sunnyWorld_draws true rfl gregorian gregorian_ok rfl good_static v
    (some seed) as
  exact ⟨i, h1, h2⟩

end BLE
