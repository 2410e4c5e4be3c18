import Verif.Lemmas.Newton5
import Verif.Props.PressureRange
import Verif.Props.EpisodeStart
import Verif.Props.Features

/-!
# C100: the reachable pressure range of the stock balloon always exists
-/

namespace BLE

/-- What is assumed of the sun here: elevations are elevations and the flux is at most 1421 W/m², the largest
value of the real ephemeris (`C85_flux`). -/
def Spec.SolarSun (sun : Sun) : Prop :=
  ∀ l t, -90 ≤ (sun l t).el ∧ (sun l t).el ≤ 90 ∧ 0 ≤ (sun l t).flux ∧ (sun l t).flux ≤ 1421

/-- The vehicle flown by the environment: the default values of `BalloonState`. -/
structure Spec.StockVehicle (s : BState) : Prop where
  volBase : s.volBase = 1804
  dvdp : s.dvdp = 0.0199
  envMass : s.envMass = 68.5
  payload : s.payload = 92.5
  molsLift : s.molsLift = 6830
  maxSp : s.maxSp = 2380

/-! ## The table look-up -/

theorem filter_lt_range (n k : ℕ) (hk : k ≤ n) : ((List.range n).filter fun i => decide (i < k)).length = k := by
  induction n generalizing k with
  | zero => simp; omega
  | succ n ih =>
    rw [List.range_succ, List.filter_append, List.length_append]
    rcases Nat.lt_or_ge n k with h | h
    · have : k = n + 1 := by omega
      subst this
      have e : (List.range n).filter (fun i => decide (i < n + 1)) = (List.range n).filter (fun i => decide (i < n)) := by
        apply List.filter_congr
        intro i hi
        have := List.mem_range.1 hi
        simp only [this, decide_true, decide_eq_true_eq]; omega
      rw [e, ih n le_rfl]
      simp
    · rw [ih k h]
      simp only [List.filter_cons, List.filter_nil]
      rw [if_neg (by simpa using h)]
      simp

/-- Interpolating inside an increasing table lands inside the segment that brackets the argument. -/
theorem interp_segment (xs ys : ℕ → ℝ) (n : ℕ) (x : ℝ) (hx : ∀ i j, i < j → j < n → xs i < xs j)
    (hy : ∀ i j, i < j → j < n → ys i < ys j) (hn : 2 ≤ n) (h0 : xs 0 < x) (h1 : x ≤ xs (n - 1)) :
    ∃ k, k + 1 < n ∧ xs k < x ∧ x ≤ xs (k + 1) ∧ ys k ≤ interpExtrapolate xs ys n x ∧
      interpExtrapolate xs ys n x ≤ ys (k + 1) := by
  classical
  have hex : ∃ i, x ≤ xs i := ⟨n - 1, h1⟩
  obtain ⟨k, hk, hmin⟩ : ∃ k, x ≤ xs k ∧ ∀ i < k, xs i < x :=
    ⟨Nat.find hex, Nat.find_spec hex, fun i hi => not_le.1 (Nat.find_min hex hi)⟩
  have hkn : k ≤ n - 1 := by
    by_contra hc
    exact absurd h1 (not_le.2 (hmin _ (not_le.1 hc)))
  have hk0 : k ≠ 0 := by
    rintro rfl; exact absurd hk (not_le.2 h0)
  obtain ⟨j, rfl⟩ := Nat.exists_eq_succ_of_ne_zero hk0
  have hf : ((List.range n).filter fun i => decide (xs i < x)).length = j + 1 := by
    rw [← filter_lt_range n (j + 1) (by omega)]
    congr 1
    apply List.filter_congr
    intro i hi
    have hi := List.mem_range.1 hi
    simp only [decide_eq_decide]
    constructor
    · intro h
      by_contra hc
      rcases (not_lt.1 hc).lt_or_eq with h' | h'
      · linarith [hx (j + 1) i h' hi]
      · subst h'; exact absurd hk (not_le.2 h)
    · intro h; exact hmin i h
  refine ⟨j, by omega, hmin j (by omega), hk, ?_⟩
  unfold interpExtrapolate
  simp only [hf]
  have e : Nat.min (Nat.max (j + 1) 1) (n - 1) = j + 1 := by
    have : Nat.max (j + 1) 1 = j + 1 := Nat.max_eq_left (by omega)
    rw [this]; exact Nat.min_eq_left hkn
  rw [e, Nat.add_sub_cancel]
  have hX := hx j (j + 1) (by omega) (by omega)
  have hY := hy j (j + 1) (by omega) (by omega)
  have hj := hmin j (by omega)
  have hs : 0 < (ys (j + 1) - ys j) / (xs (j + 1) - xs j) := div_pos (by linarith) (by linarith)
  constructor
  · have := mul_nonneg hs.le (show 0 ≤ x - xs j by linarith)
    linarith
  · have h2 := mul_le_mul_of_nonneg_left (show x - xs j ≤ xs (j + 1) - xs j by linarith) hs.le
    rw [div_mul_cancel₀ _ (by linarith : xs (j + 1) - xs j ≠ 0)] at h2
    linarith

/-! ## Superpressure at equilibrium -/

/-- Gas law of the floating stock balloon: its gas would fill `p v` at the volume `v` with
`p * 1804 * t / T + 2725 t`. -/
theorem float_gas {p T t : ℝ} (hT : 0 < T) (hp : 30 * T ≤ p) (ht : 0 ≤ t) :
    let n : ℝ := 6830 + stableMolsAir p 1804 68.5 92.5 6830 T
    p * 1804 * (t / T) + 2724 * t ≤ n * 8.3144621 * t ∧ n * 8.3144621 * t ≤ p * 1804 * (t / T) + 2726 * t := by
  have hM : stableMolsAir p 1804 68.5 92.5 6830 T = (p * airM * 1804 / (gasR * T) - 68.5 - 92.5 - heM * 6830) / airM := by
    unfold stableMolsAir
    rw [max_eq_left]
    apply div_nonneg _ (by norm_num [airM])
    have : 30 * (airM * 1804) / gasR ≤ p * airM * 1804 / (gasR * T) := by
      rw [div_le_div_iff₀ (by norm_num [gasR]) (by norm_num [gasR]; exact hT)]
      have h := mul_le_mul_of_nonneg_right hp (show 0 ≤ airM * 1804 * gasR by norm_num [airM, gasR])
      linarith
    norm_num [airM, gasR, heM] at this ⊢
    linarith
  intro n
  have hn : n * 8.3144621 * t = p * 1804 * (t / T) + 8.3144621 * (6830 - (161 + heM * 6830) / airM) * t := by
    simp only [n, hM]
    rw [show gasR = 8.3144621 from rfl]
    have : airM ≠ 0 := by norm_num [airM]
    field_simp
    ring
  have c : 2724 ≤ 8.3144621 * (6830 - (161 + heM * 6830) / airM) ∧ 8.3144621 * (6830 - (161 + heM * 6830) / airM) ≤ 2726 := by
    norm_num [airM, heM]
  rw [hn]
  generalize 8.3144621 * (6830 - (161 + heM * 6830) / airM) = C at c
  constructor
  · have := mul_le_mul_of_nonneg_right c.1 ht; linarith
  · have := mul_le_mul_of_nonneg_right c.2 ht; linarith

/-- Superpressure from the gas law. -/
theorem sp_bounds {n t p v sp : ℝ} (hp : 0 < p) (hb : Spec.EnvelopeBalance n t p 1804 0.0199 v sp)
    (h0 : (p + 250) * 1808.975 ≤ n * 8.3144621 * t) (h1 : n * 8.3144621 * t ≤ (p + 2130) * 1846.387) :
    250 ≤ sp ∧ sp ≤ 2130 := by
  obtain ⟨a, b, c⟩ := hb.2 (by norm_num at *; nlinarith)
  rw [b] at c
  generalize n * 8.3144621 * t = N at *
  constructor
  · by_contra hc
    have hc := not_le.1 hc
    have : (p + sp) * (1804 + 0.0199 * sp) < (p + 250) * (1804 + 0.0199 * 250) :=
      mul_lt_mul (by linarith) (by linarith) (by positivity) (by linarith)
    norm_num at *; linarith
  · by_contra hc
    have hc := not_le.1 hc
    have : (p + 2130) * (1804 + 0.0199 * 2130) < (p + sp) * (1804 + 0.0199 * sp) :=
      mul_lt_mul (by linarith) (by linarith) (by positivity) (by linarith)
    norm_num at *; linarith

/-- The stock balloon floating at pressure `p` in air of temperature `T`: the temperature found is between the
ambient temperature (plus `δ`) and `x` degrees above (plus half a degree), as soon as the heat lost at `x` degrees above ambient
exceeds anything the sun and the Earth can supply. -/
theorem float_temperature {sun : Sun} (hsun : Spec.SolarSun sun) {α p : ℝ} {v : AtmVals} {s : BState}
    (hs : Spec.StockVehicle s) (hv : atPressure α p = .ok v) (hT0 : 176.7 ≤ v.temperature)
    (hT1 : v.temperature ≤ 211.4) {δ : ℝ} (hδ : 0.005 ≤ δ) (hδ' : δ ≤ 0.4) (hδt : v.temperature + δ ≤ 211.405)
    (hp' : p ≤ 13000) (hu : 225 ≤ s.upwelling) (hu' : s.upwelling ≤ 315) {P x ν : ℝ} (hP : 0 ≤ P) (hp : P ≤ p) (hx : 1 ≤ x)
    (hx' : x ≤ 43) (hR : 213 ≤ v.temperature + x) (hν : 0 ≤ ν) (hν4 : ν ^ 4 ≤ 3.28e11 * P ^ 2 * x)
    (hbal : 27.2 ≤ 5.98e-6 * (530 + 0.457 * ν) * x + radiated (v.temperature + x)) :
    ∃ t, v.temperature + δ ≤ t ∧ t ≤ v.temperature + x + 0.5 ∧
      floatSp sun α s p = .ok (superpressureAndVolume 6830 (stableMolsAir p 1804 68.5 92.5 6830 v.temperature) t p 1804
        0.0199).2 := by
  obtain ⟨e0, e1, f0, f1⟩ := hsun s.latlng s.dateTime
  obtain ⟨K, G, k, c, hK, hG, hk, hc0, hc1, hN, hN6, hlow, hform⟩ := dTempDt_stock hT0 hT1 (by linarith : 0 ≤ p) hp' e0 e1 f0 f1
    hu hu'
  obtain ⟨t, ht, l1, l2⟩ := newton_close (R := v.temperature + x) hk hG hT0 hT1 hc0 hc1 hδ hδ' hδt hN hN6 hR (by linarith) (by linarith) (by
      unfold balance
      rw [add_sub_cancel_left, abs_of_nonneg (by linarith : 0 ≤ x)]
      have := mul_le_mul_of_nonneg_right (hlow P x ν hP hp (by linarith) hν hν4) (by linarith : 0 ≤ x)
      linarith) hK (fun t => dTempDt 1804 68.5 t v.temperature p (sun s.latlng s.dateTime).el
        (sun s.latlng s.dateTime).flux s.upwelling) (fun t h h' => hform t (by linarith) (by linarith))
  refine ⟨t, l1, l2, ?_⟩
  unfold floatSp stableParams
  rw [hs.volBase, hs.dvdp, hs.envMass, hs.payload, hs.molsLift]
  simp only [bind, Except.bind, pure, Except.pure, hv, ht, Except.map]

/-- Below half a blend the floor is at less than 12,600 Pa. -/
theorem floor_pressure_half {α : ℝ} (h0 : 0 ≤ α) (h1 : α ≤ 0.5) : layerP α 0 15240 < 12600 := by
  have h1' : α ≤ 1 := by norm_num at *; linarith
  have s1 := layerP_midpoint h0 h1' (i := 0) (by norm_num) (by norm_num) (h := -610) (h' := 15240)
    (by norm_num [hTrans]) (by norm_num) (by norm_num [hTrans]) 249.3
    (by norm_num [layerT, tTrans, hTrans, lapse, lapseLow, lapseHigh] at *; linarith)
  have e0 : layerP α 0 (-610) = 108870.8213 := layerP_start h0 h1' (i := 0) (by norm_num)
  rw [e0] at s1
  have hT := layerT_pos h0 h1' (i := 0) (h := 15240) (by norm_num) (by norm_num [hTrans]) (by norm_num [hTrans])
  have hP := layerP_pos h0 h1' (i := 0) (by norm_num) (pTrans_pos h0 h1' (by norm_num)) (h := 15240) (by linarith [hT.1])
  rw [← Real.log_lt_log_iff hP (by norm_num)]
  have hg : (2.17 : ℝ) ≤ gravity / airRs * ((15240 - -610) / 249.3) := by norm_num [gravity, airRs, gasR, airM]
  have hfin : Real.log 108870.8213 < Real.log 12600 + 2.17 := by
    have : Real.log 8.65 < 2.17 := by
      rw [Real.log_lt_iff_lt_exp (by norm_num)]
      have e1 : Real.exp 2.17 ^ 100 = Real.exp 1 ^ 217 := by
        rw [← Real.exp_nat_mul, ← Real.exp_nat_mul]; norm_num
      have e2 : (8.65 : ℝ) ^ 100 < Real.exp 1 ^ 217 := by
        calc (8.65 : ℝ) ^ 100 < (2.7182818283 : ℝ) ^ 217 := by norm_num
          _ ≤ _ := pow_le_pow_left₀ (by norm_num) Real.exp_one_gt_d9.le _
      rw [← e1] at e2
      exact lt_of_pow_lt_pow_left₀ 100 (Real.exp_pos _).le e2
    have h2 : Real.log 12600 + Real.log 8.65 = Real.log (12600 * 8.65) :=
      (Real.log_mul (by norm_num) (by norm_num)).symm
    have h3 : Real.log 108870.8213 < Real.log (12600 * 8.65) := Real.log_lt_log (by norm_num) (by norm_num)
    linarith
  linarith

/-- Air at the altitude floor. -/
theorem floor_air {α : ℝ} (h0 : 0 ≤ α) (h1 : α ≤ 1) {top : ℝ} (ht : Spec.FloorPressure α top) :
    ∃ v, atPressure α top = .ok v ∧ v.pressure = top ∧ v.temperature = 189.05 + 19.02 * α ∧ 11400 ≤ top ∧ top ≤ 13000 ∧
      (α ≤ 0.5 → top ≤ 12600) := by
  obtain ⟨v, hv, rfl⟩ := ht
  have hm : minAltitude = 15240 := by norm_num [minAltitude]
  have hat := atHeight_eq (α := α) (h := 15240) (i := 0) (by norm_num) (by norm_num [hTrans]) (by norm_num [hTrans])
  have e := (C43_height_roundtrip α h0 h1 _ _ hv).2
  rw [hm, hat] at hv
  injection hv with hv
  refine ⟨v, e, rfl, ?_, ?_, ?_, ?_⟩
  · rw [← hv]; norm_num [layerT, tTrans, hTrans, lapse, lapseLow, lapseHigh]; ring
  · rw [← hv]; exact (floor_pressure h0 h1).le
  · rw [← hv]; exact (floor_pressure_le h0 h1).le
  · intro h; rw [← hv]; exact (floor_pressure_half h0 h).le

/-- Floating at the altitude floor is safe. -/
theorem floor_safe {sun : Sun} (hsun : Spec.SolarSun sun) {α : ℝ} (h0 : 0 ≤ α) (h1 : α ≤ 1) {s : BState}
    (hs : Spec.StockVehicle s) (hu : 225 ≤ s.upwelling) (hu' : s.upwelling ≤ 315) {top : ℝ}
    (ht : Spec.FloorPressure α top) : Spec.Safe (floatSp sun α s) 250 (s.maxSp - 250) top := by
  obtain ⟨v, hv, -, hT, p0, p1, p2⟩ := floor_air h0 h1 ht
  have t0 : 189.05 ≤ v.temperature := by rw [hT]; norm_num at *; linarith
  have t1 : v.temperature ≤ 208.07 := by rw [hT]; norm_num at *; linarith
  have hrad : 12.06 ≤ radiated (v.temperature + 29.5) := by
    have a : 12.06 ≤ radiated 218.5 := by rw [radiated_poly]; norm_num [stefanBoltzmann]
    have b := radiated_slope (x := 218.5) (y := v.temperature + 29.5) (by norm_num) (by norm_num at *; linarith)
      (by norm_num at *; linarith)
    have c : 0 ≤ v.temperature + 29.5 - 218.5 := by norm_num at *; linarith
    linarith
  obtain ⟨t, l1, l2, he⟩ := float_temperature hsun hs hv (by norm_num at *; linarith) (by norm_num at *; linarith) le_rfl
    (by norm_num) (by norm_num at *; linarith) p1 hu hu'
    (P := 11400) (x := 29.5) (ν := 188300) (by norm_num) p0 (by norm_num) (by norm_num) (by norm_num at *; linarith) (by norm_num)
    (by norm_num) (by norm_num at *; linarith)
  have hT' : 0 < v.temperature := by norm_num at *; linarith
  have htp : 0 < t := by norm_num at *; linarith
  have hair : 0 ≤ stableMolsAir top 1804 68.5 92.5 6830 v.temperature := le_max_right _ _
  have hb := C14_solves 6830 (stableMolsAir top 1804 68.5 92.5 6830 v.temperature) t top 1804 0.0199 (by linarith) htp
    (by linarith) (by norm_num) (by norm_num)
  obtain ⟨g1, g2⟩ := float_gas (p := top) (T := v.temperature) (t := t) hT' (by norm_num at *; linarith) htp.le
  refine ⟨_, he, ?_⟩
  rw [hs.maxSp]
  rw [show (2380 : ℝ) - 250 = 2130 by norm_num]
  refine sp_bounds (p := top) (by linarith) hb (le_trans ?_ g1) (g2.trans ?_)
  · have h1 : 1 ≤ t / v.temperature := by rw [le_div_iff₀ hT']; norm_num at *; linarith
    have h2 := mul_le_mul_of_nonneg_left h1 (show 0 ≤ top * 1804 by linarith)
    rcases le_or_gt α 0.5 with hα | hα
    · have h3 := p2 hα
      clear p2 hT hrad hb he hair g1 g2
      norm_num at h2 h3 l1 t0 ⊢
      linarith
    · have h3 : 198.5 ≤ v.temperature := by rw [hT]; norm_num at *; linarith
      clear p2 hT hrad hb he hair g1 g2
      norm_num at h2 h3 l1 ⊢
      linarith
  · have h1 : t / v.temperature ≤ 1 + 30 / 189 := by rw [div_le_iff₀ hT']; norm_num at *; linarith
    have h2 := mul_le_mul_of_nonneg_left h1 (show 0 ≤ top * 1804 by linarith)
    norm_num at *; linarith

/-- The smallest float pressure of the stock balloon is between the first searched level and the floor. -/
theorem minFloat_range {α : ℝ} (h0 : 0 ≤ α) (h1 : α ≤ 1) {s : BState} (hs : Spec.StockVehicle s) {top : ℝ}
    (ht : Spec.FloorPressure α top) :
    1000 ≤ Spec.minFloatPressure α top s ∧ Spec.minFloatPressure α top s ≤ top := by
  obtain ⟨v, hv, hvp, hT, p0, p1, -⟩ := floor_air h0 h1 ht
  have htop : 1000 < top := by linarith
  have hl : ∀ i : ℕ, (1000 + i * (top - 1000) / 19 : ℝ) = searchLevels top i := by
    intro i; unfold searchLevels linspace; norm_num
  have hlast : searchLevels top 19 = top := linspace_last _ _ 20 (by norm_num)
  have hE : emptyPoverT s = (161 + 6830 * heM) * gasR / (airM * 1804) := by
    unfold emptyPoverT
    rw [hs.payload, hs.envMass, hs.molsLift, hs.volBase]; norm_num
  have hmono : ∀ i j, i < j → j < 20 → Spec.levelPoverT α top i < Spec.levelPoverT α top j := by
    intro i j hij hj
    have r1 := levels_range top htop i (by omega)
    have r2 := levels_range top htop j hj
    obtain ⟨a, ha⟩ := atPressure_in h0 h1 (p := searchLevels top i) (by linarith) (by linarith)
    obtain ⟨b, hb⟩ := atPressure_in h0 h1 (p := searchLevels top j) (by linarith) (by linarith)
    unfold Spec.levelPoverT
    rw [hl, hl, ha, hb]
    have hd := (C44_pressure_direction α h0 h1 _ _ _ _ ha hb
      (linspace_strict 1000 top 20 (by norm_num) htop i j hij)).2
    obtain ⟨_, -, -, -, ea⟩ := atPressure_ok ha
    obtain ⟨_, -, -, -, eb⟩ := atPressure_ok hb
    have da : a.density = a.pressure / (airRs * a.temperature) := by rw [ea]
    have db : b.density = b.pressure / (airRs * b.temperature) := by rw [eb]
    rw [da, db, mul_comm airRs, mul_comm airRs, ← div_div, ← div_div] at hd
    exact (div_lt_div_iff_of_pos_right airRs_pos).1 hd
  obtain ⟨k, hk, -, -, a1, a2⟩ := interp_segment (Spec.levelPoverT α top) (searchLevels top) 20 (emptyPoverT s) hmono
    (fun i j hij _ => linspace_strict 1000 top 20 (by norm_num) htop i j hij) (by norm_num)
    (by
      have r0 : searchLevels top 0 = 1000 := linspace_first _ _ _
      obtain ⟨a, ha⟩ := atPressure_in h0 h1 (p := searchLevels top 0) (by rw [r0]; norm_num) (by rw [r0]; norm_num)
      obtain ⟨t0, t1⟩ := atPressure_temp_range h0 h1 ha
      have hp := (C43_pressure_roundtrip α h0 h1 _ _ ha).1
      unfold Spec.levelPoverT
      rw [hl, ha]
      simp only
      rw [hp, r0, div_lt_iff₀ (by norm_num at *; linarith), hE]
      have : 29 ≤ (161 + 6830 * heM) * gasR / (airM * 1804) := by norm_num [heM, gasR, airM]
      have := mul_le_mul this t0 (by norm_num) (by linarith)
      norm_num at *; linarith)
    (by
      unfold Spec.levelPoverT
      rw [hl, hlast, hv]
      simp only
      rw [hvp, le_div_iff₀ (by rw [hT]; norm_num at *; linarith), hE]
      have : (161 + 6830 * heM) * gasR / (airM * 1804) ≤ 30 := by norm_num [heM, gasR, airM]
      have := mul_le_mul this (show v.temperature ≤ 208.07 by rw [hT]; norm_num at *; linarith)
        (by rw [hT]; norm_num at *; linarith) (by norm_num)
      norm_num at *; linarith)
  have r1 := levels_range top htop k (by omega)
  have r2 := levels_range top htop (k + 1) hk
  unfold Spec.minFloatPressure
  exact ⟨by linarith, by linarith⟩

/-- C100. For the stock balloon, in every atmosphere, under every sun no brighter than the real one and for every
upwelling flux of the simulator, the reachable pressure range can be computed: it reaches down to the altitude floor
and its lower end lies between 1000 Pa and the floor. -/
theorem C100_range_exists (sun : Sun) (hsun : Spec.SolarSun sun) (α : ℝ) (h0 : 0 ≤ α) (h1 : α ≤ 1) (s : BState)
    (hs : Spec.StockVehicle s) (hu : 225 ≤ s.upwelling) (hu' : s.upwelling ≤ 315) (top : ℝ) (ht : Spec.FloorPressure α top) :
    ∃ r, pressureRange sun α s = .ok r ∧ r.hi = top ∧ 1000 ≤ r.lo ∧ Spec.minFloatPressure α top s ≤ r.lo ∧ r.lo ≤ r.hi := by
  obtain ⟨m1, m2⟩ := minFloat_range h0 h1 hs ht
  have hsafe := floor_safe hsun h0 h1 hs hu hu' ht
  obtain ⟨v, hv, hvp, hT, p0, p1, -⟩ := floor_air h0 h1 ht
  have htop : Spec.SearchedLevel top top := ⟨19, by norm_num, by push_cast; ring⟩
  have hdef : ∀ q, (Spec.SearchedLevel top q ∨ q = Spec.minFloatPressure α top s) → ∃ x, floatSp sun α s q = .ok x := by
    intro q hq
    have hqr : 1000 ≤ q ∧ q ≤ top := by
      rcases hq with ⟨i, hi, rfl⟩ | rfl
      · have := levels_range top (by linarith) i hi
        have e : (1000 + i * (top - 1000) / 19 : ℝ) = searchLevels top i := by unfold searchLevels linspace; norm_num
        rw [e]; exact this
      · exact ⟨m1, m2⟩
    obtain ⟨e0, e1, f0, f1⟩ := hsun s.latlng s.dateTime
    obtain ⟨a, ha⟩ := atPressure_in h0 h1 (p := q) (by linarith) (by linarith)
    obtain ⟨t0, t1⟩ := atPressure_temp_range h0 h1 ha
    obtain ⟨t, ht, -⟩ := newton_total (vol := s.volBase) (mass := s.envMass) (by rw [hs.volBase]; norm_num)
      (by rw [hs.envMass]; norm_num) t0 t1 (by linarith : (0 : ℝ) ≤ q) (by linarith) e0 e1 f0 (by linarith) hu (by linarith) 10
    exact ⟨_, by unfold floatSp stableParams; simp only [bind, Except.bind, pure, Except.pure, ha, ht, Except.map]; rfl⟩
  obtain ⟨r, hr⟩ := C48_total sun α h0 h1 s (by rw [hs.maxSp]; norm_num) top ht hdef top htop m2 hsafe
  obtain ⟨c1, c2, c3⟩ := C48_consistent sun α h0 h1 s r top ht hr
  obtain ⟨d1, d2, d3⟩ := c3 top htop m2 hsafe
  exact ⟨r, hr, le_antisymm c2 d2, by linarith, c1, d3⟩

/-- The sun of the simulator's own ephemeris is such a sun, for every calendar with dates of years 1 to 9999. -/
theorem C100_real_sun (cal : Calendar) (hcal : ∀ t, (1 ≤ (cal t).1 ∧ (cal t).1 ≤ 9999) ∧
    (1 ≤ (cal t).2.1 ∧ (cal t).2.1 ≤ 12) ∧ 1 ≤ (cal t).2.2 ∧ (cal t).2.2 ≤ 31) : Spec.SolarSun (realSun cal) := by
  intro l t
  obtain ⟨⟨a, b⟩, ⟨c, d⟩, e, f⟩ := hcal t
  obtain ⟨p1, p2⟩ := (C85_position (julianCentury (cal t).1 (cal t).2.1 (cal t).2.2 t) (fractionOfDay t) l.lat
    (degrees l.lng)).2.2.1
  obtain ⟨q1, q2⟩ := C85_flux (cal t).1 (cal t).2.1 (cal t).2.2 t a b c d e f l.lat (degrees l.lng)
  exact ⟨p1, p2, le_trans (by norm_num) q1, le_trans q2 (by norm_num)⟩

/-- A balloon at night in the coldest atmosphere: the hypotheses of `C100_range_exists` hold and the range reaches from
at least 1000 Pa to the floor, above 11,400 Pa. -/
example : ∃ r, pressureRange nightSun 0 demo = .ok r ∧ 1000 ≤ r.lo ∧ r.lo ≤ r.hi ∧ 11400 < r.hi := by
  obtain ⟨v, hv, hlt, -⟩ := floor_exists 0 le_rfl zero_le_one
  obtain ⟨r, hr, hhi, hlo, -, hle⟩ := C100_range_exists nightSun
    (fun _ _ => ⟨le_rfl, by norm_num [nightSun], le_rfl, by norm_num [nightSun]⟩) 0 le_rfl zero_le_one demo
    ⟨rfl, rfl, rfl, rfl, rfl, rfl⟩ (by norm_num [demo]) (by norm_num [demo]) v.pressure ⟨v, hv, rfl⟩
  exact ⟨r, hr, hlo, hle, by rw [hhi]; exact hlt⟩

/-- C48. The least floating pressure is where it should be: in air of temperature `T` at the pressure `T` times the
quotient used by the search, the flight system with an empty ballonet weighs exactly as much as the air displaced at base
volume; at a lower pressure it is heavier than the air displaced. -/
theorem C48_empty_ballonet_floats (s : BState) (T : ℝ) (hT : 0 < T) (hv : 0 < s.volBase) :
    let float (p : ℝ) : BState := { s with molsAir := 0, ambT := T, pressure := p }
    Spec.mass (float (emptyPoverT s * T)) = Spec.displaced (float (emptyPoverT s * T)) s.volBase ∧
    ∀ p, p < emptyPoverT s * T → Spec.displaced (float p) s.volBase < Spec.mass (float p) := by
  intro float
  have e : Spec.mass (float (emptyPoverT s * T)) = Spec.displaced (float (emptyPoverT s * T)) s.volBase := by
    simp only [Spec.mass, Spec.displaced, float, emptyPoverT, gasR, airM, heM]
    field_simp
    ring
  refine ⟨e, fun p hp => ?_⟩
  have m : Spec.mass (float p) = Spec.mass (float (emptyPoverT s * T)) := rfl
  rw [m, e]
  simp only [Spec.displaced, float]
  have hk : 0 < 0.02896492248116 / (8.3144621 * T) * s.volBase := by positivity
  have := mul_lt_mul_of_pos_right hp hk
  calc p * 0.02896492248116 / (8.3144621 * T) * s.volBase = p * (0.02896492248116 / (8.3144621 * T) * s.volBase) := by ring
    _ < emptyPoverT s * T * (0.02896492248116 / (8.3144621 * T) * s.volBase) := this
    _ = emptyPoverT s * T * 0.02896492248116 / (8.3144621 * T) * s.volBase := by ring

end BLE
