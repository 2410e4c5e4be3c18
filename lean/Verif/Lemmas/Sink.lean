import Verif.Lemmas.Newton
import Verif.Lemmas.Atmosphere4
import Verif.Lemmas.Acs

/-!
# How fast pressure can change with height, and how far one sub-step moves the balloon
-/

namespace BLE

/-- Temperatures inside a layer, sharper. -/
theorem layerT_range {α : ℝ} (h0 : 0 ≤ α) (h1 : α ≤ 1) {i : ℕ} (hi : i < 7) {h : ℝ} (ha : hTrans i ≤ h)
    (hb : h ≤ hTrans (i + 1)) : 169.6 ≤ layerT α i h := by
  have t0 := tTrans_range h0 h1 (i := i) (by omega)
  have t1 := tTrans_range h0 h1 (i := i + 1) (by omega)
  have e : tTrans α (i + 1) = tTrans α i + lapse α i * (hTrans (i + 1) - hTrans i) := rfl
  unfold layerT
  rcases le_total 0 (lapse α i) with hs | hs
  · nlinarith [mul_nonneg hs (sub_nonneg.2 ha)]
  · nlinarith [mul_nonneg (neg_nonneg.2 hs) (sub_nonneg.2 hb)]

/-- Within a layer the logarithm of the pressure falls by less than `g / (R 169 K)` per metre. -/
theorem layer_scale {α : ℝ} (h0 : 0 ≤ α) (h1 : α ≤ 1) {i : ℕ} (hi : i < 7) {x y : ℝ} (hx : hTrans i ≤ x)
    (hy : y ≤ hTrans (i + 1)) (hxy : x < y) :
    -(y + airRs * 169 / gravity * Real.log (layerP α i y)) < -(x + airRs * 169 / gravity * Real.log (layerP α i x)) := by
  have tx := layerT_range h0 h1 hi hx (by linarith)
  have ty := layerT_range h0 h1 hi (by linarith : hTrans i ≤ y) hy
  have t0 := (tTrans_range h0 h1 (i := i) (by omega)).1
  have tx' : 0 < layerT α i x := by linarith
  have ty' : 0 < layerT α i y := by linarith
  have t0' : 0 < tTrans α i := by linarith
  rw [log_layerP h0 h1 hi tx', log_layerP h0 h1 hi ty']
  have hg := gravity_pos
  have hR := airRs_pos
  have hTy : layerT α i y = layerT α i x + lapse α i * (y - x) := by unfold layerT; ring
  have hd : 0 < y - x := by linarith
  have main : 169 * ((if lapse α i = 0 then (y - hTrans i) / tTrans α i else
        Real.log (layerT α i y / tTrans α i) / lapse α i) -
      (if lapse α i = 0 then (x - hTrans i) / tTrans α i else
        Real.log (layerT α i x / tTrans α i) / lapse α i)) < y - x := by
    split_ifs with hl
    · rw [← sub_div, show y - hTrans i - (x - hTrans i) = y - x by ring, ← mul_div_assoc, div_lt_iff₀ t0']
      nlinarith
    · rw [← sub_div, Real.log_div ty'.ne' t0'.ne', Real.log_div tx'.ne' t0'.ne',
        show Real.log (layerT α i y) - Real.log (tTrans α i) - (Real.log (layerT α i x) - Real.log (tTrans α i)) =
          Real.log (layerT α i y) - Real.log (layerT α i x) by ring]
      rcases lt_or_gt_of_ne hl with hn | hp
      · have := Real.log_le_sub_one_of_pos (div_pos tx' ty')
        rw [Real.log_div tx'.ne' ty'.ne'] at this
        have e : layerT α i x / layerT α i y - 1 = -lapse α i * (y - x) / layerT α i y := by
          rw [hTy] at ty' ⊢
          field_simp
          ring
        rw [e] at this
        have hb : (Real.log (layerT α i y) - Real.log (layerT α i x)) / lapse α i ≤ (y - x) / layerT α i y := by
          rw [div_le_iff_of_neg hn]
          have : (y - x) / layerT α i y * lapse α i = -(-lapse α i * (y - x) / layerT α i y) := by ring
          linarith
        have hb2 : 169 * ((y - x) / layerT α i y) < y - x := by
          rw [← mul_div_assoc, div_lt_iff₀ ty']; nlinarith
        linarith
      · have := Real.log_le_sub_one_of_pos (div_pos ty' tx')
        rw [Real.log_div ty'.ne' tx'.ne'] at this
        have e : layerT α i y / layerT α i x - 1 = lapse α i * (y - x) / layerT α i x := by
          rw [hTy]
          field_simp
          ring
        rw [e] at this
        have hb : (Real.log (layerT α i y) - Real.log (layerT α i x)) / lapse α i ≤ (y - x) / layerT α i x := by
          rw [div_le_iff₀ hp]
          have : (y - x) / layerT α i x * lapse α i = lapse α i * (y - x) / layerT α i x := by ring
          linarith
        have hb2 : 169 * ((y - x) / layerT α i x) < y - x := by
          rw [← mul_div_assoc, div_lt_iff₀ tx']; nlinarith
        linarith
  generalize (if lapse α i = 0 then (y - hTrans i) / tTrans α i else Real.log (layerT α i y / tTrans α i) / lapse α i) = Y at *
  generalize (if lapse α i = 0 then (x - hTrans i) / tTrans α i else Real.log (layerT α i x / tTrans α i) / lapse α i) = X at *
  have e : ∀ z, airRs * 169 / gravity * (Real.log (pTrans α i) - gravity / airRs * z) =
      airRs * 169 / gravity * Real.log (pTrans α i) - 169 * z := by
    intro z; field_simp
  rw [e, e]
  linarith

/-- Two pressures are at least `R 169 K / g · log (q / p)` apart in height. -/
theorem height_gap {α : ℝ} (h0 : 0 ≤ α) (h1 : α ≤ 1) {p q : ℝ} {v w : AtmVals} (hv : atPressure α p = .ok v)
    (hw : atPressure α q = .ok w) (hpq : p < q) :
    airRs * 169 / gravity * (Real.log q - Real.log p) < v.height - w.height := by
  obtain ⟨e, r⟩ := C43_pressure_roundtrip α h0 h1 p v hv
  obtain ⟨e', r'⟩ := C43_pressure_roundtrip α h0 h1 q w hw
  have hlt := (C44_pressure_direction α h0 h1 p q v w hv hw hpq).1
  obtain ⟨i, hi, ha, hb, hve⟩ := atHeight_ok r
  obtain ⟨j, hj, ha', hb', hwe⟩ := atHeight_ok r'
  have hp : v.pressure = layerP α i v.height := congrArg AtmVals.pressure hve
  have hq : w.pressure = layerP α j w.height := congrArg AtmVals.pressure hwe
  have := glue_strictAnti hTrans (fun i h => -(h + airRs * 169 / gravity * Real.log (layerP α i h))) 7
    (fun i hi => hTrans_lt hi) (fun i hi x y hx hy hxy => layer_scale h0 h1 hi hx hy hxy)
    (fun i hi => by rw [layerP_end, layerP_start h0 h1 hi]) hj hi ⟨ha', hb'⟩ ⟨ha, hb⟩ hlt
  rw [← hp, ← hq, e, e'] at this
  linarith

/-- Within a layer the logarithm of the pressure falls by more than `g / (R 301 K)` per metre. -/
theorem layer_scale_hi {α : ℝ} (h0 : 0 ≤ α) (h1 : α ≤ 1) {i : ℕ} (hi : i < 7) {x y : ℝ} (hx : hTrans i ≤ x)
    (hy : y ≤ hTrans (i + 1)) (hxy : x < y) :
    y + airRs * 301 / gravity * Real.log (layerP α i y) < x + airRs * 301 / gravity * Real.log (layerP α i x) := by
  obtain ⟨tx', tx⟩ := layerT_pos h0 h1 hi hx (by linarith)
  obtain ⟨ty', ty⟩ := layerT_pos h0 h1 hi (by linarith : hTrans i ≤ y) hy
  obtain ⟨t0', t0⟩ := tTrans_range h0 h1 (i := i) (by omega)
  replace tx' : 0 < layerT α i x := by linarith
  replace ty' : 0 < layerT α i y := by linarith
  replace t0' : 0 < tTrans α i := by linarith
  rw [log_layerP h0 h1 hi tx', log_layerP h0 h1 hi ty']
  have hg := gravity_pos
  have hR := airRs_pos
  have hTy : layerT α i y = layerT α i x + lapse α i * (y - x) := by unfold layerT; ring
  have hd : 0 < y - x := by linarith
  have main : y - x < 301 * ((if lapse α i = 0 then (y - hTrans i) / tTrans α i else
        Real.log (layerT α i y / tTrans α i) / lapse α i) -
      (if lapse α i = 0 then (x - hTrans i) / tTrans α i else
        Real.log (layerT α i x / tTrans α i) / lapse α i)) := by
    split_ifs with hl
    · rw [← sub_div, show y - hTrans i - (x - hTrans i) = y - x by ring, ← mul_div_assoc, lt_div_iff₀ t0']
      nlinarith
    · rw [← sub_div, Real.log_div ty'.ne' t0'.ne', Real.log_div tx'.ne' t0'.ne',
        show Real.log (layerT α i y) - Real.log (tTrans α i) - (Real.log (layerT α i x) - Real.log (tTrans α i)) =
          Real.log (layerT α i y) - Real.log (layerT α i x) by ring]
      rcases lt_or_gt_of_ne hl with hn | hp
      · have := Real.log_le_sub_one_of_pos (div_pos ty' tx')
        rw [Real.log_div ty'.ne' tx'.ne'] at this
        have e : layerT α i y / layerT α i x - 1 = lapse α i * (y - x) / layerT α i x := by
          rw [hTy]
          field_simp
          ring
        rw [e] at this
        have hb : (y - x) / layerT α i x ≤ (Real.log (layerT α i y) - Real.log (layerT α i x)) / lapse α i := by
          rw [le_div_iff_of_neg hn]
          have : (y - x) / layerT α i x * lapse α i = lapse α i * (y - x) / layerT α i x := by ring
          linarith
        have hb2 : y - x < 301 * ((y - x) / layerT α i x) := by
          rw [← mul_div_assoc, lt_div_iff₀ tx']; nlinarith
        linarith
      · have := Real.log_le_sub_one_of_pos (div_pos tx' ty')
        rw [Real.log_div tx'.ne' ty'.ne'] at this
        have e : layerT α i x / layerT α i y - 1 = -lapse α i * (y - x) / layerT α i y := by
          rw [hTy] at ty' ⊢
          field_simp
          ring
        rw [e] at this
        have hb : (y - x) / layerT α i y ≤ (Real.log (layerT α i y) - Real.log (layerT α i x)) / lapse α i := by
          rw [le_div_iff₀ hp]
          have : (y - x) / layerT α i y * lapse α i = -(-lapse α i * (y - x) / layerT α i y) := by ring
          linarith
        have hb2 : y - x < 301 * ((y - x) / layerT α i y) := by
          rw [← mul_div_assoc, lt_div_iff₀ ty']; nlinarith
        linarith
  generalize (if lapse α i = 0 then (y - hTrans i) / tTrans α i else Real.log (layerT α i y / tTrans α i) / lapse α i) = Y at *
  generalize (if lapse α i = 0 then (x - hTrans i) / tTrans α i else Real.log (layerT α i x / tTrans α i) / lapse α i) = X at *
  have e : ∀ z, airRs * 301 / gravity * (Real.log (pTrans α i) - gravity / airRs * z) =
      airRs * 301 / gravity * Real.log (pTrans α i) - 301 * z := by
    intro z; field_simp
  rw [e, e]
  linarith

/-- Two pressures are at most `R 301 K / g · log (q / p)` apart in height. -/
theorem height_gap_hi {α : ℝ} (h0 : 0 ≤ α) (h1 : α ≤ 1) {p q : ℝ} {v w : AtmVals} (hv : atPressure α p = .ok v)
    (hw : atPressure α q = .ok w) (hpq : p < q) :
    v.height - w.height < airRs * 301 / gravity * (Real.log q - Real.log p) := by
  obtain ⟨e, r⟩ := C43_pressure_roundtrip α h0 h1 p v hv
  obtain ⟨e', r'⟩ := C43_pressure_roundtrip α h0 h1 q w hw
  have hlt := (C44_pressure_direction α h0 h1 p q v w hv hw hpq).1
  obtain ⟨i, hi, ha, hb, hve⟩ := atHeight_ok r
  obtain ⟨j, hj, ha', hb', hwe⟩ := atHeight_ok r'
  have hp : v.pressure = layerP α i v.height := congrArg AtmVals.pressure hve
  have hq : w.pressure = layerP α j w.height := congrArg AtmVals.pressure hwe
  have := glue_strictAnti hTrans (fun i h => h + airRs * 301 / gravity * Real.log (layerP α i h)) 7
    (fun i hi => hTrans_lt hi) (fun i hi x y hx hy hxy => layer_scale_hi h0 h1 hi hx hy hxy)
    (fun i hi => by rw [layerP_end, layerP_start h0 h1 hi]) hj hi ⟨ha', hb'⟩ ⟨ha, hb⟩ hlt
  rw [← hp, ← hq, e, e'] at this
  linarith

/-- Pressures between 22 hPa and 365 hPa lie between 4.3 km and 34 km. -/
theorem aloft_height {α : ℝ} (h0 : 0 ≤ α) (h1 : α ≤ 1) {p : ℝ} (hp : 2200 ≤ p) (hp' : p ≤ 36500) :
    ∃ v, atPressure α p = .ok v ∧ 4300 < v.height ∧ v.height < 34000 := by
  obtain ⟨v, hv⟩ := atPressure_in h0 h1 (p := p) (by linarith) (by linarith)
  have hat := atHeight_eq (α := α) (h := -610) (i := 0) (by norm_num) (by norm_num [hTrans]) (by norm_num [hTrans])
  have hw := (C43_height_roundtrip α h0 h1 _ _ hat).2
  have e0 : layerP α 0 (-610) = 108870.8213 := layerP_start h0 h1 (i := 0) (by norm_num)
  simp only [e0] at hw
  have lo := height_gap h0 h1 hv hw (by norm_num; linarith)
  have hi := height_gap_hi h0 h1 hv hw (by norm_num; linarith)
  simp only at lo hi
  have hpp : 0 < p := by linarith
  rw [← Real.log_div (by norm_num) hpp.ne'] at lo hi
  have l1 : 1 ≤ Real.log (108870.8213 / p) := by
    rw [Real.le_log_iff_exp_le (by positivity), le_div_iff₀ hpp]
    have := Real.exp_one_lt_d9
    nlinarith
  have l2 : Real.log (108870.8213 / p) ≤ 3.92 := by
    rw [Real.log_le_iff_le_exp (by positivity), div_le_iff₀ hpp]
    have e1 : Real.exp 3.92 ^ 25 = Real.exp 1 ^ 98 := by
      rw [← Real.exp_nat_mul, ← Real.exp_nat_mul]; norm_num
    have e2 : (49.5 : ℝ) ^ 25 < Real.exp 1 ^ 98 := by
      calc (49.5 : ℝ) ^ 25 < (2.7182818283 : ℝ) ^ 98 := by norm_num
        _ ≤ Real.exp 1 ^ 98 := pow_le_pow_left₀ (by norm_num) Real.exp_one_gt_d9.le 98
    rw [← e1] at e2
    have e3 : (49.5 : ℝ) < Real.exp 3.92 := lt_of_pow_lt_pow_left₀ 25 (Real.exp_pos _).le e2
    have : (49.5 : ℝ) * 2200 ≤ Real.exp 3.92 * p := mul_le_mul e3.le hp (by norm_num) (Real.exp_pos _).le
    norm_num at this ⊢
    linarith
  refine ⟨v, hv, ?_, ?_⟩
  · have c : (4945 : ℝ) ≤ airRs * 169 / gravity := by norm_num [airRs, gasR, airM, gravity]
    have : 4945 * 1 ≤ airRs * 169 / gravity * Real.log (108870.8213 / p) := mul_le_mul c l1 (by norm_num) (by linarith)
    linarith
  · have c : airRs * 301 / gravity ≤ 8811 := by norm_num [airRs, gasR, airM, gravity]
    have : airRs * 301 / gravity * Real.log (108870.8213 / p) ≤ 8811 * 3.92 := mul_le_mul c l2 (by linarith) (by norm_num)
    norm_num at this hi ⊢
    linarith

theorem log_gap {p q : ℝ} (hp : 0 < p) (hq : 0 < q) : (q - p) / q ≤ Real.log q - Real.log p := by
  have := Real.log_le_sub_one_of_pos (div_pos hp hq)
  rw [Real.log_div hp.ne' hq.ne'] at this
  have e : (q - p) / q = 1 - p / q := by field_simp
  linarith

theorem scale_value : (4945 : ℝ) ≤ airRs * 169 / gravity := by norm_num [airRs, gasR, airM, gravity]

/-- Densities to the power two thirds, at the volumes of the flying envelope. -/
theorem drag_area {V : ℝ} (h0 : 1804 ≤ V) (h1 : V ≤ 1852) :
    148 ≤ V ^ (2.0 / 3.0 : ℝ) ∧ V ≤ 12.3 * V ^ (2.0 / 3.0 : ℝ) := by
  have hV : 0 < V := by linarith
  have hc : V ^ (2.0 / 3.0 : ℝ) = (V ^ (1 / 3 : ℝ)) ^ 2 := by
    rw [← Real.rpow_natCast, ← Real.rpow_mul hV.le]; norm_num
  have hc3 : (V ^ (1 / 3 : ℝ)) ^ 3 = V := by
    rw [← Real.rpow_natCast, ← Real.rpow_mul hV.le]; norm_num
  have hx : 0 < V ^ (1 / 3 : ℝ) := Real.rpow_pos_of_pos hV _
  rw [hc]
  generalize V ^ (1 / 3 : ℝ) = x at *
  have x0 : 12.17 ≤ x := by
    by_contra hc
    have : x ^ 3 < 12.17 ^ 3 := pow_lt_pow_left₀ (not_le.1 hc) hx.le (by norm_num)
    norm_num at this
    linarith
  have x1 : x ≤ 12.3 := by
    by_contra hc
    have : (12.3 : ℝ) ^ 3 < x ^ 3 := pow_lt_pow_left₀ (not_le.1 hc) (by norm_num) (by norm_num)
    norm_num at this
    linarith
  constructor
  · nlinarith
  · nlinarith [mul_nonneg (sub_nonneg.2 x1) (sq_nonneg x)]

/-- How far one sub-step of at most ten seconds moves a flying stock balloon: up by at most 6.3 % in pressure, down by an
amount that grows with the gas on board. -/
theorem newPressure_range {α : ℝ} (h0 : 0 ≤ α) (h1 : α ≤ 1) {stride : ℤ} (hs0 : 0 ≤ totalSeconds stride)
    (hs1 : totalSeconds stride ≤ 10) {s : BState} {p' : ℝ} (h : newPressure α s stride = .ok p') (hcod : s.cod = 0.25)
    (hV0 : 1804 ≤ s.vol) (hV1 : s.vol ≤ 1852) (hT0 : 0 < s.ambT) (hT1 : s.ambT ≤ 300) (hp : 1 < s.pressure)
    (hm0 : 0 ≤ s.systemMass) {n : ℝ} (hn : 0 ≤ n) (hm : s.systemMass ≤ airM * n) :
    s.pressure - 0.063 * (s.pressure + 1) ≤ p' ∧ p' ≤ s.pressure + Real.sqrt (0.00545 * n * s.pressure) := by
  obtain ⟨a0, a1, -, -, ha0, ha1, -, hp'⟩ := newPressure_ok h
  obtain ⟨d0, d1⟩ := drag_area hV0 hV1
  have hrho : 0 < s.rhoAir := by
    unfold BState.rhoAir
    exact div_pos (mul_pos (by linarith) (by norm_num [airM])) (mul_pos (by norm_num [gasR]) hT0)
  have hD : 0 < s.vol ^ (2.0 / 3.0 : ℝ) := by linarith
  have hsc := scale_value
  have hg : gravity ≤ 9.8067 := by norm_num [gravity]
  have hg0 := gravity_pos
  rw [hcod] at hp'
  generalize hDe : s.vol ^ (2.0 / 3.0 : ℝ) = D at *
  generalize hτ : totalSeconds stride = τ at *
  by_cases hdir : s.rhoAir * s.vol ≥ s.systemMass
  · rw [if_pos hdir] at ha1 hp'
    norm_num at ha1 hp'
    have gap := height_gap h0 h1 ha0 ha1 (by linarith)
    have lg := log_gap (p := s.pressure) (q := s.pressure + 1) (by linarith) (by linarith)
    have hgap : 4945 / (s.pressure + 1) ≤ a0.height - a1.height := by
      have : 4945 * ((s.pressure + 1 - s.pressure) / (s.pressure + 1)) ≤
          airRs * 169 / gravity * (Real.log (s.pressure + 1) - Real.log s.pressure) :=
        mul_le_mul hsc lg (by apply div_nonneg <;> linarith) (by linarith)
      have e : 4945 * ((s.pressure + 1 - s.pressure) / (s.pressure + 1)) = 4945 / (s.pressure + 1) := by
        rw [← mul_div_assoc]; ring
      linarith
    have hw : Real.sqrt |2 * (s.rhoAir * s.vol - s.systemMass) * gravity / (s.rhoAir * (1 / 4 * D))| ≤ 31.08 := by
      rw [Real.sqrt_le_left (by norm_num)]
      rw [abs_of_nonneg (by apply div_nonneg <;> [skip; positivity]; exact mul_nonneg (by linarith) hg0.le)]
      rw [div_le_iff₀ (by positivity)]
      have k1 : 2 * (s.rhoAir * s.vol - s.systemMass) * gravity ≤ 2 * (s.rhoAir * s.vol) * 9.8067 := by
        refine mul_le_mul (by linarith) hg hg0.le ?_
        have := mul_pos hrho (by linarith : 0 < s.vol)
        linarith
      have k2 : s.rhoAir * s.vol ≤ s.rhoAir * (12.3 * D) := mul_le_mul_of_nonneg_left d1 hrho.le
      have k3 : 0 < s.rhoAir * D := mul_pos hrho hD
      nlinarith
    have hw0 := Real.sqrt_nonneg |2 * (s.rhoAir * s.vol - s.systemMass) * gravity / (s.rhoAir * (1 / 4 * D))|
    generalize Real.sqrt |2 * (s.rhoAir * s.vol - s.systemMass) * gravity / (s.rhoAir * (1 / 4 * D))| = w at *
    have hq : 0 < s.pressure + 1 := by linarith
    have hpos : 0 < a0.height - a1.height := lt_of_lt_of_le (by positivity) hgap
    have hinv : (a0.height - a1.height)⁻¹ ≤ (s.pressure + 1) / 4945 := by
      rw [inv_le_comm₀ hpos (by positivity), inv_div]
      exact hgap
    have hneg : (a1.height - a0.height)⁻¹ = -(a0.height - a1.height)⁻¹ := by
      rw [← inv_neg, neg_sub]
    rw [hneg] at hp'
    have hi0 : 0 ≤ (a0.height - a1.height)⁻¹ := inv_nonneg.2 hpos.le
    have k1 : (a0.height - a1.height)⁻¹ * (w * τ) ≤ (s.pressure + 1) / 4945 * (31.08 * 10) :=
      mul_le_mul hinv (mul_le_mul hw hs1 hs0 (by norm_num)) (mul_nonneg hw0 hs0) (by positivity)
    have k2 : 0 ≤ (a0.height - a1.height)⁻¹ * (w * τ) := mul_nonneg hi0 (mul_nonneg hw0 hs0)
    have k3 : 0 ≤ Real.sqrt (0.00545 * n * s.pressure) := Real.sqrt_nonneg _
    have e : p' = s.pressure - (a0.height - a1.height)⁻¹ * (w * τ) := by rw [hp']; ring
    rw [e]
    constructor
    · norm_num at k1 ⊢
      linarith
    · linarith
  · rw [if_neg hdir] at ha1 hp'
    push Not at hdir
    have ha1' : atPressure α (s.pressure - 1) = .ok a1 := by
      rw [← ha1]
      congr 1
      norm_num
      ring
    have gap := height_gap h0 h1 ha1' ha0 (by linarith)
    have lg := log_gap (p := s.pressure - 1) (q := s.pressure) (by linarith) (by linarith)
    have hp0 : 0 < s.pressure := by linarith
    have hgap : 4945 / s.pressure ≤ a1.height - a0.height := by
      have : 4945 * ((s.pressure - (s.pressure - 1)) / s.pressure) ≤
          airRs * 169 / gravity * (Real.log s.pressure - Real.log (s.pressure - 1)) :=
        mul_le_mul hsc lg (by apply div_nonneg <;> linarith) (by linarith)
      have e : 4945 * ((s.pressure - (s.pressure - 1)) / s.pressure) = 4945 / s.pressure := by
        rw [← mul_div_assoc]; ring
      linarith
    have hw : (Real.sqrt |2 * (s.rhoAir * s.vol - s.systemMass) * gravity / (s.rhoAir * (0.25 * D))|) ^ 2 ≤
        1323 * n / s.pressure := by
      rw [Real.sq_sqrt (abs_nonneg _), abs_div, abs_of_pos (show 0 < s.rhoAir * (0.25 * D) by positivity)]
      have k0 : |2 * (s.rhoAir * s.vol - s.systemMass) * gravity| ≤ 2 * (airM * n) * 9.8067 := by
        rw [abs_of_nonpos (mul_nonpos_of_nonpos_of_nonneg (by linarith) hg0.le)]
        have hb : 0 ≤ s.rhoAir * s.vol := mul_nonneg hrho.le (by linarith)
        have : -(2 * (s.rhoAir * s.vol - s.systemMass)) * gravity ≤ 2 * (airM * n) * 9.8067 :=
          mul_le_mul (by linarith) hg hg0.le (mul_nonneg (by norm_num) (mul_nonneg (by norm_num [airM]) hn))
        linarith
      rw [div_le_div_iff₀ (by positivity) hp0]
      have hr : s.rhoAir * (gasR * s.ambT) = s.pressure * airM := by
        unfold BState.rhoAir
        exact div_mul_cancel₀ _ (mul_pos (by norm_num [gasR]) hT0).ne'
      have k1 : s.pressure * airM ≤ s.rhoAir * (8.3144621 * 300) := by
        rw [← hr]
        refine mul_le_mul_of_nonneg_left (mul_le_mul ?_ hT1 hT0.le (by norm_num)) hrho.le
        norm_num [gasR]
      have k2 : |2 * (s.rhoAir * s.vol - s.systemMass) * gravity| * s.pressure ≤ 2 * (airM * n) * 9.8067 * s.pressure :=
        mul_le_mul_of_nonneg_right k0 hp0.le
      have k3 : n * (s.pressure * airM) ≤ n * (s.rhoAir * (8.3144621 * 300)) := mul_le_mul_of_nonneg_left k1 hn
      have k4 : n * s.rhoAir * 148 ≤ n * s.rhoAir * D := mul_le_mul_of_nonneg_left d0 (mul_nonneg hn hrho.le)
      have k5 : 0 ≤ n * s.rhoAir := mul_nonneg hn hrho.le
      norm_num at k2 k3 ⊢
      nlinarith
    have hw0 := Real.sqrt_nonneg |2 * (s.rhoAir * s.vol - s.systemMass) * gravity / (s.rhoAir * (0.25 * D))|
    generalize Real.sqrt |2 * (s.rhoAir * s.vol - s.systemMass) * gravity / (s.rhoAir * (0.25 * D))| = w at *
    have hpos : 0 < a1.height - a0.height := lt_of_lt_of_le (by positivity) hgap
    have hinv : (a1.height - a0.height)⁻¹ ≤ s.pressure / 4945 := by
      rw [inv_le_comm₀ hpos (by positivity), inv_div]
      exact hgap
    have e : p' = s.pressure + (a1.height - a0.height)⁻¹ * (w * τ) := by
      rw [hp', div_eq_mul_inv]
      norm_num
      ring
    have hi0 : 0 ≤ (a1.height - a0.height)⁻¹ := inv_nonneg.2 hpos.le
    have k1 : (a1.height - a0.height)⁻¹ * (w * τ) ≤ s.pressure / 4945 * (w * 10) :=
      mul_le_mul hinv (mul_le_mul_of_nonneg_left hs1 hw0) (mul_nonneg hw0 hs0) (by positivity)
    have k2 : 0 ≤ (a1.height - a0.height)⁻¹ * (w * τ) := mul_nonneg hi0 (mul_nonneg hw0 hs0)
    rw [e]
    constructor
    · norm_num
      linarith
    · have k3 : s.pressure / 4945 * (w * 10) ≤ Real.sqrt (0.00545 * n * s.pressure) := by
        apply Real.le_sqrt_of_sq_le
        have e2 : (s.pressure / 4945 * (w * 10)) ^ 2 = (10 / 4945) ^ 2 * (s.pressure ^ 2 * w ^ 2) := by ring
        have k4 : s.pressure ^ 2 * w ^ 2 ≤ s.pressure ^ 2 * (1323 * n / s.pressure) :=
          mul_le_mul_of_nonneg_left hw (sq_nonneg _)
        have e3 : s.pressure ^ 2 * (1323 * n / s.pressure) = 1323 * (n * s.pressure) := by field_simp
        rw [e3] at k4
        rw [e2]
        have k5 : 0 ≤ n * s.pressure := mul_nonneg hn hp0.le
        norm_num at k4 ⊢
        nlinarith
      linarith

end BLE
