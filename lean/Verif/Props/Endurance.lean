import Verif.Props.Reach
import Verif.Lemmas.Panels
import Verif.Lemmas.DayLength

/-!
# C141: near its station a balloon that does not pump never runs out of power
-/

namespace BLE

/-! ## The battery through a day -/

/-- Charge [Wh] that suffices at the hour angle `h` [rad, from noon, `1.28 - 2π ≤ h < 1.28`]. -/
noncomputable def reserve (h : ℝ) : ℝ :=
  if h < -1.279 then 250 - 703 * (h + 1.279)
  else if h < -0.545 then 250 + 1200 * (h + 1.279)
  else if h < 0.546 then 1130.8 + 818 * (h + 0.545)
  else min (2023.238 + 1200 * (h - 0.546)) 2870

theorem reserve_range {h : ℝ} (h0 : 1.28 - 2 * Real.pi ≤ h) : 250 ≤ reserve h ∧ reserve h ≤ 2870 := by
  have hpi4 := Real.pi_lt_d4
  unfold reserve
  split_ifs with h1 h2 h3
  · norm_num at *; constructor <;> linarith
  · norm_num at *; constructor <;> linarith
  · norm_num at *; constructor <;> linarith
  · refine ⟨le_min (by norm_num at *; linarith) (by norm_num), min_le_right _ _⟩

/-- Ten seconds: what is needed after is not more than what is needed before plus what the panels give. -/
theorem reserve_step {h δ g : ℝ} (h0 : 1.28 - 2 * Real.pi ≤ h) (h1 : h < 1.28) (d0 : 0.00072679 ≤ δ) (d1 : δ ≤ 0.00072763)
    (g0 : -0.51028 ≤ g) (g1 : |h| ≤ 1.28 → 0.5961 ≤ g) (g2 : |h| ≤ 1.28 → 0.545 ≤ |h| → 0.87388 ≤ g) :
    (h + δ < 1.28 → min (reserve (h + δ)) 2870 ≤ reserve h + g) ∧
    (1.28 ≤ h + δ → reserve (h + δ - 2 * Real.pi) ≤ reserve h + g) := by
  have hpi4 := Real.pi_lt_d4
  have hpi3 := Real.pi_gt_d4
  constructor
  · intro hlt
    refine (min_le_left _ _).trans ?_
    rcases lt_or_ge h (-1.28) with c | c
    · unfold reserve
      rw [if_pos (by norm_num at *; linarith), if_pos (by norm_num at *; linarith)]
      norm_num at *; linarith
    have hab : |h| ≤ 1.28 := abs_le.2 ⟨c, h1.le⟩
    have g1 := g1 hab
    have g2 := g2 hab
    rcases lt_or_ge h (-0.545) with c1 | c1
    · have g2 := g2 (by rw [abs_of_neg (by norm_num at *; linarith)]; norm_num at *; linarith)
      unfold reserve
      split_ifs <;> norm_num at * <;> linarith
    rcases lt_or_ge h 0.545 with c2 | c2
    · unfold reserve
      rw [if_neg (by norm_num at *; linarith), if_neg (by norm_num at *; linarith), if_pos (by norm_num at *; linarith),
        if_neg (by norm_num at *; linarith), if_neg (by norm_num at *; linarith), if_pos (by norm_num at *; linarith)]
      norm_num at *; linarith
    · have g2 := g2 (by rw [abs_of_pos (by norm_num at *; linarith)]; exact c2)
      unfold reserve
      rw [if_neg (show ¬ h + δ < -1.279 by norm_num at *; linarith), if_neg (show ¬ h + δ < -0.545 by norm_num at *; linarith),
        if_neg (show ¬ h < -1.279 by norm_num at *; linarith), if_neg (show ¬ h < -0.545 by norm_num at *; linarith)]
      split_ifs with e1 e2 e2
      · norm_num at *; linarith
      · exfalso; norm_num at *; linarith
      · refine (min_le_left _ _).trans ?_
        norm_num at *; linarith
      · rcases min_cases (2023.238 + 1200 * (h - 0.546)) 2870 with ⟨e, -⟩ | ⟨e, -⟩ <;> rw [e]
        · refine (min_le_left _ _).trans ?_
          norm_num at *; linarith
        · refine (min_le_right _ _).trans ?_
          norm_num at *; linarith
  · intro hge
    have g1 := g1 (abs_le.2 ⟨by norm_num at *; linarith, h1.le⟩)
    unfold reserve
    rw [if_pos (by norm_num at *; linarith), if_neg (by norm_num at *; linarith), if_neg (by norm_num at *; linarith),
      if_neg (by norm_num at *; linarith), min_eq_right (by norm_num at *; linarith)]
    norm_num at *; linarith

/-- The balloon near a tropical station, with at least the charge its reserve asks for, less a debt of `B`. -/
structure Charged (s : BState) (B : ℝ) : Prop where
  loads : s.dayLoad = 120.4 ∧ s.nightLoad = 183.7
  cap : s.cap = 3058.56
  station : |degrees s.center.lat| ≤ 10
  era : 0 ≤ s.dateTime
  level : ∃ n : ℤ, ∃ h : ℝ, h = sunPhi s.center.lng ((s.dateTime / 1000000 : ℤ) : ℝ) - Real.pi - n * (2 * Real.pi) ∧
    1.28 - 2 * Real.pi ≤ h ∧ h < 1.28 ∧ reserve h - B ≤ s.charge
  power : s.status = .outOfPower → s.charge ≤ 0

theorem charged_substep {cal : Calendar} (hcal : Spec.Gregorian cal) {α u v : ℝ} {a : Command} {s s' : BState} {B : ℝ}
    (hok : s.status = .ok) (hB : 0 ≤ B) (hs : Charged s B) (hp0 : 0 ≤ s.pressure) (hp : s.pressure ≤ 36500) (hnear : s.x ^ 2 + s.y ^ 2 ≤ 350000 ^ 2)
    (hera : s.dateTime + 10 * 1000000 < 4000000000 * 1000000)
    (h : substep (realSun cal) α u v a defaultStride s = .ok s') :
    Charged s' (B + if a = .down then 20 / 18 else 0) := by
  have hpi := Real.pi_pos
  have hpi4 := Real.pi_lt_d4
  have hpi3 := Real.pi_gt_d4
  obtain ⟨e1, e2, e3, e4, e5⟩ := C82_energy_balance _ _ _ _ _ _ _ _ h
  obtain ⟨p', amb, dT, solar, hnp, hamb, hdT, hsol, hs'⟩ := substep_ok h
  have k1 : s'.solarCharging = solar := by rw [hs']
  have kd : s'.dateTime = s.dateTime + 10 * 1000000 := by rw [hs']; rfl
  have kc : s'.center = s.center := by rw [hs']
  obtain ⟨n, hh, hhe, H0, H1, hlev⟩ := hs.level
  obtain ⟨-, hel1, -⟩ := C100_real_sun cal hcal.1 s.latlng s.dateTime
  have hel := realSun_el cal hcal s.latlng s.dateTime hs.era (by omega)
  set σ : ℝ := ((s.dateTime / 1000000 : ℤ) : ℝ) with hσd
  have hσz : (0 : ℤ) ≤ s.dateTime / 1000000 ∧ s.dateTime / 1000000 + 10 ≤ 4000000000 := by
    have := hs.era
    omega
  have hσ' : ((s'.dateTime / 1000000 : ℤ) : ℝ) = σ + 10 := by
    rw [kd, Int.add_mul_ediv_right _ _ (by norm_num)]; push_cast; rfl
  have hσ0 : 0 ≤ σ := by rw [hσd]; exact_mod_cast hσz.1
  have hσ1 : σ + 10 ≤ 4000000000 := by rw [hσd]; exact_mod_cast hσz.2
  have hera' : InEra σ := ⟨hσ0, by linarith⟩
  -- the hour angle moves on
  have hrate := sunPhi_rate s.center.lng (σ := σ + 10) (τ := σ) (by linarith) hσ1 hσ0 (by linarith)
  rw [add_sub_cancel_left, abs_of_pos (by norm_num : (0:ℝ) < 10)] at hrate
  obtain ⟨r0, r1⟩ := abs_le.1 hrate
  set δ := sunPhi s.center.lng (σ + 10) - sunPhi s.center.lng σ with hδ
  have d0 : 0.00072679 ≤ δ := by norm_num at *; linarith
  have d1 : δ ≤ 0.00072763 := by norm_num at *; linarith
  -- the sun
  have hcos : Real.cos (sunPhi s.center.lng σ) = -Real.cos hh := by
    rw [hhe, Real.cos_sub_int_mul_two_pi, Real.cos_sub_pi, neg_neg]
  have hsun : ∀ z, |hh| ≤ 1.28 → z = (realSun cal s.latlng s.dateTime).el → 7.5 ≤ z ∧ (0.545 ≤ |hh| → z ≤ 68) := by
    intro z hz e
    rw [e, hel]
    exact near_day hs.station hera' hnear hcos hz
  generalize (realSun cal s.latlng s.dateTime).el = el at *
  -- solar power is never negative
  have hsolar0 : 0 ≤ solar := by
    split_ifs at hsol with hm
    · exact (C51_solar_power _ _ _ hsol).1
    · rw [hsol]
  -- energy of these ten seconds without the compressor
  set g : ℝ := (solar - if el > -4.242 then s.dayLoad else s.nightLoad) / 360 with hg
  have g0 : -0.51028 ≤ g := by
    rw [hg, hs.loads.1, hs.loads.2]
    split_ifs <;> norm_num at * <;> linarith
  have gday : ∀ w, |hh| ≤ 1.28 → (∃ z, solarPower el s.pressure = .ok z ∧ w ≤ z) → (w - 120.4) / 360 ≤ g := by
    intro w hz ⟨z, hz1, hz2⟩
    have h75 := (hsun el hz rfl).1
    have hm : el > minSolarEl := by unfold minSolarEl; norm_num at *; linarith
    have hm' : el > -4.242 := hm
    rw [if_pos hm, hz1] at hsol
    injection hsol with hsol
    rw [hg, if_pos hm', hs.loads.1]
    norm_num at *
    linarith
  have g1 : |hh| ≤ 1.28 → 0.5961 ≤ g := by
    intro hz
    have := gday 335 hz (panels_noon _ _ (hsun el hz rfl).1 hel1 hp0 hp)
    norm_num at *; linarith
  have g2 : |hh| ≤ 1.28 → 0.545 ≤ |hh| → 0.87388 ≤ g := by
    intro hz hz'
    have := gday 435 hz (panels_shoulder _ _ (hsun el hz rfl).1 ((hsun el hz rfl).2 hz') hp0 hp)
    norm_num at *; linarith
  obtain ⟨q1, q2⟩ := reserve_step H0 H1 d0 d1 g0 g1 g2
  -- the compressor
  set b : ℝ := if a = .down then 20 / 18 else 0 with hb
  have hb0 : 0 ≤ b := by rw [hb]; split_ifs <;> norm_num
  have hacs : s'.acsPower / 360 ≤ b := by
    rw [hb]
    split_ifs with ha
    · have := (e5 ha).2
      norm_num at *; linarith
    · rw [e4 ha]; norm_num
  have hch : ∀ z, z ≤ 2870 → z - B ≤ s.charge + g → z - (B + b) ≤ s'.charge := by
    intro z hz hle
    rw [e1, k1, e2, hs.cap]
    have hstr : ((defaultStride : ℤ) : ℝ) / 1000000 / 3600 = 1 / 360 := by norm_num [defaultStride, usPerSec]
    rw [hstr]
    refine le_min (le_max_of_le_left ?_) (by norm_num at *; linarith)
    have : (solar - ((if el > -4.242 then s.dayLoad else s.nightLoad) + s'.acsPower)) * (1 / 360) = g - s'.acsPower / 360 := by
      rw [hg]; ring
    rw [this]
    linarith
  refine { loads := by rw [hs']; exact hs.loads, cap := by rw [hs']; exact hs.cap, station := by rw [kc]; exact hs.station,
           era := by rw [kd]; have := hs.era; omega, level := ?_, power := ?_ }
  · rw [kc, hσ']
    rcases lt_or_ge (hh + δ) 1.28 with c | c
    · refine ⟨n, hh + δ, by rw [hhe, hδ]; ring, by norm_num at *; linarith, c, ?_⟩
      have hr := reserve_range (h := hh + δ) (by norm_num at *; linarith)
      have := q1 c
      rw [min_eq_left hr.2] at this
      exact hch _ hr.2 (by linarith)
    · refine ⟨n + 1, hh + δ - 2 * Real.pi, by rw [hhe, hδ]; push_cast; ring, by norm_num at *; linarith,
        by norm_num at *; linarith, ?_⟩
      have hr := reserve_range (h := hh + δ - 2 * Real.pi) (by norm_num at *; linarith)
      exact hch _ hr.2 (by linarith [q2 c])
  · intro hst
    by_contra hc
    rw [hs'] at hst hc
    simp only [newStatus] at hst hc
    rw [if_neg hc] at hst
    split_ifs at hst
    rw [hok] at hst
    cases hst

theorem Charged.mono {s : BState} {B B' : ℝ} (h : Charged s B) (hB : B ≤ B') : Charged s B' := by
  obtain ⟨n, hh, e, h0, h1, hl⟩ := h.level
  exact { h with level := ⟨n, hh, e, h0, h1, by linarith⟩ }

/-! ## A step of three minutes -/

theorem loop_drift {sun : Sun} {α u v : ℝ} {a : Command} (m : ℕ) (s : BState) :
    ∃ k : ℕ, (substepLoop (substep sun α u v a defaultStride) m s).1.x = s.x + u * (10 * k) ∧
      (substepLoop (substep sun α u v a defaultStride) m s).1.y = s.y + v * (10 * k) := by
  induction m generalizing s with
  | zero => exact ⟨0, by simp [substepLoop]⟩
  | succ m ih =>
    unfold substepLoop
    rcases h : substep sun α u v a defaultStride s with e | s'
    · exact ⟨0, by simp⟩
    · obtain ⟨_, _, _, _, _, _, _, _, hs'⟩ := substep_ok h
      have ht : totalSeconds defaultStride = 10 := by norm_num [totalSeconds, defaultStride, usPerSec]
      have ex : s'.x = s.x + u * 10 := by rw [hs', ← ht]
      have ey : s'.y = s.y + v * 10 := by rw [hs', ← ht]
      simp only
      split_ifs
      · exact ⟨1, by rw [ex]; norm_num, by rw [ey]; norm_num⟩
      · obtain ⟨k, h1, h2⟩ := ih s'
        exact ⟨k + 1, by rw [h1, ex]; push_cast; ring, by rw [h2, ey]; push_cast; ring⟩

/-- On the way between two places in a disc one is in the disc. -/
theorem segment_near {x y u v D : ℝ} {k : ℕ} (h0 : x ^ 2 + y ^ 2 ≤ D)
    (h1 : (x + u * 10 + u * (10 * k)) ^ 2 + (y + v * 10 + v * (10 * k)) ^ 2 ≤ D) :
    (x + u * 10) ^ 2 + (y + v * 10) ^ 2 ≤ D := by
  have hk : (0 : ℝ) ≤ k := Nat.cast_nonneg k
  have key : ((k : ℝ) + 1) * ((x + u * 10) ^ 2 + (y + v * 10) ^ 2) + 100 * k * (k + 1) * (u ^ 2 + v ^ 2) =
      k * (x ^ 2 + y ^ 2) + ((x + u * 10 + u * (10 * k)) ^ 2 + (y + v * 10 + v * (10 * k)) ^ 2) := by ring
  have hp : 0 ≤ 100 * (k : ℝ) * (k + 1) * (u ^ 2 + v ^ 2) := by positivity
  have : (k : ℝ) * (x ^ 2 + y ^ 2) ≤ k * D := mul_le_mul_of_nonneg_left h0 hk
  have : ((k : ℝ) + 1) * ((x + u * 10) ^ 2 + (y + v * 10) ^ 2) ≤ (k + 1) * D := by linarith
  exact le_of_mul_le_mul_left this (by positivity)

theorem charged_loop {cal : Calendar} (hcal : Spec.Gregorian cal) {α : ℝ} (h0 : 0 ≤ α) (h1 : α ≤ 1) {u v : ℝ} {a : Command}
    (m : ℕ) (s : BState) {B : ℝ} (hB : 0 ≤ B) (hok : s.status = .ok) (hA : AloftInv s) (hs : Charged s B)
    (hroom : a = .down → 6830 + s.molsAir + 16 * m ≤ 23000) (hnear : s.x ^ 2 + s.y ^ 2 ≤ 350000 ^ 2)
    (hnear' : (substepLoop (substep (realSun cal) α u v a defaultStride) m s).1.x ^ 2 +
      (substepLoop (substep (realSun cal) α u v a defaultStride) m s).1.y ^ 2 ≤ 350000 ^ 2)
    (hera : s.dateTime + m * (10 * 1000000) < 4000000000 * 1000000) :
    Charged (substepLoop (substep (realSun cal) α u v a defaultStride) m s).1 (B + m * if a = .down then 20 / 18 else 0) := by
  have hsun : ∀ l t, 0 ≤ (realSun cal l t).flux ∧ (realSun cal l t).flux ≤ 1500 := fun l t => by
    obtain ⟨-, -, f0, f1⟩ := C100_real_sun cal hcal.1 l t
    exact ⟨f0, by linarith⟩
  have hb0 : (0 : ℝ) ≤ if a = .down then 20 / 18 else 0 := by split_ifs <;> norm_num
  induction m generalizing s B with
  | zero => exact hs.mono (by simp)
  | succ m ih =>
    have hm : (0 : ℝ) ≤ m := Nat.cast_nonneg m
    unfold substepLoop at hnear' ⊢
    rcases h : substep (realSun cal) α u v a defaultStride s with e | s'
    · exact hs.mono (by have : 0 ≤ ((m + 1 : ℕ) : ℝ) * (if a = .down then 20 / 18 else 0) := by positivity
                        linarith)
    · rw [h] at hnear'
      simp only at hnear' ⊢
      push_cast at hera hroom ⊢
      have k1 := charged_substep hcal hok hB hs (by linarith [hA.range.1]) hA.range.2 hnear (by omega) h
      obtain ⟨k2, k3⟩ := aloft_substep hsun h0 h1 (by decide) (by decide) hok hA (fun ha => by linarith [hroom ha]) h
      obtain ⟨_, _, _, _, _, _, _, _, hs'⟩ := substep_ok h
      have ht : totalSeconds defaultStride = 10 := by norm_num [totalSeconds, defaultStride, usPerSec]
      have ex : s'.x = s.x + u * 10 := by rw [hs', ← ht]
      have ey : s'.y = s.y + v * 10 := by rw [hs', ← ht]
      have ed : s'.dateTime = s.dateTime + 10 * 1000000 := by rw [hs']; rfl
      by_cases hc : s'.status = .ok
      · rw [if_neg (not_not.2 hc)] at hnear' ⊢
        obtain ⟨k, q1, q2⟩ := loop_drift (sun := realSun cal) (α := α) (u := u) (v := v) (a := a) m s'
        refine (ih s' (by linarith) hc k2 k1 (fun ha => ?_) ?_ hnear' (by rw [ed]; omega)).mono (by linarith)
        · rw [if_pos ha] at k3
          linarith [hroom ha]
        · rw [q1, q2, ex, ey] at hnear'
          rw [ex, ey]
          exact segment_near hnear hnear'
      · rw [if_pos hc]
        refine k1.mono ?_
        have := mul_nonneg hm hb0
        linarith

/-- No safety layer makes a descent out of another command. -/
theorem chain_not_down {α : ℝ} {s s1 : BState} {a : Command} (h : safetyChain α s a = (s1, .ok .down)) : a = .down := by
  have hpause : ∀ b : Command, pausedAction b = .down → b = .down := by
    intro b; cases b <;> simp [pausedAction]
  unfold safetyChain at h
  simp only at h
  split at h
  · simp at h
  · rename_i a1 ha1
    split at h
    · simp at h
    · rename_i w hw
      simp only [Prod.mk.injEq, Except.ok.injEq] at h
      have e1 : ∀ (st : AltState) (b : Command) z, (altGetAction st b z).2 = .down → b = .down := by
        intro st b z hb
        unfold altGetAction at hb
        simp only at hb
        split_ifs at hb <;> simp_all
      have e2 : ∀ (L : EnvLayer) (b : Command) z, (L.getAction b z).2 = .down → b = .down := by
        intro L b z hb
        unfold EnvLayer.getAction at hb
        simp only at hb
        split_ifs at hb <;> simp_all
      have h2 := e2 _ _ _ (e1 _ _ _ h.2)
      subst h2
      split_ifs at ha1
      · unfold PowerLayer.getAction at ha1
        simp only at ha1
        split_ifs at ha1
        · split at ha1
          · cases ha1
          · split_ifs at ha1 <;> injection ha1 with ha1
            exact hpause _ ha1
        · injection ha1 with ha1
          exact hpause _ ha1
        · split at ha1
          · cases ha1
          · split_ifs at ha1 <;> injection ha1 with ha1
            exact hpause _ ha1
      · injection ha1

theorem charged_step {cal : Calendar} (hcal : Spec.Gregorian cal) {α : ℝ} (h0 : 0 ≤ α) (h1 : α ≤ 1) {u v : ℝ} (a : Command)
    (s : BState) {B : ℝ} (hB : 0 ≤ B) (hA : AloftInv s) (hs : Charged s B) (hnear : s.x ^ 2 + s.y ^ 2 ≤ 350000 ^ 2)
    (hnear' : (simulateStep (realSun cal) α u v a agentStep defaultStride s).1.x ^ 2 +
      (simulateStep (realSun cal) α u v a agentStep defaultStride s).1.y ^ 2 ≤ 350000 ^ 2)
    (hera : s.dateTime + 180 * 1000000 < 4000000000 * 1000000) :
    Charged (simulateStep (realSun cal) α u v a agentStep defaultStride s).1 (B + if a = .down then 20 else 0) := by
  have hb0 : (0 : ℝ) ≤ if a = .down then 20 else 0 := by split_ifs <;> norm_num
  have hcmd : ∀ s a pw ev al, Charged s B → Charged { s with lastCommand := a, power := pw, env := ev, alt := al } B :=
    fun s a pw ev al h => { loads := h.loads, cap := h.cap, station := h.station, era := h.era, level := h.level, power := h.power }
  have hcmdA : ∀ s a pw ev al, AloftInv s → AloftInv { s with lastCommand := a, power := pw, env := ev, alt := al } :=
    fun s a pw ev al h =>
      { volBase := h.volBase, dvdp := h.dvdp, envMass := h.envMass, payload := h.payload, molsLift := h.molsLift
        maxSp := h.maxSp, ir := h.ir, air := h.air, vol := h.vol, ambient := h.ambient, gas := h.gas, taut := h.taut
        cod := h.cod, range := h.range, ended := h.ended, live := h.live }
  obtain ⟨pw, ev, al, hch⟩ := safetyChain_state α { s with lastCommand := a } a
  have hT : Charged (safetyChain α { s with lastCommand := a } a).1 B := by rw [hch]; exact hcmd s a pw ev al hs
  have hT' : AloftInv (safetyChain α { s with lastCommand := a } a).1 := by rw [hch]; exact hcmdA s a pw ev al hA
  rcases simulateStep_cases (realSun cal) α u v a agentStep defaultStride s with ⟨e, _, h⟩ | ⟨hok, _, _, s1, eff, hc, h⟩
  · refine Charged.mono (B := B) ?_ (by linarith)
    rcases h with ⟨_, _, h⟩ | ⟨_, h⟩
    · rw [h]; exact hcmd s a s.power s.env s.alt hs
    · rw [h]; exact hT
  · rw [h] at hnear' ⊢
    have hn : (Int.fdiv (Int.tdiv agentStep usPerSec) (Int.tdiv defaultStride usPerSec)).toNat = 18 := by decide
    rw [hn] at hnear' ⊢
    rw [hc] at hT hT' hch
    simp only at hch hT hT'
    have hok1 : s1.status = .ok := by rw [hch]; exact hok
    have ex : s1.x = s.x := by rw [hch]
    have ey : s1.y = s.y := by rw [hch]
    have ed : s1.dateTime = s.dateTime := by rw [hch]
    refine (charged_loop hcal h0 h1 18 s1 hB hok1 hT' hT (fun ha => ?_) (by rw [ex, ey]; exact hnear) hnear'
      (by rw [ed]; norm_num; omega)).mono ?_
    · subst ha
      exact down_room h0 h1 hT' hok1 hc (by rw [hch])
    · by_cases he : eff = .down
      · subst he
        rw [if_pos rfl, if_pos (chain_not_down hc)]
        norm_num
      · rw [if_neg he]
        linarith

/-! ## Whole episodes -/

variable {K W Rd : Type}

/-- Number of descents among the actions. -/
def Spec.descents (as : List ℤ) : ℕ := as.countP (· = 0)

/-- Every episode starts with enough. -/
theorem start_charged {α : ℝ} {b : BState} (h : Spec.ValidStart α b) (hd : 0 ≤ b.dateTime) : Charged b 0 := by
  have hpi := Real.pi_pos
  obtain ⟨-, -, -, -, -, -, hcap, -, hday, hnight, -⟩ := h.vehicle
  refine { loads := ⟨hday, hnight⟩, cap := hcap, station := h.station.1, era := hd, level := ?_,
           power := fun hst => by rw [h.flying.1] at hst; cases hst }
  set z := sunPhi b.center.lng ((b.dateTime / 1000000 : ℤ) : ℝ) - Real.pi
  obtain ⟨n, ⟨n0, n1⟩, -⟩ := existsUnique_sub_zsmul_mem_Ico (show 0 < 2 * Real.pi by positivity) z (1.28 - 2 * Real.pi)
  rw [zsmul_eq_mul] at n0 n1
  have hr := (reserve_range n0).2
  refine ⟨n, _, rfl, n0, by linarith, ?_⟩
  have := h.battery.1
  rw [hcap] at this
  norm_num at *
  linarith

theorem envStep_command (c : EnvCfg K W Rd) (a : ℤ) (v : Env K W Rd) :
    (v.step c a).1.arena = v.arena ∨ ∃ cmd, Command.ofInt a = .ok cmd ∧
      (v.step c a).1.arena = (v.arena.step c.world cmd).1 := by
  unfold Env.step
  rcases Command.ofInt a with e | cmd
  · left; rfl
  · right
    refine ⟨cmd, rfl, ?_⟩
    simp only
    split
    · rfl
    · split
      · rfl
      · split <;> rfl

/-- The invariants of C141 in every episode that stays within 350 km of its station. -/
theorem charged_episode (c : EnvCfg K W Rd) (hJ : Spec.SaneDraws c.world.J) (two : Bool) (hR : c.world.R = gpr two)
    (cal : Calendar) (hcal : Spec.Gregorian cal) (hE : c.world.sun = realSun cal) (hC : Spec.GoodWind c.world.C)
    (v : Env K W Rd) (seed : Option ℤ) :
    ∃ v0 o i, v.reset c seed = (v0, .ok o) ∧ v0.arena.ball = some i ∧
      (∀ as, Spec.InEpisode c.world (Spec.after c as v0).arena i ∧ AloftInv ((Spec.after c as v0).arena.heap.balls i)) ∧
      (∀ as : List ℤ, 0 ≤ ((Spec.after c as v0).arena.heap.balls i).dateTime ∧
        (as.length < 14300000 → ((Spec.after c as v0).arena.heap.balls i).dateTime + 180 * 1000000 < 4000000000 * 1000000)) ∧
      ∀ as : List ℤ, as.length ≤ 14300000 →
      (∀ bs s, bs <+: as → s = (Spec.after c bs v0).arena.heap.balls i → Real.sqrt (s.x ^ 2 + s.y ^ 2) ≤ 350000) →
      Charged ((Spec.after c as v0).arena.heap.balls i) (20 * (Spec.descents as : ℝ)) := by
  obtain ⟨v0, o, i, hr, hal⟩ := aloft_episode c hJ two hR cal hcal hE hC v seed
  obtain ⟨v0', o', i', hr', hst⟩ : ∃ v0' o' i', v.reset c seed = (v0', .ok o') ∧ v0'.arena.ball = some i' ∧
      ∃ α, Spec.ValidStart α (v0'.arena.heap.balls i') := by
    have key0 : ∀ w0 : Env K W Rd, ∃ v0 o i, w0.reset c none = (v0, .ok o) ∧ v0.arena.ball = some i ∧
        ∃ α, Spec.ValidStart α (v0.arena.heap.balls i) := by
      intro w0
      unfold Env.reset
      simp only
      obtain ⟨A', obs, i, h1, h2, -, h4, -⟩ := C102_reset c.world hJ two hR cal hcal hE hC
        (c.world.J.split w0.rng 2 1) w0.arena
      rw [h1]
      simp only [h2.ball]
      exact ⟨_, _, i, rfl, h2.ball, h4⟩
    cases seed with
    | none => exact key0 v
    | some sd => exact key0 (v.seed c sd)
  rw [hr] at hr'
  simp only [Prod.mk.injEq, Except.ok.injEq] at hr'
  obtain ⟨rfl, rfl⟩ := hr'
  obtain ⟨hi', α, hvs⟩ := hst
  have hb0 := (hal []).1.ball
  simp only [Spec.after, List.foldl_nil] at hb0
  rw [hi'] at hb0
  injection hb0 with hb0
  subst hb0
  -- dates
  have hdate : ∀ bs : List ℤ, 0 ≤ ((Spec.after c bs v0).arena.heap.balls i').dateTime ∧
      (bs.length < 14300000 → ((Spec.after c bs v0).arena.heap.balls i').dateTime + 180 * 1000000 < 4000000000 * 1000000) := by
    intro bs
    obtain ⟨j, t, hj, ht, ⟨k, hk, hte⟩, ⟨d0, d1⟩, -⟩ := C97_from_reset c hJ
      (by rw [hE]; exact C94_real_sun cal hcal.1) v v0 seed o hr bs
    have hij : j = i' := by
      have := (hal bs).1.ball
      rw [hj] at this
      injection this
    subst hij
    subst ht
    constructor
    · omega
    · intro hl; omega
  refine ⟨v0, o, i', hr, hi', hal, hdate, fun as hlen hnear => ?_⟩
  have hsq : ∀ bs, bs <+: as → ((Spec.after c bs v0).arena.heap.balls i').x ^ 2 +
      ((Spec.after c bs v0).arena.heap.balls i').y ^ 2 ≤ 350000 ^ 2 := by
    intro bs hbs
    have := hnear bs _ hbs rfl
    rwa [Real.sqrt_le_left (by norm_num)] at this
  have key : ∀ bs, bs <+: as → Charged ((Spec.after c bs v0).arena.heap.balls i') (20 * (Spec.descents bs : ℝ)) := by
    intro bs
    induction bs using List.reverseRecOn with
    | nil =>
      intro _
      simp only [Spec.descents, List.countP_nil, Nat.cast_zero, mul_zero]
      exact start_charged hvs (hdate []).1
    | append_singleton bs a ih =>
      intro hpre
      have hpre' : bs <+: as := (List.prefix_append bs [a]).trans hpre
      have hl : bs.length < 14300000 := by
        have := hpre.length_le
        rw [List.length_append, List.length_singleton] at this
        omega
      have ih := ih hpre'
      obtain ⟨h1, h2⟩ := hal bs
      have n0 := hsq bs hpre'
      have n1 := hsq _ hpre
      have hd := (hdate bs).2 hl
      have hcount : (Spec.descents (bs ++ [a]) : ℝ) = Spec.descents bs + if a = 0 then 1 else 0 := by
        unfold Spec.descents
        rw [List.countP_append, List.countP_singleton]
        by_cases ha : a = 0 <;> simp [ha]
      rw [hcount]
      unfold Spec.after at ih h1 h2 n0 n1 hd ⊢
      rw [List.foldl_append] at n1 ⊢
      simp only [List.foldl_cons, List.foldl_nil] at n1 ⊢
      rcases envStep_command c a (bs.foldl (fun v a => (v.step c a).1) v0) with h | ⟨cmd, hcmd, h⟩
      · rw [h]
        refine ih.mono ?_
        have : (0 : ℝ) ≤ if a = 0 then 1 else 0 := by split_ifs <;> norm_num
        linarith
      · rw [h] at n1 ⊢
        have hdn : cmd = .down → a = 0 := by
          rintro rfl
          unfold Command.ofInt at hcmd
          split_ifs at hcmd with g
          · exact g
          · cases hcmd
          · cases hcmd
        rcases arenaStep_ball c.world cmd _ i' h1.ball with ⟨e, -, hb⟩ | ⟨w, -, hb, -⟩
        · rw [hb]
          refine ih.mono ?_
          have : (0 : ℝ) ≤ if a = 0 then 1 else 0 := by split_ifs <;> norm_num
          linarith
        · rw [hb, Function.update_self, hE] at n1
          rw [hb, Function.update_self, hE]
          refine (charged_step hcal h1.blend.1 h1.blend.2 cmd _ (by positivity) h2 ih n0 n1 hd).mono ?_
          by_cases hcd : cmd = .down
          · rw [if_pos hcd, if_pos (hdn hcd)]; linarith
          · rw [if_neg hcd]
            have : (0 : ℝ) ≤ if a = 0 then 1 else 0 := by split_ifs <;> norm_num
            linarith
  exact key as (List.prefix_refl as)

/-- C141. Reset with any seed, then issue any actions, whatever the winds, at whatever altitude: if the balloon was never
more than 350 km away from its station after a step, the battery has never held less than 250 Wh less 20 Wh for every
descent commanded. With at most twelve descents, it has not run out of power. (For 14.3 million steps, 81 years.) -/
theorem C141_endurance (c : EnvCfg K W Rd) (hJ : Spec.SaneDraws c.world.J) (two : Bool) (hR : c.world.R = gpr two)
    (cal : Calendar) (hcal : Spec.Gregorian cal) (hE : c.world.sun = realSun cal) (hC : Spec.GoodWind c.world.C)
    (v : Env K W Rd) (seed : Option ℤ) :
    ∃ v0 o i, v.reset c seed = (v0, .ok o) ∧ v0.arena.ball = some i ∧ ∀ as : List ℤ, as.length ≤ 14300000 →
      (∀ bs s, bs <+: as → s = (Spec.after c bs v0).arena.heap.balls i → Real.sqrt (s.x ^ 2 + s.y ^ 2) ≤ 350000) →
      ∃ s, (Spec.after c as v0).arena.ball = some i ∧ s = (Spec.after c as v0).arena.heap.balls i ∧
        250 - 20 * (Spec.descents as : ℝ) ≤ s.charge ∧ (Spec.descents as ≤ 12 → s.status ≠ .outOfPower) := by
  obtain ⟨v0, o, i', hr, hi', hal, -, key⟩ := charged_episode c hJ two hR cal hcal hE hC v seed
  refine ⟨v0, o, i', hr, hi', fun as hlen hnear => ?_⟩
  have hch := key as hlen hnear
  obtain ⟨n, hh, -, H0, H1, hlev⟩ := hch.level
  have hres := (reserve_range H0).1
  refine ⟨_, (hal as).1.ball, rfl, by linarith, fun hfew hout => ?_⟩
  have := hch.power hout
  have : (Spec.descents as : ℝ) ≤ 12 := by exact_mod_cast hfew
  linarith

/-- C141, with a limit on the wind: if no wind is faster than `B` and the actions take less time than the wind needs for
150 km, the balloon has not run out of power after them. -/
theorem C141_light_wind (c : EnvCfg K W Rd) (hJ : Spec.SaneDraws c.world.J) (two : Bool) (hR : c.world.R = gpr two)
    (cal : Calendar) (hcal : Spec.Gregorian cal) (hE : c.world.sun = realSun cal) (hC : Spec.GoodWind c.world.C)
    (B : ℝ) (hB0 : 0 ≤ B) (hB : Spec.WindLimit c.world B) (v : Env K W Rd) (seed : Option ℤ) :
    ∃ v0 o i, v.reset c seed = (v0, .ok o) ∧ ∀ as : List ℤ, as.length ≤ 14300000 → 180 * B * as.length ≤ 150000 →
      ∃ s, (Spec.after c as v0).arena.ball = some i ∧ s = (Spec.after c as v0).arena.heap.balls i ∧
        250 - 20 * (Spec.descents as : ℝ) ≤ s.charge ∧ (Spec.descents as ≤ 12 → s.status ≠ .outOfPower) := by
  obtain ⟨v0, o, i, hr, hi, h⟩ := C141_endurance c hJ two hR cal hcal hE hC v seed
  obtain ⟨v0', o', i', hr', hre⟩ := reach_episode c hJ two hR cal hcal hE hC hB v seed
  rw [hr] at hr'
  simp only [Prod.mk.injEq, Except.ok.injEq] at hr'
  obtain ⟨rfl, rfl⟩ := hr'
  refine ⟨v0, o, i, hr, fun as hl hw => h as hl ?_⟩
  have hii : i' = i := by
    have h1 := (hre [] _ rfl).1.ball
    simp only [Spec.after, List.foldl_nil] at h1
    rw [hi] at h1
    injection h1 with h1
    exact h1.symm
  subst hii
  rintro bs s hbs rfl
  obtain ⟨h1, -, h3⟩ := hre bs _ rfl
  refine h3.trans ?_
  obtain ⟨j, A, t, hA, hj, ht, -, t0, t1⟩ := C136_reach c hJ two hR cal hcal hE hC B hB v seed bs
  rw [hr] at hA
  simp only at hA
  subst hA
  rw [h1.ball] at hj
  injection hj with hj
  subst hj
  rw [← ht]
  have hlb : (bs.length : ℝ) ≤ as.length := by exact_mod_cast hbs.length_le
  have t1' : (t.timeElapsed : ℝ) / 1000000 ≤ 180 * as.length := by
    rw [div_le_iff₀ (by norm_num)]
    have : ((t.timeElapsed : ℤ) : ℝ) ≤ ((180 * 1000000 * bs.length : ℤ) : ℝ) := by exact_mod_cast t1
    push_cast at this
    linarith
  have := mul_le_mul_of_nonneg_left t1' hB0
  linarith

/-- In the sunny world: more than two years of staying, if the wind has not carried the balloon away. -/
example (seed : ℤ) (v : Env (List ℕ) Unit Unit) (n : ℕ) (hn : n ≤ 480000) :
    ∃ v0 o i, v.reset sunnyCfg (some seed) = (v0, .ok o) ∧
      ((∀ bs s, bs <+: List.replicate n 1 → s = (Spec.after sunnyCfg bs v0).arena.heap.balls i →
        Real.sqrt (s.x ^ 2 + s.y ^ 2) ≤ 350000) →
      250 ≤ ((Spec.after sunnyCfg (List.replicate n 1) v0).arena.heap.balls i).charge) := by
  obtain ⟨v0, o, i, hr, -, h⟩ := C141_endurance sunnyCfg sunnyWorld_draws true rfl gregorian gregorian_ok rfl good_static v (some seed)
  refine ⟨v0, o, i, hr, fun hw => ?_⟩
  obtain ⟨s, -, rfl, hc, -⟩ := h _ (by rw [List.length_replicate]; omega) hw
  have : Spec.descents (List.replicate n 1) = 0 := by
    unfold Spec.descents
    rw [List.countP_replicate]
    rfl
  rw [this] at hc
  simpa using hc

/-- In the sunny world: thirty-nine steps of any kind, twelve of them descents. -/
example (seed : ℤ) (v : Env (List ℕ) Unit Unit) (as : List ℤ) (hn : as.length ≤ 39) (hd : Spec.descents as ≤ 12) :
    ∃ v0 o i, v.reset sunnyCfg (some seed) = (v0, .ok o) ∧
      ((Spec.after sunnyCfg as v0).arena.heap.balls i).status ≠ .outOfPower := by
  obtain ⟨v0, o, i, hr, h⟩ := C141_light_wind sunnyCfg sunnyWorld_draws true rfl gregorian gregorian_ok rfl good_static 21.1
    (by norm_num) (C136_static_limit sunnyCfg.world rfl (fun _ _ _ _ _ => by norm_num [sunnyCfg, sunnyWorld, demoWorld]))
    v (some seed)
  obtain ⟨s, -, rfl, -, hs⟩ := h as (by omega) (by
    have : (as.length : ℝ) ≤ 39 := by exact_mod_cast hn
    norm_num; linarith)
  exact ⟨v0, o, i, hr, hs hd⟩

end BLE
