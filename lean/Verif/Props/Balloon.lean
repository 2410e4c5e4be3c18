import Verif.Lemmas.Demo

/-!
# C07–C13, C16–C18: one balloon step and whole trajectories
-/

namespace BLE

/-! ## C07 — the flown command -/

/-- C07. The command acted on, in terms of the physical readings and of whether each layer reports
"paused" afterwards. The loop then flies exactly that command (`C07_flown_command_is_simulated`). -/
theorem C07_flown_command (α : ℝ) (s s1 : BState) (a eff : Command) (v : AtmVals)
    (hm : 450 ≤ s.env.maxSp) (hv : atPressure α s.pressure = .ok v)
    (h : safetyChain α s a = (s1, .ok eff)) :
    (v.height < 15240 ∨ s.sp < 150 ∨ s.env.maxSp - 150 ≤ s.sp → eff = .up) ∧
    (eff = .down ↔ a = .down ∧ s1.alt.paused = false ∧ s1.env.paused = false ∧
      (s.powerEnabled = true → s1.power.paused = false)) ∧
    (¬ (v.height < 15240 ∨ s.sp < 150 ∨ s.env.maxSp - 150 ≤ s.sp) →
      (a ≠ .down → eff = a) ∧ (a = .down → eff ≠ .down → eff = .stay)) ∧
    ((s.powerEnabled = true ∨ s.power.paused = false) → a = .down →
      (s1.navPaused = true ↔ eff ≠ .down)) := by
  unfold safetyChain at h
  simp only at h
  -- the power layer
  obtain ⟨pl, a1, hpl, hpw⟩ : ∃ pl a1,
      (if s.powerEnabled = true then s.power.getAction a s.dateTime s.nightLoad s.charge s.cap
        else (s.power, .ok a)) = (pl, Except.ok a1) ∧
      ((s.powerEnabled = true → a1 = (if pl.paused = true then pausedAction a else a)) ∧
       (s.powerEnabled = false → a1 = a ∧ pl = s.power)) := by
    by_cases he : s.powerEnabled = true
    · rw [if_pos he] at h ⊢
      rcases hq : s.power.getAction a s.dateTime s.nightLoad s.charge s.cap with ⟨pl, r⟩
      rw [hq] at h
      cases r with
      | error e => simp at h
      | ok a1 =>
        refine ⟨pl, a1, rfl, fun _ => ?_, fun hf => by rw [he] at hf; cases hf⟩
        unfold PowerLayer.getAction at hq
        simp only at hq
        split_ifs at hq with c1 c2 c3
        · split at hq
          · cases hq
          · split_ifs at hq with c4
            · cases hq; simp [c4.1]
            · cases hq; simp
        · cases hq; simp [c2]
        · split at hq
          · cases hq
          · split_ifs at hq with c4
            · cases hq; simp
            · cases hq; simp [c2]
    · rw [if_neg he] at h ⊢
      exact ⟨s.power, a, rfl, fun h' => absurd h' he, fun _ => ⟨rfl, rfl⟩⟩
  rw [hpl] at h
  simp only [hv] at h
  -- envelope and altitude layers
  have hminalt : minAltitude = 15240 := by norm_num [minAltitude]
  have hb : altBuffer = 152.4 := by norm_num [altBuffer]
  have hh : altHysteresis = 152.4 := by norm_num [altHysteresis]
  obtain ⟨hs1, heff⟩ := Prod.mk.inj h
  injection heff with heff
  subst hs1
  simp only [BState.navPaused]
  have hcrit : s.sp < 150 ∨ s.env.maxSp - 150 ≤ s.sp ↔
      (spTrigger s.env.maxSp s.sp = .lowCritical ∨ spTrigger s.env.maxSp s.sp = .highCritical) := by
    unfold spTrigger
    constructor
    · rintro (h | h)
      · left; rw [if_pos h]
      · right; rw [if_neg, if_neg, if_neg, if_neg, if_neg, if_neg] <;> linarith
    · intro h
      by_contra hn
      push Not at hn
      split_ifs at h <;> simp at h <;> linarith
  have hlow : v.height < 15240 ↔ altTrigger v.height = .veryLow := by
    unfold altTrigger
    rw [hminalt]
    constructor
    · intro h; rw [if_pos h]
    · intro h
      by_contra hn
      rw [if_neg hn] at h
      split_ifs at h
  have hall : v.height < 15240 ∨ s.sp < 150 ∨ s.env.maxSp - 150 ≤ s.sp ↔
      altTrigger v.height = .veryLow ∨ spTrigger s.env.maxSp s.sp = .lowCritical ∨
        spTrigger s.env.maxSp s.sp = .highCritical := by rw [hlow, hcrit]
  rw [hall]
  subst heff
  clear h hpl hall hlow hcrit
  have hpow : s.powerEnabled = true ∨ s.powerEnabled = false := by
    cases s.powerEnabled <;> simp
  unfold altGetAction EnvLayer.getAction EnvLayer.paused AltState.paused
  simp only
  have hT : ∀ T e, (T = SPTrigger.lowCritical ∨ T = .highCritical) ↔
      (spTransition T e = .lowCritical ∨ spTransition T e = .highCritical) := by
    intro T e; cases T <;> cases e <;> simp [spTransition]
  have hA : ∀ A al, A = AltTrigger.veryLow ↔ altTransition A al = .veryLow := by
    intro A al; cases A <;> cases al <;> simp [altTransition]
  rw [hT _ s.env.state, hA _ s.alt]
  generalize spTransition (spTrigger s.env.maxSp s.sp) s.env.state = e at *
  generalize altTransition (altTrigger v.height) s.alt = al at *
  rcases hpow with he | he
  · obtain ⟨hpw, -⟩ := hpw
    specialize hpw he
    simp only [he]
    clear he
    generalize pl.paused = q at *
    subst hpw
    cases e <;> cases al <;> cases a <;> cases q <;> simp [pausedAction]
  · obtain ⟨-, hpw⟩ := hpw
    obtain ⟨rfl, rfl⟩ := hpw he
    simp only [he]
    clear he
    generalize s.power.paused = q at *
    cases e <;> cases al <;> cases a1 <;> cases q <;> simp

/-- C07. A step that does not raise flies the command of the safety chain in every sub-step: after at
least one sub-step the recorded ACS power and mass flow are those of the flown command. -/
theorem C07_flown_command_is_simulated (sun : Sun) (α u v : ℝ) (a : Command) (dt stride : ℤ) (s t : BState)
    (h : simulateStep sun α u v a dt stride s = (t, .ok ())) :
    ∃ s1 eff, safetyChain α { s with lastCommand := a } a = (s1, .ok eff) ∧
      ∃ k, Iter (substep sun α u v eff stride) k s1 t ∧
        (0 < k → ∃ r, substep sun α u v eff stride r = .ok t ∧ (t.acsPower, t.acsFlow) = acsEffect r eff) := by
  rcases simulateStep_cases sun α u v a dt stride s with ⟨e, he, _⟩ | ⟨_, _, _, s1, eff, hc, he⟩
  · rw [h] at he; cases he
  · refine ⟨s1, eff, hc, ?_⟩
    obtain ⟨k, _, hit, _⟩ := substepLoop_spec (substep sun α u v eff stride)
      (Int.fdiv (Int.tdiv dt usPerSec) (Int.tdiv stride usPerSec)).toNat s1
    rw [← he, h] at hit
    simp only at hit
    refine ⟨k, hit, fun hk => ?_⟩
    have hlast : ∀ {k s t}, Iter (substep sun α u v eff stride) k s t → 0 < k →
        ∃ r, substep sun α u v eff stride r = .ok t := by
      intro k s t hi
      induction hi with
      | refl => intro h; exact absurd h (lt_irrefl 0)
      | @cons k _ _ _ h1 h2 ih =>
        intro _
        rcases Nat.eq_zero_or_pos k with rfl | hk
        · cases h2; exact ⟨_, h1⟩
        · exact ih hk
    obtain ⟨r, hr⟩ := hlast hit hk
    refine ⟨r, hr, ?_⟩
    obtain ⟨_, _, _, _, _, _, _, _, e⟩ := substep_ok hr
    rw [e]

/-- The demo balloon: everything nominal, DOWN is flown as DOWN. -/
theorem demo_chain (a : Command) : ∃ s1, safetyChain 0 { demo with lastCommand := a } a = (s1, .ok a) ∧
    s1 = { demo with lastCommand := a, power := s1.power } ∧ s1.env = demo.env ∧ s1.alt = demo.alt := by
  obtain ⟨v, hv⟩ := atPressure_in (α := 0) (p := demo.pressure) (by norm_num) (by norm_num)
    (by norm_num [demo]) (by norm_num [demo])
  have hh := high_above_restart (α := 0) (by norm_num) (by norm_num) hv (by norm_num [demo])
  have hc : catchUp 0 (6 * 3600 * usPerSec + powerHysteresis) = 6 * 3600 * usPerSec + powerHysteresis := by
    rw [catchUp, if_neg (by decide)]
  have hc2 : catchUp 0 (18 * 3600 * usPerSec) = 18 * 3600 * usPerSec := by
    rw [catchUp, if_neg (by decide)]
  have hpl : ∃ pl, demo.power.getAction a 0 demo.nightLoad demo.charge demo.cap = (pl, .ok a) := by
    unfold PowerLayer.getAction
    simp only [demo, PowerLayer.new, hc, hc2]
    rw [if_neg (by decide), if_neg (by decide), pyDiv_ok (by norm_num)]
    simp only
    rw [if_neg]
    · exact ⟨_, rfl⟩
    · rw [not_lt, le_div_iff₀ (by norm_num)]
      norm_num [hoursOf, totalSeconds, usPerSec, powerHysteresis]
  obtain ⟨pl, hpl⟩ := hpl
  have hpe : demo.powerEnabled = true := rfl
  have hsp : spTrigger demo.env.maxSp demo.sp = .nominal := by
    norm_num [spTrigger, demo, EnvLayer.new]
  have halt : altTrigger v.height = .nominal := by
    unfold altTrigger
    rw [if_neg, if_neg, if_neg] <;> rw [not_lt] <;> norm_num [minAltitude, altBuffer, altHysteresis] <;>
      norm_num at hh <;> linarith
  have hes : demo.env.state = .nominal := rfl
  have hdt : demo.dateTime = 0 := rfl
  refine ⟨{ demo with lastCommand := a, power := pl }, ?_, rfl, rfl, rfl⟩
  unfold safetyChain
  simp only [hpe, if_true, hdt, hpl, hv]
  unfold EnvLayer.getAction altGetAction
  simp only [hsp, hes, spTransition, halt, altTransition]
  simp
  cases a <;> simp [demo, EnvLayer.new]

example : ∃ s1, safetyChain 0 { demo with lastCommand := .down } .down = (s1, .ok .down) :=
  let ⟨s1, h, _⟩ := demo_chain .down; ⟨s1, h⟩

/-! ## C08 — the recorded command -/

/-- C08. After a call the recorded command is the caller's, also when a layer overrode it and when the
call raised. -/
theorem C08_records_request (sun : Sun) (α u v : ℝ) (a : Command) (dt stride : ℤ) (s : BState) :
    (simulateStep sun α u v a dt stride s).1.lastCommand = a := by
  have hch : (safetyChain α { s with lastCommand := a } a).1.lastCommand = a := by
    obtain ⟨pw, ev, al, h⟩ := safetyChain_state α { s with lastCommand := a } a
    rw [h]
  rcases simulateStep_cases sun α u v a dt stride s with ⟨e, _, h⟩ | ⟨_, _, _, s1, eff, hc, h⟩
  · rcases h with ⟨_, _, h⟩ | ⟨_, h⟩
    · rw [h]
    · rw [h, hch]
  · rw [h]
    obtain ⟨k, _, hit, _⟩ := substepLoop_spec (substep sun α u v eff stride)
      (Int.fdiv (Int.tdiv dt usPerSec) (Int.tdiv stride usPerSec)).toNat s1
    rw [hc] at hch
    refine hit.invariant (P := fun s => s.lastCommand = a) (fun s s' h hp => ?_) hch
    obtain ⟨_, _, _, _, _, _, _, _, rfl⟩ := substep_ok h
    exact hp

/-! ## C09 — the battery -/

/-- C09. After any sequence of calls (any sun, wind, commands, durations, strides; failing calls
included) the charge is within [0, capacity]. -/
theorem C09_charge_in_range (sun : Sun) (α : ℝ) (s : BState) (calls : List StepCall)
    (h0 : 0 ≤ s.charge) (h1 : s.charge ≤ s.cap) :
    0 ≤ (simulateMany sun α s calls).charge ∧
    (simulateMany sun α s calls).charge ≤ (simulateMany sun α s calls).cap ∧
    (simulateMany sun α s calls).cap = s.cap := by
  have := simulateMany_invariant (P := fun t => 0 ≤ t.charge ∧ t.charge ≤ t.cap ∧ t.cap = s.cap)
    (sun := sun) (α := α) (G := fun _ => True) (fun s a pw ev al h => h) ?_ calls (fun _ _ => trivial) s
    ⟨h0, h1, rfl⟩
  · exact this
  · rintro c - a r r' h ⟨h0, h1, h2⟩
    obtain ⟨_, _, _, _, _, _, _, _, rfl⟩ := substep_ok h
    refine ⟨le_min (le_max_right _ _) (h0.trans h1), min_le_right _ _, h2⟩

/-- C09. With a positive capacity the state of charge is a number in [0,1] at every such state. -/
theorem C09_soc_in_unit (sun : Sun) (α : ℝ) (s : BState) (calls : List StepCall)
    (h0 : 0 ≤ s.charge) (h1 : s.charge ≤ s.cap) (hc : 0 < s.cap) :
    ∃ soc, (simulateMany sun α s calls).soc = .ok soc ∧ 0 ≤ soc ∧ soc ≤ 1 := by
  obtain ⟨a, b, c⟩ := C09_charge_in_range sun α s calls h0 h1
  refine ⟨_, pyDiv_ok (by rw [c]; exact hc.ne'), div_nonneg a (by rw [c]; exact hc.le), ?_⟩
  rw [div_le_one (by rw [c]; exact hc)]
  exact b

example : 0 ≤ demo.charge ∧ demo.charge ≤ demo.cap ∧ 0 < demo.cap := by norm_num [demo]

/-! ## C10 — ballonet air -/

/-- C10. The direction and sign of the air exchange in one sub-step: UP never adds air and strictly
releases air when there is overpressure and air left; STAY leaves it unchanged; DOWN adds at least
13/3600 kg of air per second. -/
theorem C10_direction (sun : Sun) (α u v : ℝ) (a : Command) (stride : ℤ) (s s' : BState)
    (h : substep sun α u v a stride s = .ok s') (hst : 0 < stride) (hair : 0 ≤ s.molsAir)
    (hT : 0 < s.intT) (hp : 0 < s.pressure) (hsp : 0 ≤ s.sp) :
    0 ≤ s'.molsAir ∧
    (a = .up → s'.molsAir ≤ s.molsAir ∧
      (0 < s.sp → 0 < s.molsAir → s.valveDiam ≠ 0 → s'.molsAir < s.molsAir)) ∧
    (a = .stay → s'.molsAir = s.molsAir) ∧
    (a = .down → s.molsAir + 13 / 3600 / 0.02896492248116 * ((stride : ℝ) / 1000000) ≤ s'.molsAir) := by
  obtain ⟨_, _, _, _, _, _, _, _, rfl⟩ := substep_ok h
  have hsec : 0 < totalSeconds stride := by
    unfold totalSeconds; have : (0 : ℝ) < stride := by exact_mod_cast hst
    positivity
  have hM : 0 < airM := by norm_num [airM]
  refine ⟨le_max_right _ _, ?_, ?_, ?_⟩
  · rintro rfl
    simp only [acsEffect]
    have hd : 0 < (s.sp + s.pressure) * airM / (gasR * s.intT) :=
      div_pos (mul_pos (by linarith) hM) (mul_pos (by norm_num [gasR]) hT)
    have harea : 0 ≤ Real.pi * s.valveDiam ^ 2 / 4 := by positivity
    have hsq := Real.sqrt_nonneg (2 * s.sp * ((s.sp + s.pressure) * airM / (gasR * s.intT)))
    constructor
    · apply max_le _ hair
      have : -1 * 0.62 * (Real.pi * s.valveDiam ^ 2 / 4) *
          Real.sqrt (2 * s.sp * ((s.sp + s.pressure) * airM / (gasR * s.intT))) / airM * totalSeconds stride ≤ 0 := by
        have : 0 ≤ 0.62 * (Real.pi * s.valveDiam ^ 2 / 4) *
          Real.sqrt (2 * s.sp * ((s.sp + s.pressure) * airM / (gasR * s.intT))) / airM * totalSeconds stride := by
          positivity
        have e : -1 * 0.62 * (Real.pi * s.valveDiam ^ 2 / 4) *
          Real.sqrt (2 * s.sp * ((s.sp + s.pressure) * airM / (gasR * s.intT))) / airM * totalSeconds stride =
          - (0.62 * (Real.pi * s.valveDiam ^ 2 / 4) *
          Real.sqrt (2 * s.sp * ((s.sp + s.pressure) * airM / (gasR * s.intT))) / airM * totalSeconds stride) := by
          ring
        linarith
      linarith
    · intro h1 h2 h3
      apply max_lt _ h2
      have hpos : 0 < 0.62 * (Real.pi * s.valveDiam ^ 2 / 4) *
          Real.sqrt (2 * s.sp * ((s.sp + s.pressure) * airM / (gasR * s.intT))) / airM * totalSeconds stride := by
        have := Real.sqrt_pos.2 (show 0 < 2 * s.sp * ((s.sp + s.pressure) * airM / (gasR * s.intT)) by positivity)
        have := Real.pi_pos
        positivity
      have e : -1 * 0.62 * (Real.pi * s.valveDiam ^ 2 / 4) *
          Real.sqrt (2 * s.sp * ((s.sp + s.pressure) * airM / (gasR * s.intT))) / airM * totalSeconds stride =
          - (0.62 * (Real.pi * s.valveDiam ^ 2 / 4) *
          Real.sqrt (2 * s.sp * ((s.sp + s.pressure) * airM / (gasR * s.intT))) / airM * totalSeconds stride) := by
          ring
      linarith
  · rintro rfl
    simp [acsEffect, hair]
  · rintro rfl
    simp only [acsEffect]
    refine le_trans ?_ (le_max_left _ _)
    have hf : 13 / 3600 ≤ massFlow (mostEfficientPower s.pressureRatio)
        (fanEfficiency s.pressureRatio (mostEfficientPower s.pressureRatio)) := by
      have h1 := fanEfficiency_on_curve s.pressureRatio
      have h3 := (mostEfficientPower_bounds s.pressureRatio).1
      unfold massFlow
      rw [div_le_div_iff_of_pos_right (by norm_num)]
      nlinarith
    have hM' : airM = 0.02896492248116 := by norm_num [airM]
    have : 13 / 3600 / airM ≤ massFlow (mostEfficientPower s.pressureRatio)
        (fanEfficiency s.pressureRatio (mostEfficientPower s.pressureRatio)) / airM :=
      div_le_div_of_nonneg_right hf hM.le
    rw [hM'] at this ⊢
    have hh := mul_le_mul_of_nonneg_right this hsec.le
    unfold totalSeconds at hh ⊢
    linarith

example : ∃ s', substep nightSun 0 3 4 .up (10 * usPerSec) demo = .ok s' ∧ s'.molsAir < demo.molsAir := by
  obtain ⟨s', h, _⟩ := demo_ok' .up
  exact ⟨s', h, ((C10_direction _ _ _ _ _ _ _ _ h (by decide) (by norm_num [demo]) (by norm_num [demo])
    (by norm_num [demo]) (by norm_num [demo])).2.1 rfl).2 (by norm_num [demo]) (by norm_num [demo])
    (by norm_num [demo])⟩

/-- C10. The amount of air is never negative along any sequence of calls. -/
theorem C10_never_negative (sun : Sun) (α : ℝ) (s : BState) (calls : List StepCall) (h0 : 0 ≤ s.molsAir) :
    0 ≤ (simulateMany sun α s calls).molsAir := by
  refine simulateMany_invariant (P := fun t => 0 ≤ t.molsAir) (sun := sun) (α := α) (G := fun _ => True)
    (fun s a pw ev al h => h) ?_ calls (fun _ _ => trivial) s h0
  rintro c - a r r' h -
  obtain ⟨_, _, _, _, _, _, _, _, rfl⟩ := substep_ok h
  exact le_max_right _ _

/-! ## C11 — the clock -/

theorem iter_clock {sun : Sun} {α u v : ℝ} {a : Command} {stride : ℤ} {k : ℕ} {s t : BState}
    (h : Iter (substep sun α u v a stride) k s t) :
    t.dateTime = s.dateTime + k * stride ∧ t.timeElapsed = s.timeElapsed + k * stride := by
  refine h.rel (R := fun k s t => t.dateTime = s.dateTime + k * stride ∧
    t.timeElapsed = s.timeElapsed + k * stride) (by simp) ?_
  intro k s s' t hs ⟨h1, h2⟩
  obtain ⟨_, _, _, _, _, _, _, _, rfl⟩ := substep_ok hs
  simp only at h1 h2
  push_cast
  exact ⟨by rw [h1]; ring, by rw [h2]; ring⟩

/-- C11 for whole-second strides (`d` seconds, `n` of them per call): a step that leaves the balloon
flying advances both clocks by exactly the duration; one that ends the flight advances both by the
same whole number `1 ≤ j ≤ n` of strides.
Missing from the full property: strides with a fractional number of seconds, where it is false
(`C11_fractional_stride_overruns`). -/
theorem C11_clock_partial (sun : Sun) (α u v : ℝ) (a : Command) (d n : ℕ) (hd : 0 < d) (s t : BState)
    (h : simulateStep sun α u v a (n * d * usPerSec) (d * usPerSec) s = (t, .ok ())) :
    (t.status = .ok → t.dateTime = s.dateTime + n * d * usPerSec ∧
      t.timeElapsed = s.timeElapsed + n * d * usPerSec) ∧
    (t.status ≠ .ok → ∃ j : ℕ, 1 ≤ j ∧ j ≤ n ∧ t.dateTime = s.dateTime + j * (d * usPerSec) ∧
      t.timeElapsed = s.timeElapsed + j * (d * usPerSec)) := by
  have e1 : Int.tdiv (n * d * usPerSec) usPerSec = n * d := Int.mul_tdiv_cancel _ (by decide)
  have e2 : Int.tdiv (d * usPerSec) usPerSec = d := Int.mul_tdiv_cancel _ (by decide)
  have e3 : (Int.fdiv ((n : ℤ) * d) d).toNat = n := by
    rw [Int.mul_fdiv_cancel _ (by omega)]; simp
  rcases simulateStep_cases sun α u v a (n * d * usPerSec) (d * usPerSec) s with
    ⟨e, he, _⟩ | ⟨hst, _, _, s1, eff, hc, he⟩
  · rw [h] at he; cases he
  · rw [e1, e2, e3, h] at he
    obtain ⟨pw, ev, al, hs1⟩ := safetyChain_state α { s with lastCommand := a } a
    rw [hc] at hs1
    simp only at hs1
    obtain ⟨k, hk, hit, h1, h2, h3, h4⟩ := substepLoop_spec (substep sun α u v eff (d * usPerSec)) n s1
    rw [← he] at hit h1 h2 h3 h4
    obtain ⟨c1, c2⟩ := iter_clock hit
    rw [hs1] at c1 c2
    simp only at c1 c2
    constructor
    · intro ht
      have := h1 rfl ht
      subst this
      exact ⟨by rw [c1]; ring, by rw [c2]; ring⟩
    · intro ht
      exact ⟨k, (h3 (by rw [hs1]; exact hst) ht).1, hk, c1, c2⟩

/-- A full successful step of the demo balloon (one 10 s stride). -/
theorem demo_step (a : Command) : ∃ t, simulateStep nightSun 0 3 4 a (10 * usPerSec) (10 * usPerSec) demo =
    (t, .ok ()) ∧ t.status = .ok := by
  obtain ⟨s1, hc, hs1, _, _⟩ := demo_chain a
  have hsub : ∃ s', substep nightSun 0 3 4 a (10 * usPerSec) s1 = .ok s' ∧ s'.status = .ok := by
    rw [hs1]; exact demo_ok a a s1.power
  obtain ⟨s', h1, h2⟩ := hsub
  refine ⟨s', ?_, h2⟩
  rw [simulateStep_unfold rfl, hc]
  have e2 : Int.tdiv (10 * usPerSec) usPerSec = 10 := by decide
  simp only [e2]
  rw [if_neg (by decide), if_neg (by decide)]
  have : (Int.fdiv 10 10).toNat = 0 + 1 := by decide
  rw [this, substepLoop, h1]
  simp [h2, substepLoop]

example : ∃ t, simulateStep nightSun 0 3 4 .down (((1 : ℕ) : ℤ) * ((10 : ℕ) : ℤ) * usPerSec) (((10 : ℕ) : ℤ) * usPerSec) demo = (t, .ok ()) ∧
    t.status = .ok := demo_step .down

/-- C11. The full property is false for fractional strides: with a 1.5 s stride and a 3 s duration
(a multiple of the stride), every step that leaves the balloon flying advances the clock by 4.5 s. -/
theorem C11_fractional_stride_overruns (sun : Sun) (α u v : ℝ) (a : Command) (s t : BState)
    (h : simulateStep sun α u v a 3000000 1500000 s = (t, .ok ())) (ht : t.status = .ok) :
    t.dateTime = s.dateTime + 4500000 := by
  have e1 : Int.tdiv 3000000 usPerSec = 3 := by decide
  have e2 : Int.tdiv 1500000 usPerSec = 1 := by decide
  have e3 : (Int.fdiv 3 1).toNat = 3 := by decide
  rcases simulateStep_cases sun α u v a 3000000 1500000 s with ⟨e, he, _⟩ | ⟨hst, _, _, s1, eff, hc, he⟩
  · rw [h] at he; cases he
  · rw [e1, e2, e3, h] at he
    obtain ⟨pw, ev, al, hs1⟩ := safetyChain_state α { s with lastCommand := a } a
    rw [hc] at hs1
    simp only at hs1
    obtain ⟨k, hk, hit, h1, _⟩ := substepLoop_spec (substep sun α u v eff 1500000) 3 s1
    rw [← he] at hit h1
    obtain ⟨c1, c2⟩ := iter_clock hit
    rw [h1 rfl ht] at c1
    rw [c1, hs1]
    norm_num

/-- C11, the exact law for every duration and every stride of a second or more: a duration of `n·d` s and `g` µs
in strides of `d` s and `f` µs (`f`, `g` below a second) that leaves the balloon flying advances both clocks by `n`
strides, so by `n·f - g` µs too much; one that ends the flight advances both by `1 ≤ j ≤ n` strides. -/
theorem C11_exact_advance (sun : Sun) (α u v : ℝ) (a : Command) (d n f g : ℕ) (hd : 0 < d) (hf : f < 1000000)
    (hg : g < 1000000) (s t : BState)
    (h : simulateStep sun α u v a (n * d * 1000000 + g) (d * 1000000 + f) s = (t, .ok ())) :
    (t.status = .ok → t.dateTime = s.dateTime + (n * d * 1000000 + g) + (n * f - g) ∧
      t.timeElapsed = s.timeElapsed + (n * d * 1000000 + g) + (n * f - g)) ∧
    (t.status ≠ .ok → ∃ j : ℕ, 1 ≤ j ∧ j ≤ n ∧ t.dateTime = s.dateTime + j * (d * 1000000 + f) ∧
      t.timeElapsed = s.timeElapsed + j * (d * 1000000 + f)) := by
  have hq : ∀ (m e : ℕ), e < 1000000 → Int.tdiv ((m : ℤ) * 1000000 + e) usPerSec = m := by
    intro m e he
    have hu : usPerSec = 1000000 := rfl
    rw [hu, Int.tdiv_eq_ediv_of_nonneg (by positivity)]
    omega
  have e1 : Int.tdiv (n * d * 1000000 + g) usPerSec = n * d := by
    have := hq (n * d) g hg
    push_cast at this
    exact this
  have e2 : Int.tdiv (d * 1000000 + f) usPerSec = d := hq d f hf
  have e3 : (Int.fdiv ((n : ℤ) * d) d).toNat = n := by
    rw [Int.mul_fdiv_cancel _ (by omega)]; simp
  rcases simulateStep_cases sun α u v a (n * d * 1000000 + g) (d * 1000000 + f) s with
    ⟨e, he, _⟩ | ⟨hst, _, _, s1, eff, hc, he⟩
  · rw [h] at he; cases he
  · rw [e1, e2, e3, h] at he
    obtain ⟨pw, ev, al, hs1⟩ := safetyChain_state α { s with lastCommand := a } a
    rw [hc] at hs1
    simp only at hs1
    obtain ⟨k, hk, hit, h1, h2, h3, h4⟩ := substepLoop_spec (substep sun α u v eff (d * 1000000 + f)) n s1
    rw [← he] at hit h1 h2 h3 h4
    obtain ⟨c1, c2⟩ := iter_clock hit
    rw [hs1] at c1 c2
    simp only at c1 c2
    constructor
    · intro ht
      have := h1 rfl ht
      subst this
      exact ⟨by rw [c1]; ring, by rw [c2]; ring⟩
    · intro ht
      exact ⟨k, (h3 (by rw [hs1]; exact hst) ht).1, hk, c1, c2⟩

example : ∃ t, simulateStep nightSun 0 3 4 .up (((1 : ℕ) : ℤ) * ((10 : ℕ) : ℤ) * 1000000 + ((0 : ℕ) : ℤ))
    (((10 : ℕ) : ℤ) * 1000000 + ((0 : ℕ) : ℤ)) demo = (t, .ok ()) ∧ t.status = .ok := demo_step .up

/-- C11. Over any sequence of calls `date_time - time_elapsed` is constant. -/
theorem C11_start_time_constant (sun : Sun) (α : ℝ) (s : BState) (calls : List StepCall) :
    (simulateMany sun α s calls).dateTime - (simulateMany sun α s calls).timeElapsed =
      s.dateTime - s.timeElapsed := by
  refine simulateMany_invariant (P := fun t => t.dateTime - t.timeElapsed = s.dateTime - s.timeElapsed)
    (sun := sun) (α := α) (G := fun _ => True) (fun s a pw ev al h => h) ?_ calls (fun _ _ => trivial) s rfl
  rintro c - a r r' h hr
  obtain ⟨_, _, _, _, _, _, _, _, rfl⟩ := substep_ok h
  simp only
  omega

/-! ## C12 — end-of-flight causes -/

/-- C12. The status after a sub-step from an OK state, in terms of the new charge and superpressure
(rated maximum non-negative). -/
theorem C12_status (sun : Sun) (α u v : ℝ) (a : Command) (stride : ℤ) (s s' : BState)
    (h : substep sun α u v a stride s = .ok s') (hok : s.status = .ok) (hm : 0 ≤ s.maxSp)
    (hc : 0 ≤ s.cap) :
    (s'.status = .outOfPower ↔ s'.charge = 0) ∧
    (s'.status = .burst ↔ s'.charge ≠ 0 ∧ s.maxSp < s'.sp) ∧
    (s'.status = .zeropressure ↔ s'.charge ≠ 0 ∧ s'.sp ≤ 0) ∧
    (s'.status = .ok ↔ s'.charge ≠ 0 ∧ 0 < s'.sp ∧ s'.sp ≤ s.maxSp) := by
  obtain ⟨_, _, _, solar, _, _, _, _, rfl⟩ := substep_ok h
  simp only
  generalize (superpressureAndVolume s.molsLift s.molsAir s.intT s.pressure s.volBase s.dvdp).2 = sp
  have hch : ∀ x, 0 ≤ clip x 0 s.cap := fun x => le_min (le_max_right _ _) hc
  have hch := hch (s.charge + (solar -
          ((if (sun s.latlng s.dateTime).el > minSolarEl then s.dayLoad else s.nightLoad) +
            (acsEffect s a).1)) * hoursOf stride)
  generalize clip (s.charge + (solar -
          ((if (sun s.latlng s.dateTime).el > minSolarEl then s.dayLoad else s.nightLoad) +
            (acsEffect s a).1)) * hoursOf stride) 0 s.cap = ch at *
  unfold newStatus
  simp only
  by_cases c1 : ch ≤ 0
  · have : ch = 0 := le_antisymm c1 hch
    simp [this]
  · have h1 : ch ≠ 0 := fun h => c1 h.le
    rw [if_neg c1]
    by_cases c2 : sp ≤ 0
    · have h2 : ¬ s.maxSp < sp := by linarith
      have h3 : ¬ 0 < sp := by linarith
      simp [h1, c2, h2]
    · rw [if_neg c2]
      have c2' := not_le.1 c2
      by_cases c3 : sp > s.maxSp
      · have h2 : ¬ sp ≤ s.maxSp := by linarith
        simp [h1, c2, c3]
      · have h2 : sp ≤ s.maxSp := by linarith
        simp [h1, c3, h2, hok, c2']

example : ∃ s', substep nightSun 0 3 4 .down (10 * usPerSec) demo = .ok s' ∧ demo.status = .ok ∧
    0 ≤ demo.maxSp ∧ 0 ≤ demo.cap := by
  obtain ⟨s', h, _⟩ := demo_ok' .down
  exact ⟨s', h, rfl, by norm_num [demo], by norm_num [demo]⟩

/-- C12 lifted to a whole step: a step that does not raise ends with a status matching the state it
leaves behind, for any number of sub-steps (at least one). -/
theorem C12_status_after_step (sun : Sun) (α u v : ℝ) (a : Command) (d n : ℕ) (hd : 0 < d) (hn : 0 < n)
    (s t : BState) (h : simulateStep sun α u v a (n * d * usPerSec) (d * usPerSec) s = (t, .ok ()))
    (hm : 0 ≤ s.maxSp) (hc : 0 ≤ s.cap) :
    (t.status = .outOfPower ↔ t.charge = 0) ∧
    (t.status = .burst ↔ t.charge ≠ 0 ∧ s.maxSp < t.sp) ∧
    (t.status = .zeropressure ↔ t.charge ≠ 0 ∧ t.sp ≤ 0) ∧
    (t.status = .ok ↔ t.charge ≠ 0 ∧ 0 < t.sp ∧ t.sp ≤ s.maxSp) := by
  have e1 : Int.tdiv (n * d * usPerSec) usPerSec = n * d := Int.mul_tdiv_cancel _ (by decide)
  have e2 : Int.tdiv (d * usPerSec) usPerSec = d := Int.mul_tdiv_cancel _ (by decide)
  have e3 : (Int.fdiv ((n : ℤ) * d) d).toNat = n := by
    rw [Int.mul_fdiv_cancel _ (by omega)]; simp
  rcases simulateStep_cases sun α u v a (n * d * usPerSec) (d * usPerSec) s with
    ⟨e, he, _⟩ | ⟨hst, _, _, s1, eff, hch, he⟩
  · rw [h] at he; cases he
  · rw [e1, e2, e3, h] at he
    obtain ⟨pw, ev, al, hs1⟩ := safetyChain_state α { s with lastCommand := a } a
    rw [hch] at hs1
    simp only at hs1
    have hgen : ∀ n r, 0 < n → r.status = .ok → r.maxSp = s.maxSp → r.cap = s.cap →
        ∀ t, substepLoop (substep sun α u v eff (d * usPerSec)) n r = (t, .ok ()) →
        ∃ q, substep sun α u v eff (d * usPerSec) q = .ok t ∧ q.status = .ok ∧ q.maxSp = s.maxSp ∧
          q.cap = s.cap := by
      intro n
      induction n with
      | zero => intro r h; exact absurd h (lt_irrefl 0)
      | succ n ih =>
        intro r _ hr1 hr2 hr3 t ht
        simp only [substepLoop] at ht
        cases hs : substep sun α u v eff (d * usPerSec) r with
        | error e => rw [hs] at ht; cases ht
        | ok r' =>
          rw [hs] at ht
          simp only at ht
          by_cases c : r'.status = .ok
          · rw [if_neg (not_not.2 c)] at ht
            rcases Nat.eq_zero_or_pos n with rfl | hn
            · simp only [substepLoop] at ht
              cases ht
              exact ⟨r, hs, hr1, hr2, hr3⟩
            · refine ih r' hn c ?_ ?_ t ht
              · obtain ⟨_, _, _, _, _, _, _, _, rfl⟩ := substep_ok hs; exact hr2
              · obtain ⟨_, _, _, _, _, _, _, _, rfl⟩ := substep_ok hs; exact hr3
          · rw [if_pos c] at ht
            cases ht
            exact ⟨r, hs, hr1, hr2, hr3⟩
    obtain ⟨q, hq, q1, q2, q3⟩ := hgen n s1 hn (by rw [hs1]; exact hst) (by rw [hs1]) (by rw [hs1]) t he.symm
    rw [← q2]
    exact C12_status _ _ _ _ _ _ _ _ hq q1 (by rw [q2]; exact hm) (by rw [q3]; exact hc)

/-! ## C13 — a finished flight is frozen -/

/-- C13. After a terminal event every further call raises `AssertionError`, and after any number of
such calls nothing but the recorded command has changed. -/
theorem C13_frozen (sun : Sun) (α : ℝ) (s : BState) (h : s.status ≠ .ok) (calls : List StepCall) :
    (∃ lc, simulateMany sun α s calls = { s with lastCommand := lc }) ∧
    ∀ c : StepCall, (simulateStep sun α c.u c.v c.action c.timeDelta c.stride
      (simulateMany sun α s calls)).2 = .error .assertion := by
  have key : ∀ calls : List StepCall, ∃ lc, simulateMany sun α s calls = { s with lastCommand := lc } := by
    intro calls
    induction calls using List.reverseRecOn with
    | nil => exact ⟨s.lastCommand, rfl⟩
    | append_singleton cs c ih =>
      obtain ⟨lc, hlc⟩ := ih
      unfold simulateMany at hlc ⊢
      rw [List.foldl_append, hlc]
      refine ⟨c.action, ?_⟩
      simp only [List.foldl_cons, List.foldl_nil]
      unfold simulateStep
      simp only
      rw [if_pos h]
  refine ⟨key calls, fun c => ?_⟩
  obtain ⟨lc, hlc⟩ := key calls
  rw [hlc]
  unfold simulateStep
  simp only
  rw [if_pos h]

example : ({ demo with status := .burst } : BState).status ≠ .ok := by simp

/-! ## C16 — drift -/

/-- C16. Over one call (completed, ended part-way, or raised) the horizontal displacement is the wind
times the elapsed simulated seconds. -/
theorem C16_drift (sun : Sun) (α u v : ℝ) (a : Command) (dt stride : ℤ) (s : BState) :
    let t := (simulateStep sun α u v a dt stride s).1
    t.x - s.x = u * (((t.timeElapsed - s.timeElapsed : ℤ) : ℝ) / 1000000) ∧
    t.y - s.y = v * (((t.timeElapsed - s.timeElapsed : ℤ) : ℝ) / 1000000) := by
  intro t
  have := simulateStep_invariant (P := fun t => t.x - s.x = u * (((t.timeElapsed - s.timeElapsed : ℤ) : ℝ) / 1000000) ∧
    t.y - s.y = v * (((t.timeElapsed - s.timeElapsed : ℤ) : ℝ) / 1000000)) (sun := sun) (α := α)
    (u := u) (v := v) (stride := stride) (fun s a pw ev al h => h) ?_ a dt s (by simp)
  · exact this
  · rintro a r r' h ⟨h1, h2⟩
    obtain ⟨_, _, _, _, _, _, _, _, rfl⟩ := substep_ok h
    simp only [totalSeconds]
    push_cast at h1 h2 ⊢
    constructor
    · linear_combination h1
    · linear_combination h2

/-! ## C17 — buoyancy -/

/-- C17. If the displaced air (ambient density times envelope volume) is at least as heavy as the
flight system, a sub-step does not increase the pressure; otherwise it does not decrease it; it moves
strictly unless the two weights are equal. -/
theorem C17_buoyancy (sun : Sun) (α : ℝ) (h0 : 0 ≤ α) (h1 : α ≤ 1) (u v : ℝ) (a : Command) (stride : ℤ)
    (s s' : BState) (h : substep sun α u v a stride s = .ok s') (hst : 0 < stride) :
    let displaced := s.pressure * 0.02896492248116 / (8.3144621 * s.ambT) * s.vol
    let mass := 0.004002602 * s.molsLift + 0.02896492248116 * s.molsAir + s.envMass + s.payload
    (mass ≤ displaced → s'.pressure ≤ s.pressure) ∧ (displaced ≤ mass → s.pressure ≤ s'.pressure) ∧
    (mass < displaced → s'.pressure < s.pressure) ∧ (displaced < mass → s.pressure < s'.pressure) := by
  intro displaced mass
  have hdisp : s.rhoAir * s.vol = displaced := by
    simp only [BState.rhoAir, displaced, airM, gasR]; norm_num
  have hmass : s.systemMass = mass := by
    simp only [BState.systemMass, mass, airM, heM]; norm_num
  obtain ⟨p', _, _, _, hp, _, _, _, rfl⟩ := substep_ok h
  obtain ⟨a0, a1, _, hden, ha0, ha1, hne, rfl⟩ := newPressure_ok hp
  simp only
  have hsec : 0 < totalSeconds stride := by
    unfold totalSeconds; have : (0 : ℝ) < stride := by exact_mod_cast hst
    positivity
  rw [hdisp, hmass] at *
  have hsq := Real.sqrt_nonneg |2 * (displaced - mass) * gravity / (s.rhoAir * (s.cod * s.vol ^ (2.0 / 3.0 : ℝ)))|
  have hsq0 : displaced ≠ mass → 0 < Real.sqrt |2 * (displaced - mass) * gravity / (s.rhoAir * (s.cod * s.vol ^ (2.0 / 3.0 : ℝ)))| := by
    intro hd
    apply Real.sqrt_pos.2
    rw [abs_pos]
    exact div_ne_zero (mul_ne_zero (mul_ne_zero two_ne_zero (sub_ne_zero.2 hd)) gravity_pos.ne') hden
  have hsq1 : displaced = mass → Real.sqrt |2 * (displaced - mass) * gravity / (s.rhoAir * (s.cod * s.vol ^ (2.0 / 3.0 : ℝ)))| = 0 := by
    intro hd; rw [hd]; simp
  generalize Real.sqrt |2 * (displaced - mass) * gravity / (s.rhoAir * (s.cod * s.vol ^ (2.0 / 3.0 : ℝ)))| = q at *
  clear_value displaced mass
  by_cases c : mass ≤ displaced
  · rw [if_pos c] at *
    have hlt := (C44_pressure_direction α h0 h1 _ _ _ _ ha0 ha1 (by norm_num)).1
    have hneg : 1 * 1.0 / (a1.height - a0.height) < 0 := div_neg_of_pos_of_neg (by norm_num) (by linarith)
    generalize 1 * 1.0 / (a1.height - a0.height) = k at *
    refine ⟨fun _ => ?_, fun hh => ?_, fun hh => ?_, fun hh => absurd hh (not_lt.2 c)⟩
    · nlinarith [mul_nonneg (mul_nonneg (neg_nonneg.2 hneg.le) hsq) hsec.le]
    · rw [hsq1 (le_antisymm hh c)]; simp
    · nlinarith [mul_pos (mul_pos (neg_pos.2 hneg) (hsq0 hh.ne')) hsec]
  · rw [if_neg (show ¬ displaced ≥ mass from c)] at *
    have c' := not_le.1 c
    have hlt := (C44_pressure_direction α h0 h1 _ _ _ _ ha1 ha0 (by norm_num)).1
    have hneg : -1 * 1.0 / (a1.height - a0.height) < 0 := div_neg_of_neg_of_pos (by norm_num) (by linarith)
    generalize -1 * 1.0 / (a1.height - a0.height) = k at *
    have hpos := mul_pos (mul_pos (neg_pos.2 hneg) (hsq0 c'.ne)) hsec
    refine ⟨fun hh => absurd hh c, fun _ => ?_, fun hh => absurd hh (not_lt.2 c'.le), fun _ => ?_⟩ <;>
      nlinarith

example : ∃ s', substep nightSun 0 3 4 .down (10 * usPerSec) demo = .ok s' ∧ demo.pressure < s'.pressure := by
  obtain ⟨s', h, _⟩ := demo_ok' .down
  exact ⟨s', h, (C17_buoyancy _ 0 (by norm_num) (by norm_num) _ _ _ _ _ _ h (by decide)).2.2.2
    (by norm_num [demo])⟩

/-! ## C18 — strides -/

/-- C18. Exactly when does a call raise before flying: the flight already ended, or (stride of at
least one second) the duration in whole seconds is not a multiple of the stride in whole seconds. It
then leaves every physical variable alone: only the recorded command and the safety layers may
differ. -/
theorem C18_bad_stride_raises (sun : Sun) (α u v : ℝ) (a : Command) (D d : ℕ) (hd : 0 < d) (s : BState)
    (h : s.status ≠ .ok ∨ ¬ d ∣ D) :
    ∃ e lc pw ev al, simulateStep sun α u v a (D * usPerSec) (d * usPerSec) s =
      ({ s with lastCommand := lc, power := pw, env := ev, alt := al }, .error e) := by
  have e1 : Int.tdiv (D * usPerSec) usPerSec = D := Int.mul_tdiv_cancel _ (by decide)
  have e2 : Int.tdiv (d * usPerSec) usPerSec = d := Int.mul_tdiv_cancel _ (by decide)
  rcases simulateStep_cases sun α u v a (D * usPerSec) (d * usPerSec) s with
    ⟨e, he, h'⟩ | ⟨hst, _, hf, s1, eff, hc, he⟩
  · rcases h' with ⟨_, _, h'⟩ | ⟨_, h'⟩
    · exact ⟨e, a, s.power, s.env, s.alt, Prod.ext h' he⟩
    · obtain ⟨pw, ev, al, hs⟩ := safetyChain_state α { s with lastCommand := a } a
      exact ⟨e, a, pw, ev, al, Prod.ext (h'.trans hs) he⟩
  · exfalso
    rw [e1, e2, Int.fmod_eq_emod_of_nonneg _ (by omega)] at hf
    rcases h with h | h
    · exact h hst
    · exact h (by exact_mod_cast Int.dvd_of_emod_eq_zero hf)

example : ¬ (7 ∣ 180) := by decide

/-- C18, converse: in all other cases the only way to raise is one of the physical lookups failing
(zero battery capacity, pressure outside the atmosphere, or a failing sub-step). -/
theorem C18_only_then (sun : Sun) (α u v : ℝ) (a : Command) (D d : ℕ) (hd : 0 < d) (s : BState)
    (h1 : s.status = .ok) (h2 : d ∣ D) (hcap : s.cap ≠ 0) (hat : ∃ v, atPressure α s.pressure = .ok v) :
    (simulateStep sun α u v a (D * usPerSec) (d * usPerSec) s).2 = .ok () ∨
    ∃ e eff, (simulateStep sun α u v a (D * usPerSec) (d * usPerSec) s).2 = .error e ∧
      substep sun α u v eff (d * usPerSec) (simulateStep sun α u v a (D * usPerSec) (d * usPerSec) s).1 =
        .error e := by
  have e1 : Int.tdiv (D * usPerSec) usPerSec = D := Int.mul_tdiv_cancel _ (by decide)
  have e2 : Int.tdiv (d * usPerSec) usPerSec = d := Int.mul_tdiv_cancel _ (by decide)
  have hchain : ∃ s1 eff, safetyChain α { s with lastCommand := a } a = (s1, .ok eff) := by
    obtain ⟨v, hv⟩ := hat
    unfold safetyChain
    simp only
    have hp : ∀ (L : PowerLayer) now n c, ∃ L' a', L.getAction a now n c s.cap = (L', .ok a') := by
      intro L now n c
      unfold PowerLayer.getAction
      simp only [pyDiv_ok hcap]
      split_ifs <;> exact ⟨_, _, rfl⟩
    obtain ⟨L', a', hL⟩ := hp s.power s.dateTime s.nightLoad s.charge
    by_cases he : s.powerEnabled = true
    · rw [if_pos he, hL]; simp only [hv]; exact ⟨_, _, rfl⟩
    · rw [if_neg he]; simp only [hv]; exact ⟨_, _, rfl⟩
  obtain ⟨s1, eff, hc⟩ := hchain
  rw [simulateStep_unfold h1, hc]
  simp only [e1, e2]
  rw [if_neg (by exact_mod_cast hd.ne'), if_neg]
  · obtain ⟨k, _, _, _, _, _, h5⟩ := substepLoop_spec (substep sun α u v eff (d * usPerSec))
      (Int.fdiv (D : ℤ) d).toNat s1
    rcases hr : (substepLoop (substep sun α u v eff (d * usPerSec)) (Int.fdiv (D : ℤ) d).toNat s1).2 with e | _
    · right; exact ⟨e, eff, rfl, (h5 e hr).1⟩
    · left; rfl
  · rw [not_not, Int.fmod_eq_emod_of_nonneg _ (by omega)]
    exact Int.emod_eq_zero_of_dvd (by exact_mod_cast h2)

/-- C18. A stride shorter than one second raises `ZeroDivisionError` (not `AssertionError`), whatever
the duration. -/
theorem C18_subsecond_stride (sun : Sun) (α u v : ℝ) (a : Command) (dt stride : ℤ) (s : BState)
    (h1 : s.status = .ok) (hcap : s.cap ≠ 0) (hat : ∃ v, atPressure α s.pressure = .ok v)
    (hs : -usPerSec < stride ∧ stride < usPerSec) :
    (simulateStep sun α u v a dt stride s).2 = .error .zeroDivision := by
  have e2 : Int.tdiv stride usPerSec = 0 := by
    have hu : usPerSec = 1000000 := rfl
    rw [hu] at hs ⊢
    rcases le_total 0 stride with h | h
    · exact Int.tdiv_eq_zero_of_lt h hs.2
    · have := Int.tdiv_eq_zero_of_lt (a := -stride) (b := 1000000) (by omega) (by omega)
      rw [Int.neg_tdiv] at this
      omega
  have hchain : ∃ s1 eff, safetyChain α { s with lastCommand := a } a = (s1, .ok eff) := by
    obtain ⟨v, hv⟩ := hat
    unfold safetyChain
    simp only
    have hp : ∀ (L : PowerLayer) now n c, ∃ L' a', L.getAction a now n c s.cap = (L', .ok a') := by
      intro L now n c
      unfold PowerLayer.getAction
      simp only [pyDiv_ok hcap]
      split_ifs <;> exact ⟨_, _, rfl⟩
    obtain ⟨L', a', hL⟩ := hp s.power s.dateTime s.nightLoad s.charge
    by_cases he : s.powerEnabled = true
    · rw [if_pos he, hL]; simp only [hv]; exact ⟨_, _, rfl⟩
    · rw [if_neg he]; simp only [hv]; exact ⟨_, _, rfl⟩
  obtain ⟨s1, eff, hc⟩ := hchain
  rw [simulateStep_unfold h1, hc]
  simp only [e2, if_true]

example : demo.status = .ok ∧ demo.cap ≠ 0 ∧ ∃ v, atPressure 0 demo.pressure = .ok v :=
  ⟨rfl, by norm_num [demo], atPressure_in (by norm_num) (by norm_num) (by norm_num [demo]) (by norm_num [demo])⟩

end BLE
