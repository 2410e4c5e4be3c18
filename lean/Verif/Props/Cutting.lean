import Verif.Props.Balloon
import Verif.Props.Control
import Verif.Props.Safety
import Verif.Props.Atmosphere

/-!
# C158: cutting a step in two changes only when commands are decided
-/

namespace BLE

/-- Two balloons alike except for what their safety layers remember and for the command last requested. -/
def Spec.SameButLayers (s s' : BState) : Prop :=
  s' = { s with power := s'.power, env := s'.env, alt := s'.alt, lastCommand := s'.lastCommand }

/-- Given other safety layers and another last command. -/
def Spec.relayered (p : PowerLayer) (e : EnvLayer) (l : AltState) (c : Command) (s : BState) : BState :=
  { s with power := p, env := e, alt := l, lastCommand := c }

theorem substep_relayered (sun : Sun) (α u v : ℝ) (a : Command) (stride : ℤ) (s : BState) (p : PowerLayer) (e : EnvLayer) (l : AltState)
    (c : Command) : substep sun α u v a stride (Spec.relayered p e l c s) =
      (substep sun α u v a stride s).map (Spec.relayered p e l c) := by
  unfold substep
  have e0 : (Spec.relayered p e l c s).latlng = s.latlng := rfl
  have e1 : newPressure α (Spec.relayered p e l c s) stride = newPressure α s stride := rfl
  have e2 : acsEffect (Spec.relayered p e l c s) a = acsEffect s a := by cases a <;> rfl
  rw [e0, e1, e2]
  simp only [bind, Except.bind]
  cases newPressure α s stride with
  | error e => rfl
  | ok p' =>
  simp only
  have e3 : (Spec.relayered p e l c s).pressure = s.pressure := rfl
  have e4 : (Spec.relayered p e l c s).dateTime = s.dateTime := rfl
  rw [e3, e4]
  cases atPressure α s.pressure with
  | error e => rfl
  | ok amb =>
  simp only
  have e5 : dTempDt (Spec.relayered p e l c s).vol (Spec.relayered p e l c s).envMass (Spec.relayered p e l c s).intT
      (Spec.relayered p e l c s).ambT s.pressure (sun s.latlng s.dateTime).el (sun s.latlng s.dateTime).flux
      (Spec.relayered p e l c s).upwelling =
      dTempDt s.vol s.envMass s.intT s.ambT s.pressure (sun s.latlng s.dateTime).el (sun s.latlng s.dateTime).flux s.upwelling := rfl
  rw [e5]
  cases dTempDt s.vol s.envMass s.intT s.ambT s.pressure (sun s.latlng s.dateTime).el (sun s.latlng s.dateTime).flux s.upwelling with
  | error e => rfl
  | ok dT =>
  simp only
  split_ifs
  · cases solarPower (sun s.latlng s.dateTime).el s.pressure <;> rfl
  · rfl

theorem substepLoop_relayered (sun : Sun) (α u v : ℝ) (a : Command) (stride : ℤ) (p : PowerLayer) (e : EnvLayer) (l : AltState)
    (c : Command) (n : ℕ) (s : BState) : substepLoop (substep sun α u v a stride) n (Spec.relayered p e l c s) =
      (Spec.relayered p e l c (substepLoop (substep sun α u v a stride) n s).1, (substepLoop (substep sun α u v a stride) n s).2) := by
  induction n generalizing s with
  | zero => rfl
  | succ n ih =>
    unfold substepLoop
    rw [substep_relayered]
    cases h : substep sun α u v a stride s with
    | error er => rfl
    | ok t =>
      simp only [Except.map]
      have hst : (Spec.relayered p e l c t).status = t.status := rfl
      rw [hst]
      by_cases h1 : t.status ≠ .ok
      · simp only [if_pos h1]
      · simp only [if_neg h1]; exact ih t

/-- Going through `n + m` sub-steps is going through `n`, and through `m` more if the flight has not ended. -/
theorem substepLoop_plus (step : BState → Except Err BState) (n m : ℕ) (s : BState) (hs : s.status = .ok) :
    ((substepLoop step n s).2 = .ok () → (substepLoop step n s).1.status = .ok →
      substepLoop step (n + m) s = substepLoop step m (substepLoop step n s).1) ∧
    ((substepLoop step n s).2 ≠ .ok () ∨ (substepLoop step n s).1.status ≠ .ok →
      substepLoop step (n + m) s = substepLoop step n s) := by
  induction n generalizing s with
  | zero =>
    simp only [substepLoop, Nat.zero_add]
    exact ⟨fun _ _ => trivial, fun h => by simp [hs] at h⟩
  | succ n ih =>
    have e : n + 1 + m = (n + m) + 1 := by omega
    have w : ∀ j, substepLoop step (j + 1) s = match step s with
        | .error e => (s, .error e)
        | .ok s' => if s'.status ≠ .ok then (s', .ok ()) else substepLoop step j s' := fun _ => rfl
    rw [e, w (n + m), w n]
    cases h : step s with
    | error er => simp
    | ok t =>
      simp only
      by_cases h1 : t.status ≠ .ok
      · simp only [if_pos h1]
        exact ⟨fun _ h => absurd h h1, fun _ => trivial⟩
      · simp only [if_neg h1]
        exact ih t (not_not.1 h1)

theorem safetyChain_sameButLayers (α : ℝ) (s : BState) (a c : Command) :
    ∃ p e l, (safetyChain α { s with lastCommand := c } a).1 = Spec.relayered p e l c s := by
  unfold safetyChain
  simp only
  generalize (if s.powerEnabled = true then s.power.getAction a s.dateTime s.nightLoad s.charge s.cap
    else (s.power, .ok a)) = pr
  rcases pr with ⟨pw, er | a1⟩
  · exact ⟨_, _, _, rfl⟩
  · simp only
    cases atPressure α s.pressure <;> exact ⟨_, _, _, rfl⟩

theorem simulateStep_strides (sun : Sun) (α u v : ℝ) (a eff : Command) (k n : ℕ) (hk : 0 < k) (s : BState) (hs : s.status = .ok)
    (he : (safetyChain α { s with lastCommand := a } a).2 = .ok eff) :
    simulateStep sun α u v a (n * (k * usPerSec)) (k * usPerSec) s =
      substepLoop (substep sun α u v eff (k * usPerSec)) n (safetyChain α { s with lastCommand := a } a).1 := by
  unfold simulateStep
  simp only
  rw [if_neg (not_not.2 hs)]
  generalize safetyChain α { s with lastCommand := a } a = sc at he
  rcases sc with ⟨s1, r⟩
  simp only at he
  subst he
  have e1 : Int.tdiv (↑k * usPerSec) usPerSec = k := Int.mul_tdiv_cancel _ (by decide)
  have e2 : Int.tdiv (↑n * (↑k * usPerSec)) usPerSec = n * k := by
    rw [← mul_assoc]; exact Int.mul_tdiv_cancel _ (by decide)
  have hk' : (k : ℤ) ≠ 0 := by omega
  have e3 : Int.fmod ((n : ℤ) * k) k = 0 := Int.mul_fmod_left _ _
  have e4 : Int.fdiv ((n : ℤ) * k) k = n := Int.mul_fdiv_cancel _ hk'
  simp only [e1, e2, e3, e4, ne_eq, not_true_eq_false, if_false, if_neg hk', Int.toNat_natCast]

/-- C158. Cutting a step in two. Let a step of `n` strides be followed by one of `m` strides in the same wind, in whatever two commands,
both of which the safety layers turn into flying `eff`. If the flight goes on after the first, then the two together end where the single
step of `n + m` strides ends, alike except for what the safety layers remember and the command last requested, and with the same outcome. -/
theorem C158_cut (sun : Sun) (α u v : ℝ) (a b eff : Command) (k n m : ℕ) (hk : 0 < k) (s : BState) (hs : s.status = .ok)
    (he : (safetyChain α { s with lastCommand := a } a).2 = .ok eff)
    (ho : (simulateStep sun α u v a (n * (k * usPerSec)) (k * usPerSec) s).2 = .ok ())
    (hf : (simulateStep sun α u v a (n * (k * usPerSec)) (k * usPerSec) s).1.status = .ok)
    (he' : (safetyChain α { (simulateStep sun α u v a (n * (k * usPerSec)) (k * usPerSec) s).1 with lastCommand := b } b).2 = .ok eff) :
    let t := (simulateStep sun α u v a (n * (k * usPerSec)) (k * usPerSec) s).1
    let two := simulateStep sun α u v b (m * (k * usPerSec)) (k * usPerSec) t
    let one := simulateStep sun α u v a ((n + m : ℕ) * (k * usPerSec)) (k * usPerSec) s
    Spec.SameButLayers one.1 two.1 ∧ two.2 = one.2 := by
  simp only
  have h2 := simulateStep_strides sun α u v b eff k m hk _ hf he'
  rw [h2]
  obtain ⟨p, e, l, hr⟩ := safetyChain_sameButLayers α (simulateStep sun α u v a (n * (k * usPerSec)) (k * usPerSec) s).1 b b
  rw [hr, substepLoop_relayered]
  have h1 := simulateStep_strides sun α u v a eff k n hk s hs he
  rw [h1] at ho hf ⊢
  rw [simulateStep_strides sun α u v a eff k (n + m) hk s hs he]
  obtain ⟨p', e', l', hr'⟩ := safetyChain_sameButLayers α s a a
  have hs' : (safetyChain α { s with lastCommand := a } a).1.status = .ok := by rw [hr']; exact hs
  rw [((substepLoop_plus _ n m _ hs').1 ho hf)]
  exact ⟨rfl, rfl⟩

/-- C158. And if the flight has ended or an error has been raised within the first `n` strides, a longer step ends the same way. -/
theorem C158_ended (sun : Sun) (α u v : ℝ) (a eff : Command) (k n m : ℕ) (hk : 0 < k) (s : BState) (hs : s.status = .ok)
    (he : (safetyChain α { s with lastCommand := a } a).2 = .ok eff)
    (h : (simulateStep sun α u v a (n * (k * usPerSec)) (k * usPerSec) s).2 ≠ .ok () ∨
      (simulateStep sun α u v a (n * (k * usPerSec)) (k * usPerSec) s).1.status ≠ .ok) :
    simulateStep sun α u v a ((n + m : ℕ) * (k * usPerSec)) (k * usPerSec) s =
      simulateStep sun α u v a (n * (k * usPerSec)) (k * usPerSec) s := by
  rw [simulateStep_strides sun α u v a eff k n hk s hs he] at h ⊢
  rw [simulateStep_strides sun α u v a eff k (n + m) hk s hs he]
  obtain ⟨p', e', l', hr'⟩ := safetyChain_sameButLayers α s a a
  have hs' : (safetyChain α { s with lastCommand := a } a).1.status = .ok := by rw [hr']; exact hs
  exact (substepLoop_plus _ n m _ hs').2 h

/-- A request to rise is flown. -/
theorem safetyChain_up (α : ℝ) (s : BState) (hcap : s.cap ≠ 0) (amb : AtmVals) (h : atPressure α s.pressure = .ok amb) :
    (safetyChain α s .up).2 = .ok .up := by
  have hp : (if s.powerEnabled = true then s.power.getAction .up s.dateTime s.nightLoad s.charge s.cap
      else (s.power, .ok .up)).2 = .ok .up := by
    split_ifs
    · obtain ⟨h1, h2⟩ := C04_power_only_weakens s.power .up s.dateTime s.nightLoad s.charge s.cap
      cases e : (s.power.getAction .up s.dateTime s.nightLoad s.charge s.cap).2 with
      | error er => exact absurd (h2 er e).1 hcap
      | ok b => rw [h1 b e]; simp
    · rfl
  unfold safetyChain
  simp only
  generalize (if s.powerEnabled = true then s.power.getAction .up s.dateTime s.nightLoad s.charge s.cap
      else (s.power, .ok .up)) = pr at hp
  rcases pr with ⟨pw, r⟩
  simp only at hp
  subst hp
  simp only [h]
  have he : (s.env.getAction .up s.sp).2 = .up := by
    unfold EnvLayer.getAction; simp
  rw [he]
  unfold altGetAction
  simp

/-- The trimmed balloon flies on, at its height, after ten seconds of night, so that two steps of ten seconds of rising, or one of ten
and one of a minute, are one of twenty or of seventy. -/
example (m : ℕ) :
    let t := (simulateStep nightSun 0 3 4 .up ((1 : ℕ) * ((10 : ℕ) * usPerSec)) ((10 : ℕ) * usPerSec) demoFloat).1
    Spec.SameButLayers (simulateStep nightSun 0 3 4 .up ((1 + m : ℕ) * ((10 : ℕ) * usPerSec)) ((10 : ℕ) * usPerSec) demoFloat).1
      (simulateStep nightSun 0 3 4 .up (m * ((10 : ℕ) * usPerSec)) ((10 : ℕ) * usPerSec) t).1 := by
  have hair : ∃ amb, atPressure 0 6000 = .ok amb :=
    ((C45_pressure_domain 0 (by norm_num) (by norm_num) 6000).2.2 (by norm_num)).2 (by norm_num)
  obtain ⟨amb, hamb⟩ := hair
  have he : (safetyChain 0 { demoFloat with lastCommand := .up } .up).2 = .ok .up :=
    safetyChain_up 0 _ (by norm_num [demoFloat, demo]) amb (by exact hamb)
  have hst := simulateStep_strides nightSun 0 3 4 .up .up 10 1 (by norm_num) demoFloat rfl he
  obtain ⟨p, e, l, hr⟩ := safetyChain_sameButLayers 0 demoFloat .up .up
  rw [hr, substepLoop_relayered] at hst
  obtain ⟨sa, hsa⟩ := substep_no_error (s := demoFloat) (sun := nightSun) (α := 0) (by norm_num)
    (by norm_num) 3 4 .up ((10 : ℕ) * usPerSec) (by norm_num [demoFloat, demo]) (by norm_num [demoFloat, demo])
    (by norm_num [demoFloat, demo]) (by norm_num [demoFloat, demo]) (by norm_num [demoFloat, demo])
    (by norm_num [demoFloat, demo]) (by norm_num [demoFloat, demo]) (by norm_num [demoFloat, demo])
    (by norm_num [demoFloat, demo]) (by norm_num [demoFloat, demo]) nightSun_el
  obtain ⟨p', amb', dT, so, n1, n2, n3, n4, ee⟩ := substep_ok hsa
  have hp' : sa.pressure = 6000 := by
    obtain ⟨a0, a1, -, -, -, -, -, q⟩ := newPressure_ok n1
    have hz : demoFloat.rhoAir * demoFloat.vol - demoFloat.systemMass = 0 := by
      simp only [BState.systemMass, demoFloat, BState.rhoAir]; ring
    rw [hz] at q
    simp at q
    rw [ee]; simp only; rw [q]; rfl
  have hcap : sa.cap ≠ 0 := by rw [ee]; norm_num [demoFloat, demo]
  have hnight : ∀ l t, ¬ (nightSun l t).el > minSolarEl := by
    intro l t; norm_num [nightSun, minSolarEl]
  have hok : sa.status = .ok := by
    rw [if_neg (hnight _ _)] at n4
    rw [ee]
    simp only [if_neg (hnight _ _), n4]
    obtain ⟨_, h2, h3⟩ := sp_range (nL := demoFloat.molsLift) (nA := demoFloat.molsAir) (t := demoFloat.intT)
      (p := demoFloat.pressure) (v0 := demoFloat.volBase) (dv := demoFloat.dvdp) (by norm_num [demoFloat, demo])
      (by norm_num [demoFloat, demo]) (by norm_num [demoFloat, demo]) (by norm_num [demoFloat, demo]) (by norm_num [demoFloat, demo])
      (by norm_num [demoFloat, demo])
    have h4 : (superpressureAndVolume demoFloat.molsLift demoFloat.molsAir demoFloat.intT demoFloat.pressure demoFloat.volBase
        demoFloat.dvdp).2 < demoFloat.maxSp := lt_of_le_of_lt h2 (by norm_num [demoFloat, demo])
    unfold newStatus
    simp only
    rw [if_neg, if_neg (not_le.2 h3), if_neg (not_lt.2 h4.le)]
    · rfl
    · rw [not_le]
      unfold clip
      refine lt_min (lt_max_of_lt_left ?_) (by norm_num [demoFloat, demo])
      norm_num [hoursOf, totalSeconds, usPerSec, acsEffect, demoFloat, demo]
  have hl : substepLoop (substep nightSun 0 3 4 .up ((10 : ℕ) * usPerSec)) 1 demoFloat = (sa, .ok ()) := by
    unfold substepLoop
    rw [hsa]
    simp only [hok, ne_eq, not_true_eq_false, if_false]
    rfl
  rw [hl] at hst
  refine (C158_cut nightSun 0 3 4 .up .up .up 10 1 m (by norm_num) demoFloat rfl he (by rw [hst]) (by rw [hst]; exact hok) ?_).1
  rw [hst]
  exact safetyChain_up 0 _ hcap amb (by show atPressure 0 sa.pressure = _; rw [hp']; exact hamb)

end BLE
