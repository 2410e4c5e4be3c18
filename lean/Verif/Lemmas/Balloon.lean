import Verif.Model.Balloon
import Verif.Lemmas.Safety

namespace BLE

/-- `k` consecutive successful sub-steps from `s` to `t`. -/
inductive Iter (step : BState → Except Err BState) : ℕ → BState → BState → Prop
  | refl (s) : Iter step 0 s s
  | cons {k s s' t} : step s = .ok s' → Iter step k s' t → Iter step (k + 1) s t

/-- What one successful sub-step does, component by component. -/
theorem substep_ok {sun : Sun} {α u v : ℝ} {a : Command} {stride : ℤ} {s s' : BState}
    (h : substep sun α u v a stride s = .ok s') :
    ∃ p' amb dT solar,
      newPressure α s stride = .ok p' ∧
      atPressure α s.pressure = .ok amb ∧
      dTempDt s.vol s.envMass s.intT s.ambT s.pressure (sun s.latlng s.dateTime).el
        (sun s.latlng s.dateTime).flux s.upwelling = .ok dT ∧
      (if (sun s.latlng s.dateTime).el > minSolarEl then
        solarPower (sun s.latlng s.dateTime).el s.pressure = .ok solar else solar = 0) ∧
      s' = { s with
        x := s.x + u * totalSeconds stride
        y := s.y + v * totalSeconds stride
        pressure := p'
        ambT := amb.temperature
        intT := s.intT + dT * totalSeconds stride
        vol := (superpressureAndVolume s.molsLift s.molsAir s.intT s.pressure s.volBase s.dvdp).1
        sp := (superpressureAndVolume s.molsLift s.molsAir s.intT s.pressure s.volBase s.dvdp).2
        acsPower := (acsEffect s a).1
        acsFlow := (acsEffect s a).2
        molsAir := max (s.molsAir + (acsEffect s a).2 / airM * totalSeconds stride) 0
        solarCharging := solar
        powerLoad := (if (sun s.latlng s.dateTime).el > minSolarEl then s.dayLoad else s.nightLoad) +
          (acsEffect s a).1
        charge := clip (s.charge + (solar -
          ((if (sun s.latlng s.dateTime).el > minSolarEl then s.dayLoad else s.nightLoad) +
            (acsEffect s a).1)) * hoursOf stride) 0 s.cap
        status := newStatus s.status s.maxSp
          (superpressureAndVolume s.molsLift s.molsAir s.intT s.pressure s.volBase s.dvdp).2
          (clip (s.charge + (solar -
          ((if (sun s.latlng s.dateTime).el > minSolarEl then s.dayLoad else s.nightLoad) +
            (acsEffect s a).1)) * hoursOf stride) 0 s.cap)
        dateTime := s.dateTime + stride
        timeElapsed := s.timeElapsed + stride } := by
  unfold substep at h
  simp only [bind, Except.bind, pure, Except.pure] at h
  split at h
  · cases h
  rename_i p' hp
  split at h
  · cases h
  rename_i amb hamb
  split at h
  · cases h
  rename_i dT hdT
  by_cases c : (sun s.latlng s.dateTime).el > minSolarEl
  · simp only [c, decide_true, if_true] at h
    split at h
    · cases h
    rename_i solar hsolar
    refine ⟨p', amb, dT, solar, hp, hamb, hdT, ?_, ?_⟩
    · rw [if_pos c]; exact hsolar
    · injection h with h
      rw [← h]
      simp only [if_pos c]
  · simp only [c, decide_false, Bool.false_eq_true, if_false] at h
    refine ⟨p', amb, dT, 0, hp, hamb, hdT, ?_, ?_⟩
    · rw [if_neg c]
    · injection h with h
      rw [← h]
      simp only [if_neg c]

/-- Conversely, if the four fallible parts succeed the sub-step succeeds. -/
theorem substep_succeeds {sun : Sun} {α u v : ℝ} {a : Command} {stride : ℤ} {s : BState}
    {p' dT : ℝ} {amb : AtmVals} {solar : ℝ}
    (hp : newPressure α s stride = .ok p') (hamb : atPressure α s.pressure = .ok amb)
    (hdT : dTempDt s.vol s.envMass s.intT s.ambT s.pressure (sun s.latlng s.dateTime).el
        (sun s.latlng s.dateTime).flux s.upwelling = .ok dT)
    (hs : (sun s.latlng s.dateTime).el > minSolarEl →
      solarPower (sun s.latlng s.dateTime).el s.pressure = .ok solar) :
    ∃ s', substep sun α u v a stride s = .ok s' := by
  unfold substep
  simp only [bind, Except.bind, pure, Except.pure, hp, hamb, hdT]
  by_cases c : (sun s.latlng s.dateTime).el > minSolarEl
  · simp [c, hs c]
  · simp [c]

theorem substepLoop_spec (step : BState → Except Err BState) (n : ℕ) (s : BState) :
    ∃ k ≤ n, Iter step k s (substepLoop step n s).1 ∧
      ((substepLoop step n s).2 = .ok () → ((substepLoop step n s).1.status = .ok → k = n)) ∧
      ((substepLoop step n s).2 = .ok () → 0 < n → 0 < k) ∧
      (s.status = .ok → (substepLoop step n s).1.status ≠ .ok → 0 < k ∧ (substepLoop step n s).2 = .ok ()) ∧
      (∀ e, (substepLoop step n s).2 = .error e →
        step (substepLoop step n s).1 = .error e ∧ (s.status = .ok → (substepLoop step n s).1.status = .ok)) := by
  induction n generalizing s with
  | zero =>
    refine ⟨0, le_refl _, .refl s, fun _ _ => rfl, fun _ h => absurd h (lt_irrefl 0), ?_, ?_⟩
    · intro h1 h2; exact absurd h1 h2
    · intro e he; cases he
  | succ n ih =>
    cases hs : step s with
    | error e =>
      simp only [substepLoop, hs]
      refine ⟨0, Nat.zero_le _, .refl s, by simp, by simp, ?_, ?_⟩
      · intro h1 h2; exact absurd h1 h2
      · intro e' he'; injection he' with he'; subst he'; exact ⟨rfl, id⟩
    | ok s' =>
      by_cases hst : s'.status = .ok
      · obtain ⟨k, hk, hit, h1, h2, h3, h4⟩ := ih s'
        simp only [substepLoop, hs, hst, ne_eq, not_true_eq_false, if_false]
        refine ⟨k + 1, by omega, .cons hs hit, ?_, fun _ _ => Nat.succ_pos _, ?_, ?_⟩
        · intro ha hb; rw [h1 ha hb]
        · intro _ hb; exact ⟨Nat.succ_pos _, (h3 hst hb).2⟩
        · intro e he
          exact ⟨(h4 e he).1, fun _ => (h4 e he).2 hst⟩
      · simp only [substepLoop, hs, hst, ne_eq, not_false_eq_true, if_true]
        refine ⟨1, by omega, .cons hs (.refl _), ?_, fun _ _ => Nat.one_pos, ?_, ?_⟩
        · intro _ hb; first | exact absurd hb hst | simp at hb
        · intro _ _; exact ⟨Nat.one_pos, by trivial⟩
        · intro e he; cases he

/-- The loop keeps any property kept by every successful sub-step. -/
theorem Iter.invariant {step : BState → Except Err BState} {P : BState → Prop}
    (hP : ∀ s s', step s = .ok s' → P s → P s') {k : ℕ} {s t : BState} (h : Iter step k s t)
    (hs : P s) : P t := by
  induction h with
  | refl => exact hs
  | cons h1 _ ih => exact ih (hP _ _ h1 hs)

/-- Transitive relation kept along the loop. -/
theorem Iter.rel {step : BState → Except Err BState} {R : ℕ → BState → BState → Prop}
    (h0 : ∀ s, R 0 s s) (hR : ∀ k s s' t, step s = .ok s' → R k s' t → R (k + 1) s t)
    {k : ℕ} {s t : BState} (h : Iter step k s t) : R k s t := by
  induction h with
  | refl => exact h0 _
  | cons h1 _ ih => exact hR _ _ _ _ h1 ih

/-- The safety chain touches only the three layers. -/
theorem safetyChain_state (α : ℝ) (s : BState) (a : Command) :
    ∃ pw ev al, (safetyChain α s a).1 = { s with power := pw, env := ev, alt := al } := by
  unfold safetyChain
  simp only
  split
  · exact ⟨_, s.env, s.alt, rfl⟩
  · split
    · exact ⟨_, _, s.alt, rfl⟩
    · exact ⟨_, _, _, rfl⟩

theorem simulateStep_unfold {sun : Sun} {α u v : ℝ} {a : Command} {dt stride : ℤ} {s : BState}
    (hst : s.status = .ok) :
    simulateStep sun α u v a dt stride s =
      match safetyChain α { s with lastCommand := a } a with
      | (s1, .error e) => (s1, .error e)
      | (s1, .ok eff) =>
        if Int.tdiv stride usPerSec = 0 then (s1, .error .zeroDivision)
        else if Int.fmod (Int.tdiv dt usPerSec) (Int.tdiv stride usPerSec) ≠ 0 then (s1, .error .assertion)
        else substepLoop (substep sun α u v eff stride)
          (Int.fdiv (Int.tdiv dt usPerSec) (Int.tdiv stride usPerSec)).toNat s1 := by
  unfold simulateStep
  simp only
  rw [if_neg (not_not.2 hst)]
  generalize safetyChain α { s with lastCommand := a } a = r
  rcases r with ⟨_, _ | _⟩ <;> rfl

/-- `simulateStep` outcome: either no sub-step ran (error), or the loop ran from the state with the
command recorded and the layers updated. -/
theorem simulateStep_cases (sun : Sun) (α u v : ℝ) (a : Command) (dt stride : ℤ) (s : BState) :
    (∃ e, (simulateStep sun α u v a dt stride s).2 = .error e ∧
      ((s.status ≠ .ok ∧ e = .assertion ∧ (simulateStep sun α u v a dt stride s).1 = { s with lastCommand := a }) ∨
       (s.status = .ok ∧ (simulateStep sun α u v a dt stride s).1 = (safetyChain α { s with lastCommand := a } a).1))) ∨
    (s.status = .ok ∧ Int.tdiv stride usPerSec ≠ 0 ∧
      Int.fmod (Int.tdiv dt usPerSec) (Int.tdiv stride usPerSec) = 0 ∧
      ∃ s1 eff, safetyChain α { s with lastCommand := a } a = (s1, .ok eff) ∧
      simulateStep sun α u v a dt stride s = substepLoop (substep sun α u v eff stride)
        (Int.fdiv (Int.tdiv dt usPerSec) (Int.tdiv stride usPerSec)).toNat s1) := by
  by_cases hst : s.status = .ok
  · rw [simulateStep_unfold hst]
    generalize hc : safetyChain α { s with lastCommand := a } a = r
    obtain ⟨s1, r⟩ := r
    cases r with
    | error e => left; exact ⟨e, rfl, Or.inr ⟨hst, rfl⟩⟩
    | ok eff =>
      by_cases hi : Int.tdiv stride usPerSec = 0
      · left; exact ⟨.zeroDivision, by simp only [if_pos hi], Or.inr ⟨hst, by simp only [if_pos hi]⟩⟩
      · by_cases hm : Int.fmod (Int.tdiv dt usPerSec) (Int.tdiv stride usPerSec) = 0
        · right
          refine ⟨hst, hi, hm, s1, eff, rfl, ?_⟩
          simp only [if_neg hi]
          rw [if_neg (not_not.2 hm)]
        · left
          exact ⟨.assertion, by simp only [if_neg hi]; rw [if_pos hm],
            Or.inr ⟨hst, by simp only [if_neg hi]; rw [if_pos hm]⟩⟩
  · left
    refine ⟨.assertion, ?_, Or.inl ⟨hst, rfl, ?_⟩⟩ <;>
    · unfold simulateStep
      simp only
      rw [if_pos hst]

/-- A state predicate that depends neither on the layers nor on the last command and is kept by every
sub-step is kept by every call of `simulate_step`, failing or not. -/
theorem simulateStep_invariant {P : BState → Prop} {sun : Sun} {α : ℝ}
    (hcmd : ∀ s a pw ev al, P s → P { s with lastCommand := a, power := pw, env := ev, alt := al })
    {u v : ℝ} {stride : ℤ}
    (hsub : ∀ a s s', substep sun α u v a stride s = .ok s' → P s → P s')
    (a : Command) (dt : ℤ) (s : BState) (hs : P s) : P (simulateStep sun α u v a dt stride s).1 := by
  have hch : P (safetyChain α { s with lastCommand := a } a).1 := by
    obtain ⟨pw, ev, al, h⟩ := safetyChain_state α { s with lastCommand := a } a
    rw [h]; exact hcmd s a pw ev al hs
  rcases simulateStep_cases sun α u v a dt stride s with ⟨e, _, h⟩ | ⟨_, _, _, s1, eff, hc, h⟩
  · rcases h with ⟨_, _, h⟩ | ⟨_, h⟩
    · rw [h]; exact hcmd s a s.power s.env s.alt hs
    · rw [h]; exact hch
  · rw [h]
    obtain ⟨k, _, hit, _⟩ := substepLoop_spec (substep sun α u v eff stride)
      (Int.fdiv (Int.tdiv dt usPerSec) (Int.tdiv stride usPerSec)).toNat s1
    rw [hc] at hch
    exact hit.invariant (fun s s' h hp => hsub eff s s' h hp) hch

theorem simulateMany_invariant {P : BState → Prop} {sun : Sun} {α : ℝ}
    (hcmd : ∀ s a pw ev al, P s → P { s with lastCommand := a, power := pw, env := ev, alt := al })
    {G : StepCall → Prop}
    (hsub : ∀ c, G c → ∀ a s s', substep sun α c.u c.v a c.stride s = .ok s' → P s → P s')
    (calls : List StepCall) (hG : ∀ c ∈ calls, G c) (s : BState) (hs : P s) :
    P (simulateMany sun α s calls) := by
  unfold simulateMany
  induction calls generalizing s with
  | nil => exact hs
  | cons c cs ih =>
    simp only [List.foldl_cons]
    exact ih (fun c hc => hG c (by simp [hc])) _
      (simulateStep_invariant hcmd (hsub c (hG c (by simp))) c.action c.timeDelta s hs)

end BLE
