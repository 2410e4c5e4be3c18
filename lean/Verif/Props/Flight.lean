import Verif.Props.Balloon
import Verif.Lemmas.Drift

/-!
# C80–C83: exceptions, vehicle constants, energy accounting, fractional strides
-/

namespace BLE

/-- The vehicle data that make the equations of motion meaningful: positive drag, envelope mass and
lift gas, an envelope model with positive base volume, upwelling infrared in [1, 1000] W/m². -/
structure Spec.SoundVehicle (s : BState) : Prop where
  cod : 0 < s.cod
  envMass : s.envMass ≠ 0
  lift : 0 < s.molsLift
  base : 0 < s.volBase
  dv : 0 ≤ s.dvdp
  cap : s.cap ≠ 0
  ir0 : 1 ≤ s.upwelling
  ir1 : s.upwelling ≤ 1000

theorem totalAbsorptivity_arg {a r : ℝ} (h : totalAbsorptivity a 0.0291 = .ok r) : 0 ≤ a := by
  unfold totalAbsorptivity at h
  rw [pyDiv_ok (by norm_num)] at h
  simp only at h
  have e : a * (1 + (1 - a - 0.0291) / (1 - 0.0291)) = a * (1.9418 - a) / 0.9709 := by
    field_simp; norm_num; ring
  rw [e] at h
  split_ifs at h with c
  push Not at c
  by_contra hn
  have := c.1
  rw [le_div_iff₀ (by norm_num)] at this
  nlinarith

theorem dTempDt_temp {vol mass tb ta p el sf ef d : ℝ} (h : dTempDt vol mass tb ta p el sf ef = .ok d) :
    0 < tb := by
  unfold dTempDt at h
  simp only [bind, Except.bind] at h
  split at h
  · cases h
  split at h
  · cases h
  split at h
  · cases h
  split at h
  · cases h
  rename_i aB hB
  have := totalAbsorptivity_arg hB
  unfold absorptivityIr at this
  norm_num at this
  linarith

theorem atPressure_temp {α p : ℝ} (h0 : 0 ≤ α) (h1 : α ≤ 1) {v : AtmVals} (h : atPressure α p = .ok v) :
    100 < v.temperature ∧ 0 < p := by
  obtain ⟨e, r⟩ := C43_pressure_roundtrip α h0 h1 p v h
  obtain ⟨h1, _, h3, _⟩ := C44_positive α h0 h1 _ v r
  exact ⟨h1, e ▸ h3⟩

/-- What keeps holding along the flight besides the envelope limits. -/
structure Airborne (s : BState) : Prop extends Spec.SoundVehicle s where
  ambT : 0 < s.ambT
  vol : 0 < s.vol
  air : 0 ≤ s.molsAir

theorem airborne_substep {sun : Sun} {α : ℝ} (h0 : 0 ≤ α) (h1 : α ≤ 1) {u v : ℝ} {a : Command} {stride : ℤ}
    {s s' : BState} (h : substep sun α u v a stride s = .ok s') (hs : Airborne s) : Airborne s' := by
  obtain ⟨_, amb, dT, _, _, hamb, hdT, _, rfl⟩ := substep_ok h
  obtain ⟨t1, t2⟩ := atPressure_temp h0 h1 hamb
  have ht := dTempDt_temp hdT
  exact { cod := hs.cod, envMass := hs.envMass, lift := hs.lift, base := hs.base, dv := hs.dv, cap := hs.cap
          ir0 := hs.ir0, ir1 := hs.ir1
          ambT := by simp only; linarith
          vol := (volume_pos _ _ _ _ _ _ (by linarith [hs.lift, hs.air]) ht t2 hs.base hs.dv).1
          air := le_max_right _ _ }

theorem airborne_step {sun : Sun} {α : ℝ} (h0 : 0 ≤ α) (h1 : α ≤ 1) {u v : ℝ} (a : Command) (dt stride : ℤ)
    (s : BState) (hs : Airborne s) : Airborne (simulateStep sun α u v a dt stride s).1 :=
  simulateStep_invariant (P := Airborne)
    (fun s a pw ev al h => { cod := h.cod, envMass := h.envMass, lift := h.lift, base := h.base, dv := h.dv,
                             cap := h.cap, ir0 := h.ir0, ir1 := h.ir1, ambT := h.ambT, vol := h.vol, air := h.air })
    (fun _ _ _ h hp => airborne_substep h0 h1 h hp) a dt s hs

/-! ## C80 — no surprise exceptions -/

/-- C80. A balloon with sound vehicle data that is still flying can be stepped by any command, wind
and whole number of whole-second strides; the call raises only if the balloon has left the pressure
range [101, 101325] Pa or the gas-temperature range [13, 8000] K, either before the step or at the
sub-step it stopped at. -/
theorem C80_no_exception (sun : Sun) (hel : ∀ l t, -90 ≤ (sun l t).el ∧ (sun l t).el ≤ 90) (α : ℝ)
    (h0 : 0 ≤ α) (h1 : α ≤ 1) (u v : ℝ) (a : Command) (D d : ℕ) (hd : 0 < d) (hdD : d ∣ D) (s : BState)
    (hok : s.status = .ok) (hveh : Spec.SoundVehicle s) (hT : 0 < s.ambT) (hvol : 0 < s.vol)
    (hair : 0 ≤ s.molsAir) (e : Err)
    (herr : (simulateStep sun α u v a (D * usPerSec) (d * usPerSec) s).2 = .error e) :
    ¬ (101 ≤ s.pressure ∧ s.pressure ≤ 101325) ∨
    ¬ (let t := (simulateStep sun α u v a (D * usPerSec) (d * usPerSec) s).1
      101 ≤ t.pressure ∧ t.pressure ≤ 101325 ∧ 13 ≤ t.intT ∧ t.intT ≤ 8000) := by
  by_cases hp : 101 ≤ s.pressure ∧ s.pressure ≤ 101325
  swap
  · left; exact hp
  right
  intro hh
  obtain ⟨p1, p2, t1, t2⟩ := hh
  have hb := airborne_step (sun := sun) h0 h1 (u := u) (v := v) a (D * usPerSec) (d * usPerSec) s
    { cod := hveh.cod, envMass := hveh.envMass, lift := hveh.lift, base := hveh.base, dv := hveh.dv
      cap := hveh.cap, ir0 := hveh.ir0, ir1 := hveh.ir1, ambT := hT, vol := hvol, air := hair }
  rcases C18_only_then sun α u v a D d hd s hok hdD hveh.cap
    (atPressure_in h0 h1 (by linarith [hp.1]) (by linarith [hp.2])) with h | ⟨e', eff, _, h⟩
  · rw [h] at herr; cases herr
  · obtain ⟨s', hs'⟩ := substep_no_error h0 h1 u v eff (d * usPerSec) p1 p2 hb.ambT hb.vol hb.cod hb.envMass
      t1 t2 hb.ir0 hb.ir1 hel
    rw [hs'] at h
    cases h

theorem demo_sound : Spec.SoundVehicle demo := by
  constructor <;> norm_num [demo]

example : Spec.SoundVehicle demo ∧ 0 < demo.ambT ∧ 0 < demo.vol ∧ 0 ≤ demo.molsAir ∧
    (∀ l t, -90 ≤ (nightSun l t).el ∧ (nightSun l t).el ≤ 90) :=
  ⟨demo_sound, by norm_num [demo], by norm_num [demo], by norm_num [demo], nightSun_el⟩

/-- C80 for a single stride: inside the envelope the call succeeds. -/
theorem C80_single_stride (sun : Sun) (hel : ∀ l t, -90 ≤ (sun l t).el ∧ (sun l t).el ≤ 90) (α : ℝ)
    (h0 : 0 ≤ α) (h1 : α ≤ 1) (u v : ℝ) (a : Command) (d : ℕ) (hd : 0 < d) (s : BState)
    (hok : s.status = .ok) (hveh : Spec.SoundVehicle s) (hT : 0 < s.ambT) (hvol : 0 < s.vol)
    (hp : 101 ≤ s.pressure) (hp' : s.pressure ≤ 101325) (ht : 13 ≤ s.intT) (ht' : s.intT ≤ 8000) :
    (simulateStep sun α u v a (d * usPerSec) (d * usPerSec) s).2 = .ok () := by
  have e2 : Int.tdiv (d * usPerSec) usPerSec = d := Int.mul_tdiv_cancel _ (by decide)
  have e3 : (Int.fdiv (d : ℤ) d).toNat = 0 + 1 := by rw [Int.fdiv_self (by omega)]; rfl
  rcases simulateStep_cases sun α u v a (d * usPerSec) (d * usPerSec) s with
    ⟨e, he, h⟩ | ⟨_, _, _, s1, eff, hc, he⟩
  · exfalso
    rcases C18_only_then sun α u v a d d hd s hok (dvd_refl d) hveh.cap
      (atPressure_in h0 h1 (by linarith) (by linarith)) with h' | ⟨e', eff, _, h'⟩
    · rw [h'] at he; cases he
    · rcases h with ⟨h, _⟩ | ⟨_, h⟩
      · exact h hok
      · obtain ⟨pw, ev, al, hs⟩ := safetyChain_state α { s with lastCommand := a } a
        rw [h, hs] at h'
        obtain ⟨s', hs'⟩ := substep_no_error (sun := sun) (α := α)
          (s := { s with lastCommand := a, power := pw, env := ev, alt := al }) h0 h1 u v eff (d * usPerSec) hp hp' hT hvol
          hveh.cod hveh.envMass ht ht' hveh.ir0 hveh.ir1 hel
        rw [hs'] at h'
        cases h'
  · obtain ⟨pw, ev, al, hs⟩ := safetyChain_state α { s with lastCommand := a } a
    rw [hc] at hs
    simp only at hs
    obtain ⟨s', hs'⟩ := substep_no_error (sun := sun) (α := α)
          (s := { s with lastCommand := a, power := pw, env := ev, alt := al }) h0 h1 u v eff (d * usPerSec) hp hp' hT hvol
          hveh.cod hveh.envMass ht ht' hveh.ir0 hveh.ir1 hel
    rw [he, e2, e3, substepLoop, hs, hs']
    simp only [substepLoop]
    split_ifs <;> rfl

/-! ## C81 — flying never changes the vehicle -/

/-- C81. No sequence of calls changes the station, the vehicle constants, the lift gas, the infrared
environment, the rated maximum known to the safety layer or whether power safety is enabled. -/
theorem C81_vehicle_constant (sun : Sun) (α : ℝ) (s : BState) (calls : List StepCall) :
    let t := simulateMany sun α s calls
    t.center = s.center ∧ t.volBase = s.volBase ∧ t.dvdp = s.dvdp ∧ t.envMass = s.envMass ∧
    t.maxSp = s.maxSp ∧ t.cod = s.cod ∧ t.payload = s.payload ∧ t.nightLoad = s.nightLoad ∧
    t.dayLoad = s.dayLoad ∧ t.valveDiam = s.valveDiam ∧ t.cap = s.cap ∧ t.molsLift = s.molsLift ∧
    t.upwelling = s.upwelling ∧ t.powerEnabled = s.powerEnabled := by
  refine simulateMany_invariant (P := fun t => t.center = s.center ∧ t.volBase = s.volBase ∧ t.dvdp = s.dvdp ∧ t.envMass = s.envMass ∧
    t.maxSp = s.maxSp ∧ t.cod = s.cod ∧ t.payload = s.payload ∧ t.nightLoad = s.nightLoad ∧
    t.dayLoad = s.dayLoad ∧ t.valveDiam = s.valveDiam ∧ t.cap = s.cap ∧ t.molsLift = s.molsLift ∧
    t.upwelling = s.upwelling ∧ t.powerEnabled = s.powerEnabled)
    (sun := sun) (α := α) (G := fun _ => True) (fun s a pw ev al h => h) ?_ calls (fun _ _ => trivial) s (by simp)
  rintro c - a r r' h hr
  obtain ⟨_, _, _, _, _, _, _, _, rfl⟩ := substep_ok h
  exact hr

/-- C81. The rated maximum stored in the envelope layer never changes either, so the safety layer and
the burst test keep using the same number once they agree. -/
theorem C81_layer_rating (sun : Sun) (α : ℝ) (s : BState) (calls : List StepCall) :
    (simulateMany sun α s calls).env.maxSp = s.env.maxSp := by
  have hch : ∀ α s a, (safetyChain α s a).1.env.maxSp = s.env.maxSp := by
    intro α s a
    unfold safetyChain EnvLayer.getAction
    simp only
    repeat' split
    all_goals rfl
  unfold simulateMany
  induction calls using List.reverseRecOn with
  | nil => rfl
  | append_singleton cs c ih =>
    rw [List.foldl_append]
    simp only [List.foldl_cons, List.foldl_nil]
    refine Eq.trans ?_ ih
    generalize List.foldl (fun s c => (simulateStep sun α c.u c.v c.action c.timeDelta c.stride s).1) s cs = r
    rcases simulateStep_cases sun α c.u c.v c.action c.timeDelta c.stride r with ⟨e, _, h⟩ | ⟨_, _, _, s1, eff, hc, h⟩
    · rcases h with ⟨_, _, h⟩ | ⟨_, h⟩
      · rw [h]
      · rw [h, hch]
    · rw [h]
      obtain ⟨k, _, hit, _⟩ := substepLoop_spec (substep sun α c.u c.v eff c.stride)
        (Int.fdiv (Int.tdiv c.timeDelta usPerSec) (Int.tdiv c.stride usPerSec)).toNat s1
      have h1 := hch α { r with lastCommand := c.action } c.action
      rw [hc] at h1
      refine hit.invariant (P := fun s => s.env.maxSp = r.env.maxSp) (fun s s' h hp => ?_) h1
      obtain ⟨_, _, _, _, _, _, _, _, rfl⟩ := substep_ok h
      exact hp

/-! ## C82 — energy accounting -/

/-- C82. One sub-step: the battery gains exactly (solar power − load) × hours as far as [0, capacity]
allows; the load is the hotel load of day or night plus the compressor power, which is non-zero only
when DOWN is flown; at night nothing is collected. -/
theorem C82_energy_balance (sun : Sun) (α u v : ℝ) (a : Command) (stride : ℤ) (s s' : BState)
    (h : substep sun α u v a stride s = .ok s') :
    s'.charge = min (max (s.charge + (s'.solarCharging - s'.powerLoad) *
      ((stride : ℝ) / 1000000 / 3600)) 0) s.cap ∧
    s'.powerLoad = (if (sun s.latlng s.dateTime).el > -4.242 then s.dayLoad else s.nightLoad) + s'.acsPower ∧
    ((sun s.latlng s.dateTime).el ≤ -4.242 → s'.solarCharging = 0) ∧
    (a ≠ .down → s'.acsPower = 0) ∧ (a = .down → 100 ≤ s'.acsPower ∧ s'.acsPower ≤ 400) := by
  obtain ⟨_, _, _, solar, _, _, _, hsol, rfl⟩ := substep_ok h
  have hel : minSolarEl = -4.242 := rfl
  rw [hel] at hsol
  refine ⟨rfl, rfl, ?_, ?_, ?_⟩
  · intro hn
    rw [if_neg (not_lt.2 hn)] at hsol
    exact hsol
  · intro hn
    cases a
    · exact absurd rfl hn
    · rfl
    · rfl
  · rintro rfl
    exact mostEfficientPower_bounds _

/-- C82. Through the night (sun at or below −4.242° until `T`, wherever the winds can carry the balloon) the charge never
increases, for any sequence of commands, whole-step lengths and strides, when the hotel load is non-negative. -/
theorem C82_night_drains (sun : Sun) (α : ℝ) (s : BState) (w : ℝ) (T : ℤ) (hdark : Spec.DarkAround sun s w T)
    (calls : List StepCall) (hwind : ∀ c ∈ calls, Real.sqrt (c.u ^ 2 + c.v ^ 2) ≤ w) (hst : ∀ c ∈ calls, 0 < c.stride)
    (hload : 0 ≤ s.nightLoad) (h0 : 0 ≤ s.charge) (hT : (simulateMany sun α s calls).dateTime ≤ T) :
    (simulateMany sun α s calls).charge ≤ s.charge := by
  have := simulateMany_invariant (P := fun t => Drifted s w t ∧ t.nightLoad = s.nightLoad ∧ (t.dateTime ≤ T → t.charge ≤ s.charge))
    (sun := sun) (α := α) (G := fun c => 0 < c.stride ∧ Real.sqrt (c.u ^ 2 + c.v ^ 2) ≤ w)
    (fun x a pw ev al h => ⟨⟨h.1.center, h.1.later, h.1.near⟩, h.2⟩) ?_ calls (fun c hc => ⟨hst c hc, hwind c hc⟩) s
    ⟨drifted_self s w, rfl, fun _ => le_refl _⟩
  · exact this.2.2 hT
  · rintro c ⟨hc, hw⟩ a r r' h ⟨h1, h2, h3⟩
    obtain ⟨e1, e2, e3, e4, e5⟩ := C82_energy_balance _ _ _ _ _ _ _ _ h
    obtain ⟨hn, hd⟩ : r'.nightLoad = r.nightLoad ∧ r'.dateTime = r.dateTime + c.stride := by
      obtain ⟨_, _, _, _, _, _, _, _, rfl⟩ := substep_ok h; exact ⟨rfl, rfl⟩
    refine ⟨drifted_substep hc.le hw h h1, hn.trans h2, fun hle => ?_⟩
    have hnight := h1.dark hdark (by omega)
    rw [e3 hnight, e2, if_neg (not_lt.2 hnight)] at e1
    have hacs : 0 ≤ r'.acsPower := by
      by_cases hd : a = .down
      · linarith [(e5 hd).1]
      · rw [e4 hd]
    rw [e1]
    refine (min_le_left _ _).trans (max_le ?_ h0)
    have hs : (0 : ℝ) ≤ (c.stride : ℝ) / 1000000 / 3600 := by
      have : (0 : ℝ) ≤ c.stride := by exact_mod_cast hc.le
      positivity
    have : 0 ≤ (r.nightLoad + r'.acsPower) * ((c.stride : ℝ) / 1000000 / 3600) :=
      mul_nonneg (by rw [h2]; linarith) hs
    have := h3 (by omega)
    nlinarith

example : Spec.DarkAround nightSun demo 50 (demo.dateTime + 3600 * usPerSec) ∧ 0 ≤ demo.nightLoad ∧ 0 ≤ demo.charge :=
  ⟨fun _ _ _ _ _ _ => by norm_num [nightSun], by norm_num [demo], by norm_num [demo]⟩

end BLE
