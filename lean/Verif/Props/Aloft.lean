import Verif.Props.Heat
import Verif.Lemmas.Sink

/-!
# C135: an episode stays inside the simulator's atmosphere, whatever is commanded
-/

namespace BLE

/-! ## What is carried along a flight -/

/-- The stock balloon where its flight can take it. While it flies, volume and superpressure solve the envelope equations of
the pressure `q`, gas `n` and temperature `T` of one sub-step before, and the gas on board is bounded. -/
structure AloftInv (s : BState) : Prop extends Spec.Temperate s where
  cod : s.cod = 0.25
  range : 2200 ≤ s.pressure ∧ s.pressure ≤ 36500
  ended : s.sp ≤ 4 * s.pressure
  live : s.status = .ok → 2360 ≤ s.pressure ∧ s.pressure ≤ 34000 ∧ 0 < s.sp ∧ s.vol = 1804 + 0.0199 * s.sp ∧
    6830 + s.molsAir ≤ 23000 ∧ ∃ q n T : ℝ, (q + s.sp) * s.vol = n * 8.3144621 * T ∧ 160 ≤ T ∧ T ≤ 300 ∧ 6830 ≤ n ∧
      6830 + s.molsAir ≤ n + 16 ∧ q - 0.063 * (q + 1) ≤ s.pressure ∧ 0 < q

/-- How much air a sub-step of at most ten seconds can add. -/
theorem air_step (s : BState) (a : Command) {τ : ℝ} (h0 : 0 ≤ τ) (h1 : τ ≤ 10) (ha : 0 ≤ s.molsAir) :
    max (s.molsAir + (acsEffect s a).2 / airM * τ) 0 ≤ s.molsAir + if a = .down then 16 else 0 := by
  have hM : 0 < airM := by norm_num [airM]
  refine max_le ?_ (by split_ifs <;> linarith)
  cases a with
  | up =>
    simp only [acsEffect]
    have : -1 * 0.62 * (Real.pi * s.valveDiam ^ 2 / 4) * Real.sqrt (2 * s.sp * ((s.sp + s.pressure) * airM / (gasR * s.intT)))
        / airM * τ ≤ 0 := by
      refine mul_nonpos_of_nonpos_of_nonneg (div_nonpos_of_nonpos_of_nonneg ?_ hM.le) h0
      have : 0 ≤ 0.62 * (Real.pi * s.valveDiam ^ 2 / 4) *
          Real.sqrt (2 * s.sp * ((s.sp + s.pressure) * airM / (gasR * s.intT))) := by
        have := Real.pi_pos
        positivity
      linarith
    simp
    simp at this
    linarith
  | down =>
    simp only [acsEffect, if_true]
    obtain ⟨e0, e1⟩ := fanEfficiency_bounds s.pressureRatio (mostEfficientPower s.pressureRatio)
    obtain ⟨w0, w1⟩ := mostEfficientPower_bounds s.pressureRatio
    have k : massFlow (mostEfficientPower s.pressureRatio) (fanEfficiency s.pressureRatio (mostEfficientPower s.pressureRatio)) ≤
        0.4 * 400 / 3600 := by
      unfold massFlow
      refine div_le_div_of_nonneg_right (mul_le_mul e1 w1 (by linarith) (by norm_num)) (by norm_num)
    have k2 : massFlow (mostEfficientPower s.pressureRatio)
        (fanEfficiency s.pressureRatio (mostEfficientPower s.pressureRatio)) / airM * τ ≤ 0.4 * 400 / 3600 / airM * 10 := by
      refine mul_le_mul (div_le_div_of_nonneg_right k hM.le) h1 h0 (by positivity)
    have k3 : 0.4 * 400 / 3600 / airM * 10 ≤ (16 : ℝ) := by norm_num [airM]
    linarith
  | stay => simp [acsEffect]

theorem aloft_substep {sun : Sun} (hsun : ∀ l t, 0 ≤ (sun l t).flux ∧ (sun l t).flux ≤ 1500) {α : ℝ} (h0 : 0 ≤ α)
    (h1 : α ≤ 1) {u v : ℝ} {a : Command} {stride : ℤ} (hs0 : 0 ≤ stride) (hs1 : stride ≤ 10 * usPerSec) {s s' : BState}
    (hok : s.status = .ok) (hs : AloftInv s) (hroom : a = .down → 6830 + s.molsAir + 16 ≤ 23000)
    (h : substep sun α u v a stride s = .ok s') :
    AloftInv s' ∧ s'.molsAir ≤ s.molsAir + if a = .down then 16 else 0 := by
  have hT' := temperate_substep hsun h0 h1 hs0 hs1 hok hs.toTemperate h
  obtain ⟨p', amb, dT, solar, hnp, hamb, -, -, hs'⟩ := substep_ok h
  have hτ0 : 0 ≤ totalSeconds stride := by
    unfold totalSeconds
    have : (0 : ℝ) ≤ stride := by exact_mod_cast hs0
    positivity
  have hτ1 : totalSeconds stride ≤ 10 := by
    unfold totalSeconds usPerSec at *
    rw [div_le_iff₀ (by norm_num)]
    have : (stride : ℝ) ≤ 10 * 1000000 := by exact_mod_cast hs1
    norm_num at *
    linarith
  obtain ⟨p0, p1, sp0, hvol, hn, q, n, T, hqn, T0, T1, n0, n1, hq, hq0⟩ := hs.live hok
  have sp1 := (hs.taut hok).2
  have hair := hs.air
  have hairs := air_step s a hτ0 hτ1 hair
  -- the move
  have hsm : s.systemMass ≤ airM * (6830 + s.molsAir) ∧ 0 ≤ s.systemMass := by
    unfold BState.systemMass
    rw [hs.molsLift, hs.envMass, hs.payload]
    norm_num [heM, airM]
    constructor <;> linarith
  obtain ⟨m0, m1⟩ := newPressure_range h0 h1 hτ0 hτ1 hnp hs.cod (by rw [hvol]; linarith) (by rw [hvol]; norm_num; linarith)
    (by linarith [hs.ambient.1]) hs.ambient.2 (by linarith) hsm.2 (n := 6830 + s.molsAir) (by linarith) hsm.1
  have mroot : Real.sqrt (0.00545 * (6830 + s.molsAir) * s.pressure) ≤ 2065 ∧
      (s.pressure ≤ 31900 → Real.sqrt (0.00545 * (6830 + s.molsAir) * s.pressure) ≤ 2000) := by
    constructor
    · rw [Real.sqrt_le_left (by norm_num)]
      have : (6830 + s.molsAir) * s.pressure ≤ 23000 * 34000 := mul_le_mul hn p1 (by linarith) (by norm_num)
      norm_num at this ⊢
      linarith
    · intro hp
      rw [Real.sqrt_le_left (by norm_num)]
      have : (6830 + s.molsAir) * s.pressure ≤ 23000 * 31900 := mul_le_mul hn hp (by linarith) (by norm_num)
      norm_num at this ⊢
      linarith
  -- the new envelope
  have hgas0 := hs.gas.1
  have hgas1 := hs.gas.2
  have hbal := C14_solves s.molsLift s.molsAir s.intT s.pressure s.volBase s.dvdp (by rw [hs.molsLift]; linarith)
    (by linarith) (by linarith) (by rw [hs.volBase]; norm_num) (by rw [hs.dvdp]; norm_num)
  rw [hs.molsLift, hs.volBase, hs.dvdp] at hbal
  have esp : s'.sp = (superpressureAndVolume 6830 s.molsAir s.intT s.pressure 1804 0.0199).2 := by
    rw [hs', hs.molsLift, hs.volBase, hs.dvdp]
  have evol : s'.vol = (superpressureAndVolume 6830 s.molsAir s.intT s.pressure 1804 0.0199).1 := by
    rw [hs', hs.molsLift, hs.volBase, hs.dvdp]
  have epr : s'.pressure = p' := by rw [hs']
  have eair : s'.molsAir = max (s.molsAir + (acsEffect s a).2 / airM * totalSeconds stride) 0 := by rw [hs']
  have ecod : s'.cod = 0.25 := by rw [hs']; exact hs.cod
  have est : s'.status = .ok → 0 < s'.sp ∧ s'.sp ≤ 2380 := by
    intro hst
    refine ⟨?_, (hT'.taut hst).2⟩
    rw [hs'] at hst ⊢
    simp only at hst ⊢
    unfold newStatus at hst
    simp only at hst
    split_ifs at hst <;> (first | cases hst | linarith)
  rw [← esp, ← evol] at hbal
  clear hs' esp evol h hnp
  -- gas on board times temperature
  have hNlo : 6830 * 8.3144621 * 160 ≤ (6830 + s.molsAir) * 8.3144621 * s.intT :=
    mul_le_mul (mul_le_mul_of_nonneg_right (by linarith) (by norm_num)) hgas0 (by norm_num) (by positivity)
  have hNhi : (6830 + s.molsAir) * 8.3144621 * s.intT ≤ 23000 * 8.3144621 * 300 :=
    mul_le_mul (mul_le_mul_of_nonneg_right hn (by norm_num)) hgas1 (by linarith) (by norm_num)
  refine ⟨{ toTemperate := hT', cod := ecod, range := ?_, ended := ?_, live := ?_ }, by rw [eair]; exact hairs⟩
  · rw [epr]
    constructor
    · norm_num at m0
      linarith
    · linarith [mroot.1]
  · rw [epr]
    rcases le_or_gt ((6830 + s.molsAir) * 8.3144621 * s.intT) (s.pressure * 1804) with hc | hc
    · rw [(hbal.1 hc).1]
      norm_num at m0
      linarith
    · obtain ⟨b0, b1, b2⟩ := hbal.2 hc
      -- n R T in terms of the previous sub-step
      have hVle : s.vol ≤ 1851.4 := by rw [hvol]; norm_num; linarith
      have c1 : (q + s.sp) * s.vol ≤ (q + 2380) * 1851.4 := mul_le_mul (by linarith) hVle hs.vol.le (by linarith)
      have c2 : n * 8.3144621 * 160 ≤ n * 8.3144621 * T := mul_le_mul_of_nonneg_left T0 (by positivity)
      have c3 : (6830 + s.molsAir) * 8.3144621 * s.intT ≤ (n + 16) * 8.3144621 * 300 :=
        mul_le_mul (mul_le_mul_of_nonneg_right n1 (by norm_num)) hgas1 (by linarith) (by positivity)
      have c4 : (s.pressure + s'.sp) * 1804 ≤ (s.pressure + s'.sp) * s'.vol := by
        refine mul_le_mul_of_nonneg_left ?_ (by linarith)
        rw [b1]
        linarith
      norm_num at *
      linarith
  · intro hst
    obtain ⟨z0, z1⟩ := est hst
    have hc : s.pressure * 1804 < (6830 + s.molsAir) * 8.3144621 * s.intT := by
      by_contra hc
      exact z0.ne' (hbal.1 (not_lt.1 hc)).1
    obtain ⟨b0, b1, b2⟩ := hbal.2 hc
    have hV' : s'.vol ≤ 1851.4 := by rw [b1]; norm_num; linarith
    have hp0 : 2527 ≤ s.pressure := by
      have : (s.pressure + s'.sp) * s'.vol ≤ (s.pressure + 2380) * 1851.4 :=
        mul_le_mul (by linarith) hV' hT'.vol.le (by linarith)
      norm_num at *
      linarith
    have hp1 : s.pressure ≤ 31900 := by
      norm_num at *
      linarith
    rw [epr]
    refine ⟨?_, by linarith [mroot.2 hp1], z0, b1, ?_, s.pressure, 6830 + s.molsAir, s.intT, b2, hgas0, hgas1, by linarith, ?_, ?_,
      by linarith⟩
    · norm_num at m0
      linarith
    · rw [eair]
      split_ifs at hairs with ha
      · linarith [hroom ha]
      · linarith
    · rw [eair]
      split_ifs at hairs <;> linarith
    · exact m0

theorem aloft_loop {sun : Sun} (hsun : ∀ l t, 0 ≤ (sun l t).flux ∧ (sun l t).flux ≤ 1500) {α : ℝ} (h0 : 0 ≤ α)
    (h1 : α ≤ 1) {u v : ℝ} {a : Command} {stride : ℤ} (hs0 : 0 ≤ stride) (hs1 : stride ≤ 10 * usPerSec) (m : ℕ)
    (s : BState) (hok : s.status = .ok) (hs : AloftInv s) (hroom : a = .down → 6830 + s.molsAir + 16 * m ≤ 23000) :
    AloftInv (substepLoop (substep sun α u v a stride) m s).1 := by
  induction m generalizing s with
  | zero => exact hs
  | succ m ih =>
    unfold substepLoop
    rcases h : substep sun α u v a stride s with e | s'
    · exact hs
    · simp only
      have hm : (0 : ℝ) ≤ m := Nat.cast_nonneg m
      push_cast at hroom
      obtain ⟨k1, k2⟩ := aloft_substep hsun h0 h1 hs0 hs1 hok hs (fun ha => by linarith [hroom ha]) h
      split_ifs with hc
      · exact k1
      · refine ih s' (not_not.1 hc) k1 (fun ha => ?_)
        rw [if_pos ha] at k2
        linarith [hroom ha]

/-- DOWN is flown only at pressures of at most 130 hPa. -/
theorem down_flown_pressure {α : ℝ} (h0 : 0 ≤ α) (h1 : α ≤ 1) {s s1 : BState} {a : Command}
    (h : safetyChain α s a = (s1, .ok .down)) : s.pressure ≤ 13000 := by
  unfold safetyChain at h
  simp only at h
  split at h
  · simp at h
  · split at h
    · simp at h
    · rename_i v hv
      simp only [Prod.mk.injEq, Except.ok.injEq] at h
      obtain ⟨-, h⟩ := h
      have hp : (15240 : ℝ) ≤ v.height := by
        by_contra hc
        unfold altGetAction at h
        rw [show altTrigger v.height = .veryLow by unfold altTrigger; rw [if_pos (by rw [minAltitude_eq]; linarith)]] at h
        simp [altTransition] at h
      have hat := atHeight_eq (α := α) (h := 15240) (i := 0) (by norm_num) (by norm_num [hTrans]) (by norm_num [hTrans])
      have hw := (C43_height_roundtrip α h0 h1 _ _ hat).2
      simp only at hw
      by_contra hc
      have := (C44_pressure_direction α h0 h1 _ _ _ _ hw hv (by
        have := floor_pressure_le h0 h1
        linarith)).1
      simp only at this
      linarith

/-- When a descent is flown there is room in the ballonet for three minutes of it. -/
theorem down_room {α : ℝ} (h0 : 0 ≤ α) (h1 : α ≤ 1) {s s1 : BState} {a : Command} (hT : AloftInv s1) (hok1 : s1.status = .ok)
    (hc : safetyChain α { s with lastCommand := a } a = (s1, .ok .down)) (hp1 : s1.pressure = s.pressure) :
    6830 + s1.molsAir + 16 * (18 : ℕ) ≤ 23000 := by
  have hp := down_flown_pressure h0 h1 hc
  simp only at hp
  have hair := hT.air
  have hsp := (hT.taut hok1).2
  obtain ⟨p0, p1, sp0, hvol, -, q, n, T, hqn, T0, T1, n0, n1, hq, hq0⟩ := hT.live hok1
  rw [hp1] at hq
  have hVle : s1.vol ≤ 1851.4 := by rw [hvol]; norm_num; linarith
  have hq1 : q ≤ 13900 := by norm_num at hq; linarith
  have c1 : (q + s1.sp) * s1.vol ≤ (13900 + 2380) * 1851.4 :=
    mul_le_mul (by linarith) hVle hT.vol.le (by norm_num)
  have c2 : n * 8.3144621 * 160 ≤ n * 8.3144621 * T := mul_le_mul_of_nonneg_left T0 (by positivity)
  norm_num at *
  linarith

theorem aloft_step {sun : Sun} (hsun : ∀ l t, 0 ≤ (sun l t).flux ∧ (sun l t).flux ≤ 1500) {α : ℝ} (h0 : 0 ≤ α)
    (h1 : α ≤ 1) {u v : ℝ} (a : Command) (s : BState) (hs : AloftInv s) :
    AloftInv (simulateStep sun α u v a agentStep defaultStride s).1 := by
  have hcmd : ∀ s a pw ev al, AloftInv s → AloftInv { s with lastCommand := a, power := pw, env := ev, alt := al } :=
    fun s a pw ev al h =>
      { volBase := h.volBase, dvdp := h.dvdp, envMass := h.envMass, payload := h.payload, molsLift := h.molsLift
        maxSp := h.maxSp, ir := h.ir, air := h.air, vol := h.vol, ambient := h.ambient, gas := h.gas, taut := h.taut
        cod := h.cod, range := h.range, ended := h.ended, live := h.live }
  obtain ⟨pw, ev, al, hch⟩ := safetyChain_state α { s with lastCommand := a } a
  have hT : AloftInv (safetyChain α { s with lastCommand := a } a).1 := by rw [hch]; exact hcmd s a pw ev al hs
  rcases simulateStep_cases sun α u v a agentStep defaultStride s with ⟨e, _, h⟩ | ⟨hok, _, _, s1, eff, hc, h⟩
  · rcases h with ⟨_, _, h⟩ | ⟨_, h⟩
    · rw [h]; exact hcmd s a s.power s.env s.alt hs
    · rw [h]; exact hT
  · rw [h]
    have hn : (Int.fdiv (Int.tdiv agentStep usPerSec) (Int.tdiv defaultStride usPerSec)).toNat = 18 := by decide
    rw [hn]
    rw [hc] at hT hch
    simp only at hch
    have hok1 : s1.status = .ok := by rw [hch]; exact hok
    refine aloft_loop hsun h0 h1 (by decide) (by decide) 18 s1 hok1 hT (fun ha => ?_)
    subst ha
    exact down_room h0 h1 hT hok1 hc (by rw [hch])

/-! ## Whole episodes -/

variable {K W Rd : Type}

/-- Every episode starts well inside. -/
theorem start_aloft {α : ℝ} {b : BState} (h : Spec.ValidStart α b) (hsp : b.sp < 2130) : AloftInv b := by
  have hT := start_temperate h hsp
  have hf := start_flyer h
  obtain ⟨p0, p1, -⟩ := h.height
  obtain ⟨s0, a0, -⟩ := h.buoyant
  obtain ⟨hbal1, hbal2⟩ := h.balance
  rw [hf.molsLift, hf.volBase] at hbal1
  rw [hf.molsLift, hf.volBase, hf.dvdp] at hbal2
  have hc : b.pressure * 1804 < (6830 + b.molsAir) * 8.3144621 * b.intT := by
    by_contra hc
    exact s0.ne' (hbal1 (not_lt.1 hc)).1
  obtain ⟨-, b1, b2⟩ := hbal2 hc
  refine { toTemperate := hT, cod := hf.cod, range := ⟨by linarith, by linarith⟩, ended := by linarith, live := fun _ => ?_ }
  refine ⟨by linarith, by linarith, s0, b1, ?_, b.pressure, 6830 + b.molsAir, b.intT, b2, hT.gas.1, hT.gas.2, by linarith,
    by linarith, by norm_num; linarith, by linarith⟩
  have hV : b.vol ≤ 1851.4 := by rw [b1]; norm_num; linarith
  have c1 : (b.pressure + b.sp) * b.vol ≤ (13000 + 2130) * 1851.4 := mul_le_mul (by linarith) hV hT.vol.le (by norm_num)
  have c2 : (6830 + b.molsAir) * 8.3144621 * 160 ≤ (6830 + b.molsAir) * 8.3144621 * b.intT :=
    mul_le_mul_of_nonneg_left hT.gas.1 (by positivity)
  norm_num at *
  linarith

theorem aloft_arena {E : World K W} {cal : Calendar} (hcal : Spec.Gregorian cal) (hE : E.sun = realSun cal)
    {A : Arena K W} {i : ℕ} (hA : Spec.InEpisode E A i) (hT : AloftInv (A.heap.balls i)) (a : Command) :
    AloftInv ((A.step E a).1.heap.balls i) := by
  rcases arenaStep_ball E a A i hA.ball with ⟨e, -, h⟩ | ⟨w, -, h, -⟩
  · rw [h]; exact hT
  · rw [h, Function.update_self]
    refine aloft_step (fun l t => ?_) hA.blend.1 hA.blend.2 a _ hT
    rw [hE]
    obtain ⟨-, -, f0, f1⟩ := C100_real_sun cal hcal.1 l t
    exact ⟨f0, by linarith⟩

/-- Every reset succeeds and leaves a balloon to which the invariant applies; so it does after any actions. -/
theorem aloft_episode (c : EnvCfg K W Rd) (hJ : Spec.SaneDraws c.world.J) (two : Bool) (hR : c.world.R = gpr two)
    (cal : Calendar) (hcal : Spec.Gregorian cal) (hE : c.world.sun = realSun cal) (hC : Spec.GoodWind c.world.C)
    (v : Env K W Rd) (seed : Option ℤ) :
    ∃ v0 o i, v.reset c seed = (v0, .ok o) ∧ ∀ as, Spec.InEpisode c.world (Spec.after c as v0).arena i ∧
      AloftInv ((Spec.after c as v0).arena.heap.balls i) := by
  have key0 : ∀ w0 : Env K W Rd, ∃ v0 o i, w0.reset c none = (v0, .ok o) ∧ Spec.InEpisode c.world v0.arena i ∧
      AloftInv (v0.arena.heap.balls i) := by
    intro w0
    unfold Env.reset
    simp only
    obtain ⟨A', obs, i, h1, h2, -, ⟨α, h4⟩, -⟩ := C102_reset c.world hJ two hR cal hcal hE hC
      (c.world.J.split w0.rng 2 1) w0.arena
    obtain ⟨j, g1, -, g3, -⟩ := C103_reset c.world hJ cal hcal hE _ _ A' obs h1
    have hij : j = i := by
      have := h2.ball
      rw [g1] at this
      injection this
    subst hij
    rw [h1]
    simp only [h2.ball]
    exact ⟨_, _, j, rfl, h2, start_aloft h4 g3⟩
  have key : ∃ v0 o i, v.reset c seed = (v0, .ok o) ∧ Spec.InEpisode c.world v0.arena i ∧
      AloftInv (v0.arena.heap.balls i) := by
    cases seed with
    | none => exact key0 v
    | some sd => exact key0 (v.seed c sd)
  obtain ⟨v0, o, i, hr, k1, k2⟩ := key
  refine ⟨v0, o, i, hr, fun as => ?_⟩
  induction as using List.reverseRecOn with
  | nil => exact ⟨k1, k2⟩
  | append_singleton as a ih =>
    unfold Spec.after at ih ⊢
    rw [List.foldl_append]
    simp only [List.foldl_cons, List.foldl_nil]
    rcases envStep_arena c a (as.foldl (fun v a => (v.step c a).1) v0) with h | ⟨cmd, h⟩
    · rw [h]; exact ih
    · rw [h]; exact ⟨inEpisode_step ih.1 cmd, aloft_arena hcal hE ih.1 ih.2 cmd⟩

/-- C135. Reset with any seed, then issue any actions, whatever the winds: at every moment the pressure is between 22 and 365
hPa, the altitude exists and is between 4.3 and 34 km, and the superpressure is at most four times the pressure, even at the
moment the flight ends; while it flies the pressure is between 23.6 and 340 hPa, the superpressure positive and within its
limit, and there are at most 16,170 mol of air in the ballonet. -/
theorem C135_aloft (c : EnvCfg K W Rd) (hJ : Spec.SaneDraws c.world.J) (two : Bool) (hR : c.world.R = gpr two)
    (cal : Calendar) (hcal : Spec.Gregorian cal) (hE : c.world.sun = realSun cal) (hC : Spec.GoodWind c.world.C)
    (v : Env K W Rd) (seed : Option ℤ) (as : List ℤ) :
    ∃ i A s, A = (Spec.after c as (v.reset c seed).1).arena ∧ A.ball = some i ∧ s = A.heap.balls i ∧
      2200 ≤ s.pressure ∧ s.pressure ≤ 36500 ∧
      (∃ w, atPressure (A.heap.atms A.atm) s.pressure = .ok w ∧ 4300 < w.height ∧ w.height < 34000) ∧
      s.sp ≤ 4 * s.pressure ∧
      (s.status = .ok → 2360 ≤ s.pressure ∧ s.pressure ≤ 34000 ∧ 0 < s.sp ∧ s.sp ≤ 2380 ∧ 0 ≤ s.molsAir ∧ s.molsAir ≤ 16170) := by
  obtain ⟨v0, o, i, hr, h⟩ := aloft_episode c hJ two hR cal hcal hE hC v seed
  obtain ⟨h1, h2⟩ := h as
  rw [hr]
  refine ⟨i, _, _, rfl, h1.ball, rfl, h2.range.1, h2.range.2,
    aloft_height h1.blend.1 h1.blend.2 h2.range.1 h2.range.2, h2.ended, fun hok => ?_⟩
  obtain ⟨p0, p1, sp0, -, hn, -⟩ := h2.live hok
  exact ⟨p0, p1, sp0, (h2.taut hok).2, h2.air, by linarith⟩

/-- Within 4,400 km of a station in the tropics the latitude is at most 50 degrees. -/
theorem lat_near {s : BState} (hc : |degrees s.center.lat| ≤ 10) (hd : Real.sqrt (s.x ^ 2 + s.y ^ 2) ≤ 4400000) :
    |degrees s.latlng.lat| ≤ 50 := by
  have hpi := Real.pi_pos
  have hpi3 := Real.pi_gt_d4
  have hdeg : ∀ z : ℝ, |degrees z| = |z| * (180 / Real.pi) := by
    intro z
    unfold degrees
    rw [abs_mul, abs_of_pos (by positivity : (0:ℝ) < 180 / Real.pi)]
  rw [hdeg] at hc
  have hc' : |s.center.lat| ≤ Real.pi / 18 := by
    rw [← mul_div_assoc, div_le_iff₀ hpi] at hc
    linarith
  have ho := offset_latitude s.center s.x s.y (by norm_num at *; linarith)
  rw [hdeg, ← mul_div_assoc, div_le_iff₀ hpi]
  have : s.latlng = latlngFromOffset s.center s.x s.y := rfl
  rw [this]
  norm_num at *
  linarith

/-- C135, no crash. After a reset with any seed — it always succeeds — and any actions, in any weather: a step with action 0,
1 or 2 raises only if the flight had already been reported as over, or the balloon is more than 4,400 km away from its station before
or after the step, or 14.3 million steps (81 years) have been flown. -/
theorem C135_no_crash (c : EnvCfg K W Rd) (hJ : Spec.SaneDraws c.world.J) (two : Bool) (hR : c.world.R = gpr two)
    (cal : Calendar) (hcal : Spec.Gregorian cal) (hE : c.world.sun = realSun cal) (hC : Spec.GoodWind c.world.C)
    (q : RewardParams) (hh : 0 < q.halflife) (hrew : c.rewardFn = reward c.world.sun q) (v : Env K W Rd)
    (seed : Option ℤ) :
    ∃ v0 o i, v.reset c seed = (v0, .ok o) ∧ ∀ (as : List ℤ) (a : ℤ) (e : Err),
      ((Spec.after c as v0).step c a).2 = .error e →
      ∃ s s', s = (Spec.after c as v0).arena.heap.balls i ∧ s' = (Spec.after c (as ++ [a]) v0).arena.heap.balls i ∧
        (Spec.after c as v0).arena.ball = some i ∧
        ((a ≠ 0 ∧ a ≠ 1 ∧ a ≠ 2) ∨ s.status ≠ .ok ∨ 4400000 < Real.sqrt (s.x ^ 2 + s.y ^ 2) ∨
          4400000 < Real.sqrt (s'.x ^ 2 + s'.y ^ 2) ∨ 14300000 ≤ as.length) := by
  obtain ⟨v0, o, i, hr, h⟩ := aloft_episode c hJ two hR cal hcal hE hC v seed
  refine ⟨v0, o, i, hr, fun as a e herr => ⟨_, _, rfl, rfl, (h as).1.ball, ?_⟩⟩
  have henv : ∀ bs : List ℤ, bs.length ≤ 14300000 →
      Real.sqrt (((Spec.after c bs v0).arena.heap.balls i).x ^ 2 + ((Spec.after c bs v0).arena.heap.balls i).y ^ 2) ≤ 4400000 →
      Spec.Envelope ((Spec.after c bs v0).arena.heap.balls i) := by
    intro bs hlen hd
    obtain ⟨h1, h2⟩ := h bs
    obtain ⟨j, t, hj, ht, ⟨k, hk, hte⟩, ⟨d0, d1⟩, -, -, -, -, -, hlat, -⟩ := C97_from_reset c hJ
      (by rw [hE]; exact C94_real_sun cal hcal.1) v v0 seed o hr bs
    have hij : j = i := by
      have := h1.ball
      rw [hj] at this
      injection this
    subst hij
    subst ht
    refine { date := ?_, lat := lat_near hlat hd, pressure := ⟨by linarith [h2.range.1], by linarith [h2.range.2]⟩
             temp := ⟨by linarith [h2.gas.1], by linarith [h2.gas.2]⟩, sp := h2.ended }
    constructor <;> omega
  by_contra hcon
  push Not at hcon
  obtain ⟨c1, c2, c3, c4, c5⟩ := hcon
  rcases C102_episode c two hR cal hcal hE hC q hh hrew v0 i (h []).1 as a e herr with g | g | g | g
  · exact g.2.2 (c1 g.1 g.2.1)
  · exact g c2
  · exact g (henv as (by omega) c3)
  · exact g (henv (as ++ [a]) (by simp; omega) c4)

/-- In the sunny world with any seed: after any of at most a thousand commands the next command is carried out or the flight was over,
unless the wind carried the balloon 4,400 km away. -/
example (seed a : ℤ) (as : List ℤ) (ha : a = 0 ∨ a = 1 ∨ a = 2) (hl : as.length ≤ 1000) (v : Env (List ℕ) Unit Unit) :
    ∃ v0 i s s', (v.reset sunnyCfg (some seed)).1 = v0 ∧ s = (Spec.after sunnyCfg as v0).arena.heap.balls i ∧
      s' = (Spec.after sunnyCfg (as ++ [a]) v0).arena.heap.balls i ∧
      ((∃ out, ((Spec.after sunnyCfg as v0).step sunnyCfg a).2 = .ok out) ∨ s.status ≠ .ok ∨
        4400000 < Real.sqrt (s.x ^ 2 + s.y ^ 2) ∨ 4400000 < Real.sqrt (s'.x ^ 2 + s'.y ^ 2)) := by
  obtain ⟨v0, o, i, hr, h⟩ := C135_no_crash sunnyCfg sunnyWorld_draws true rfl gregorian gregorian_ok rfl good_static
    RewardParams.default (by norm_num [RewardParams.default]) rfl v (some seed)
  refine ⟨v0, i, _, _, by rw [hr], rfl, rfl, ?_⟩
  rcases hs : ((Spec.after sunnyCfg as v0).step sunnyCfg a).2 with e | out
  · obtain ⟨s, s', rfl, rfl, -, g⟩ := h as a e hs
    rcases g with g | g | g | g | g
    · omega
    · exact .inr (.inl g)
    · exact .inr (.inr (.inl g))
    · exact .inr (.inr (.inr g))
    · omega
  · exact .inl ⟨out, rfl⟩

end BLE
