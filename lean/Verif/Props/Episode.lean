import Verif.Props.Env
import Verif.Props.Flight
import Verif.Props.Eval
import Verif.Props.EpisodeStart
import Verif.Props.Reward

/-!
# C96–C99: what a step of the environment means, whole episodes, returns
-/

namespace BLE

variable {K W Rd : Type}

/-! ## C96 -/

/-- C96, motion. A successful step flies the requested command for three minutes of simulated time (fewer
ten-second strides if the flight ends) in the true wind at the place and time the step began, and touches nothing but
this one balloon. -/
theorem C96_motion (c : EnvCfg K W Rd) (a : ℤ) (v v' : Env K W Rd) (out : StepOut) (h : v.step c a = (v', .ok out)) :
    ∃ (i : ℕ) (w : ℝ × ℝ), v.arena.ball = some i ∧ v'.arena.ball = some i ∧
      let s := v.arena.heap.balls i
      let t := v'.arena.heap.balls i
      groundTruth c.world.nz c.world.C (v.arena.heap.winds v.arena.wind) s.x s.y s.pressure s.timeElapsed = .ok w ∧
      (out.terminal = false → t.timeElapsed = s.timeElapsed + 180 * 1000000 ∧ t.dateTime = s.dateTime + 180 * 1000000) ∧
      (out.terminal = true → ∃ j : ℕ, 1 ≤ j ∧ j ≤ 18 ∧ t.timeElapsed = s.timeElapsed + j * (10 * 1000000) ∧
        t.dateTime = s.dateTime + j * (10 * 1000000)) ∧
      t.x = s.x + w.1 * (((t.timeElapsed - s.timeElapsed : ℤ) : ℝ) / 1000000) ∧
      t.y = s.y + w.2 * (((t.timeElapsed - s.timeElapsed : ℤ) : ℝ) / 1000000) ∧
      ((a = 0 ∧ t.lastCommand = .down) ∨ (a = 1 ∧ t.lastCommand = .stay) ∨ (a = 2 ∧ t.lastCommand = .up)) ∧
      v'.arena.heap.winds = v.arena.heap.winds ∧ v'.arena.heap.atms = v.arena.heap.atms ∧
      v'.arena.wind = v.arena.wind ∧ v'.arena.atm = v.arena.atm ∧
      (∀ j, j ≠ i → v'.arena.heap.balls j = v.arena.heap.balls j) := by
  obtain ⟨j, hj, hterm, -, -, -⟩ := C21_terminal_iff c a v v' out h
  obtain ⟨j', hj', hcmd⟩ := C22_meaning c a v v' out h
  obtain ⟨cmd, i, r, hc, hs, hi, hi', -, -, -, -, -, -⟩ := envStep_ok h
  rw [hi'] at hj hj'
  injection hj with hj; injection hj' with hj'
  subst hj hj'
  rcases arenaStep_ball c.world cmd v.arena i hi with ⟨e, _, h⟩ | ⟨w, hw, h1, h2⟩
  · rw [hs] at h; simp at h
  have hfr := arenaStep_frame c.world cmd v.arena
  rw [hs] at h1 h2 hfr
  obtain ⟨-, f2, f3, f4, f5, f6, -⟩ := hfr
  simp only at h1 h2 f2 f3 f4 f5 f6
  have ht : v'.arena.heap.balls i = (simulateStep c.world.sun (v.arena.heap.atms v.arena.atm) w.1 w.2 cmd agentStep
      defaultStride (v.arena.heap.balls i)).1 := by rw [h1, Function.update_self]
  have hres : (simulateStep c.world.sun (v.arena.heap.atms v.arena.atm) w.1 w.2 cmd agentStep
      defaultStride (v.arena.heap.balls i)).2 = .ok () := by
    rcases hx : (simulateStep c.world.sun (v.arena.heap.atms v.arena.atm) w.1 w.2 cmd agentStep
      defaultStride (v.arena.heap.balls i)).2 with e | u
    · cases h2 e hx
    · rfl
  have hd := C16_drift c.world.sun (v.arena.heap.atms v.arena.atm) w.1 w.2 cmd agentStep defaultStride
    (v.arena.heap.balls i)
  simp only at hd
  rw [← ht] at hd
  have hclock := C11_clock_partial c.world.sun (v.arena.heap.atms v.arena.atm) w.1 w.2 cmd 10 18 (by norm_num)
    (v.arena.heap.balls i) (v'.arena.heap.balls i) (by
      rw [ht, ← hres]
      rfl)
  have hus : usPerSec = 1000000 := rfl
  rw [hus] at hclock
  refine ⟨i, w, hi, hi', hw, fun ho => ?_, fun ho => ?_, by linarith [hd.1], by linarith [hd.2], hcmd, f5, f6, f2, f3,
    fun j hj => ?_⟩
  · have hst : (v'.arena.heap.balls i).status = .ok := by
      by_contra hne
      have := hterm.2 hne
      rw [this] at ho; cases ho
    obtain ⟨c1, c2⟩ := hclock.1 hst
    constructor <;> omega
  · obtain ⟨j, j1, j2, c1, c2⟩ := hclock.2 (hterm.1 ho)
    exact ⟨j, j1, j2, by push_cast at c2 ⊢; omega, by push_cast at c1 ⊢; omega⟩
  · rw [h1, Function.update_of_ne hj]

/-- C96, reward, renderer and counters. The reward is that of the state after the step; the renderer, if there is one, is
shown exactly that state; one iteration is counted. -/
theorem C96_reported (c : EnvCfg K W Rd) (a : ℤ) (v v' : Env K W Rd) (out : StepOut) (h : v.step c a = (v', .ok out)) :
    ∃ i, v'.arena.ball = some i ∧ c.rewardFn (v'.arena.heap.balls i) = .ok out.reward ∧
      v'.renderer = v.renderer.map (fun rd => c.render.step rd (v'.arena.heap.balls i) (v'.arena.heap.winds v'.arena.wind)
        (v'.arena.heap.atms v'.arena.atm)) ∧
      v'.iteration = v.iteration + 1 ∧ v'.radius = v.radius ∧ v'.rng = v.rng := by
  unfold Env.step at h
  rcases hc : Command.ofInt a with e | cmd
  · rw [hc] at h; cases h
  · rw [hc] at h
    simp only at h
    rcases ho : (v.arena.step c.world cmd).2 with e | obs
    · rw [ho] at h; cases h
    · rw [ho] at h
      simp only at h
      rcases hb : (v.arena.step c.world cmd).1.ball with _ | i
      · rw [hb] at h; cases h
      · rw [hb] at h
        simp only at h
        rcases hr : c.rewardFn ((v.arena.step c.world cmd).1.heap.balls i) with e | r
        · rw [hr] at h; cases h
        · rw [hr] at h
          simp only [Prod.mk.injEq, Except.ok.injEq] at h
          obtain ⟨rfl, rfl⟩ := h
          exact ⟨i, hb, hr, rfl, rfl, rfl, rfl⟩

/-- C96, observation. The wind estimator is told exactly one new measurement, the difference between truth and forecast
at the place and time the step ended, and the observation is computed from the state after the step. -/
theorem C96_observation (c : EnvCfg K W Rd) (a : ℤ) (v v' : Env K W Rd) (out : StepOut)
    (h : v.step c a = (v', .ok out)) :
    ∃ i F F' w f, v'.arena.ball = some i ∧ v.arena.feat = some F ∧ v'.arena.feat = some F' ∧
      let t := v'.arena.heap.balls i
      groundTruth c.world.nz c.world.C (v'.arena.heap.winds v'.arena.wind) t.x t.y t.pressure t.timeElapsed = .ok w ∧
      c.world.C.forecast (v'.arena.heap.winds F.wind).sub t.x t.y t.pressure t.timeElapsed = .ok f ∧
      F'.data = F.data ++ [(⟨t.x, t.y, t.pressure, (t.timeElapsed : ℝ) / 1000000⟩, (w.1 - f.1, w.2 - f.2))] ∧
      F'.last = some i ∧ F'.wind = F.wind ∧ F'.atm = F.atm ∧
      (F'.view c.world v'.arena.heap).features c.world.R c.world.sun = .ok out.obs := by
  obtain ⟨cmd, i, r, hc, hs, hi, hi', -⟩ := envStep_ok h
  unfold Arena.step at hs
  rw [hi] at hs
  simp only at hs
  rcases hw0 : windAtBalloon c.world (v.arena.heap.winds v.arena.wind) (v.arena.heap.balls i) with e | w0
  · rw [hw0] at hs; simp at hs
  rw [hw0] at hs
  simp only at hs
  generalize simulateStep c.world.sun (v.arena.heap.atms v.arena.atm) w0.1 w0.2 cmd agentStep defaultStride
    (v.arena.heap.balls i) = q at hs
  obtain ⟨b, res⟩ := q
  rcases res with e | u
  · simp at hs
  simp only at hs
  have hfeat : (v.arena.mutate i b).feat = v.arena.feat := rfl
  rw [hfeat] at hs
  rcases hF : v.arena.feat with _ | F
  · rw [hF] at hs; simp at hs
  rw [hF] at hs
  simp only at hs
  have hfr := measure_frame c.world (v.arena.mutate i b) i F
  rw [hs] at hfr
  obtain ⟨m1, -, m3, m4, -⟩ := hfr
  unfold Arena.measure at hs
  rcases hw : windAtBalloon c.world ((v.arena.mutate i b).heap.winds (v.arena.mutate i b).wind)
    ((v.arena.mutate i b).heap.balls i) with e | w
  · rw [hw] at hs; simp at hs
  rw [hw] at hs
  simp only at hs
  unfold FeatState.observe WindGP.observe at hs
  simp only [bind, Except.bind, pure, Except.pure] at hs
  rcases hf : (F.view c.world (v.arena.mutate i b).heap).gp.forecast.single ((v.arena.mutate i b).heap.balls i).x
    ((v.arena.mutate i b).heap.balls i).y ((v.arena.mutate i b).heap.balls i).pressure
    ((v.arena.mutate i b).heap.balls i).timeElapsed with e | f
  · rw [hf] at hs; simp at hs
  rw [hf] at hs
  simp only [Prod.mk.injEq] at hs
  obtain ⟨hA, hobs⟩ := hs
  simp only at m1 m3
  have hF' := congrArg Arena.feat hA
  simp only at hF'
  refine ⟨i, F, _, w, f, hi', rfl, hF'.symm, ?_, ?_, ?_, rfl, rfl, rfl, ?_⟩
  · rw [m1, m3]; exact hw
  · rw [m1]; exact hf
  · rw [m1]; rfl
  · rw [m1]; exact hobs

/-! ## C97 -/

/-- The environment after a list of actions, whatever the outcomes. -/
noncomputable def Spec.after (c : EnvCfg K W Rd) (as : List ℤ) (v : Env K W Rd) : Env K W Rd :=
  as.foldl (fun v a => (v.step c a).1) v

theorem envStep_arena (c : EnvCfg K W Rd) (a : ℤ) (v : Env K W Rd) :
    (v.step c a).1.arena = v.arena ∨ ∃ cmd, (v.step c a).1.arena = (v.arena.step c.world cmd).1 := by
  unfold Env.step
  rcases Command.ofInt a with e | cmd
  · left; rfl
  · right
    refine ⟨cmd, ?_⟩
    simp only
    split
    · rfl
    · split
      · rfl
      · split <;> rfl

/-- Over a whole list of actions the balloon is driven by at most as many three-minute simulation calls as there are
actions, and nothing else about the world changes. -/
theorem after_frame (c : EnvCfg K W Rd) (as : List ℤ) (v : Env K W Rd) (i : ℕ) (hi : v.arena.ball = some i) :
    let v' := Spec.after c as v
    v'.arena.ball = some i ∧ v'.arena.wind = v.arena.wind ∧ v'.arena.atm = v.arena.atm ∧
    v'.arena.heap.winds = v.arena.heap.winds ∧ v'.arena.heap.atms = v.arena.heap.atms ∧
    (∀ j, j ≠ i → v'.arena.heap.balls j = v.arena.heap.balls j) ∧
    ∃ calls : List StepCall, calls.length ≤ as.length ∧
      (∀ k ∈ calls, k.timeDelta = agentStep ∧ k.stride = defaultStride) ∧
      v'.arena.heap.balls i = simulateMany c.world.sun (v.arena.heap.atms v.arena.atm) (v.arena.heap.balls i) calls := by
  induction as using List.reverseRecOn with
  | nil => exact ⟨hi, rfl, rfl, rfl, rfl, fun _ _ => rfl, [], le_refl _, by simp, rfl⟩
  | append_singleton as a ih =>
    simp only [Spec.after, List.foldl_append, List.foldl_cons, List.foldl_nil] at ih ⊢
    generalize List.foldl (fun v a => (v.step c a).1) v as = u at ih ⊢
    obtain ⟨h1, h2, h3, h4, h5, h6, calls, hl, hc, hb⟩ := ih
    rcases envStep_arena c a u with h | ⟨cmd, h⟩
    · rw [h]
      exact ⟨h1, h2, h3, h4, h5, h6, calls, by simp; omega, hc, hb⟩
    · rw [h]
      obtain ⟨-, f2, f3, f4, f5, f6, -⟩ := arenaStep_frame c.world cmd u.arena
      refine ⟨f4.trans h1, f2.trans h2, f3.trans h3, f5.trans h4, f6.trans h5, ?_, ?_⟩
      · intro j hj
        rcases arenaStep_ball c.world cmd u.arena i h1 with ⟨e, _, h⟩ | ⟨w, _, hw, _⟩
        · rw [h]; exact h6 j hj
        · rw [hw, Function.update_of_ne hj]; exact h6 j hj
      · rcases arenaStep_ball c.world cmd u.arena i h1 with ⟨e, _, h⟩ | ⟨w, _, hw, _⟩
        · rw [h]
          exact ⟨calls, by simp; omega, hc, hb⟩
        · refine ⟨calls ++ [⟨w.1, w.2, cmd, agentStep, defaultStride⟩], by simp; omega, ?_, ?_⟩
          · intro k hk
            rcases List.mem_append.1 hk with hk | hk
            · exact hc k hk
            · simp only [List.mem_singleton] at hk; subst hk; exact ⟨rfl, rfl⟩
          · rw [hw, Function.update_self, simulateMany, List.foldl_append]
            simp only [List.foldl_cons, List.foldl_nil]
            rw [h5, h3, hb]
            rfl

/-- Time passes by whole strides, at most the requested time. -/
theorem simulateStep_time (sun : Sun) (α u v : ℝ) (a : Command) (s : BState) :
    ∃ j : ℕ, j ≤ 18 ∧ (simulateStep sun α u v a agentStep defaultStride s).1.timeElapsed = s.timeElapsed + j * (10 * 1000000) := by
  have hst : ∀ s : BState, ∀ b : Command, (safetyChain α { s with lastCommand := b } b).1.timeElapsed = s.timeElapsed := by
    intro s b
    obtain ⟨pw, ev, al, h⟩ := safetyChain_state α { s with lastCommand := b } b
    rw [h]
  rcases simulateStep_cases sun α u v a agentStep defaultStride s with ⟨e, _, h⟩ | ⟨_, _, _, s1, eff, hc, h⟩
  · refine ⟨0, by norm_num, ?_⟩
    rcases h with ⟨_, _, h⟩ | ⟨_, h⟩
    · rw [h]; simp
    · rw [h, hst]; simp
  · have e1 : (Int.fdiv (Int.tdiv agentStep usPerSec) (Int.tdiv defaultStride usPerSec)).toNat = 18 := by decide
    rw [h, e1]
    obtain ⟨k, hk, hit, _⟩ := substepLoop_spec (substep sun α u v eff defaultStride) 18 s1
    refine ⟨k, hk, ?_⟩
    rw [(iter_clock hit).2]
    have := hst s a
    rw [hc] at this
    simp only at this
    rw [this]
    rfl

/-- C97. Whatever list of actions an agent sends — valid or not, succeeding or raising, beyond the end of the flight
included — the same balloon stays in play; wind field, atmosphere and all other balloon states stay as they were; the
clock advances in whole ten-second strides by at most three minutes per action and stays consistent with the date; the
vehicle does not change; the battery stays within its capacity and the ballonet non-negative; and once the flight has
ended nothing moves any more. -/
theorem C97_invariants (c : EnvCfg K W Rd) (as : List ℤ) (v v' : Env K W Rd) (hv' : v' = Spec.after c as v) (i : ℕ)
    (hi : v.arena.ball = some i) (s t : BState) (hs : s = v.arena.heap.balls i) (ht : t = v'.arena.heap.balls i) :
    v'.arena.ball = some i ∧ v'.arena.wind = v.arena.wind ∧ v'.arena.atm = v.arena.atm ∧
    v'.arena.heap.winds = v.arena.heap.winds ∧ v'.arena.heap.atms = v.arena.heap.atms ∧
    (∀ j, j ≠ i → v'.arena.heap.balls j = v.arena.heap.balls j) ∧
    (∃ j : ℕ, j ≤ 18 * as.length ∧ t.timeElapsed = s.timeElapsed + j * (10 * 1000000)) ∧
    t.dateTime - t.timeElapsed = s.dateTime - s.timeElapsed ∧
    (t.center = s.center ∧ t.volBase = s.volBase ∧ t.dvdp = s.dvdp ∧ t.envMass = s.envMass ∧ t.maxSp = s.maxSp ∧
      t.cod = s.cod ∧ t.payload = s.payload ∧ t.nightLoad = s.nightLoad ∧ t.dayLoad = s.dayLoad ∧
      t.valveDiam = s.valveDiam ∧ t.cap = s.cap ∧ t.molsLift = s.molsLift ∧ t.upwelling = s.upwelling ∧
      t.powerEnabled = s.powerEnabled ∧ t.env.maxSp = s.env.maxSp) ∧
    (0 ≤ s.charge → s.charge ≤ s.cap → 0 ≤ t.charge ∧ t.charge ≤ t.cap) ∧
    (0 ≤ s.molsAir → 0 ≤ t.molsAir) ∧
    (s.status ≠ .ok → t.status = s.status ∧ t.timeElapsed = s.timeElapsed ∧ t.x = s.x ∧ t.y = s.y ∧
      t.pressure = s.pressure ∧ t.charge = s.charge) := by
  obtain ⟨h1, h2, h3, h4, h5, h6, calls, hl, hc, hb⟩ := after_frame c as v i hi
  rw [← hv'] at h1 h2 h3 h4 h5 h6 hb
  rw [← ht, ← hs] at hb
  have hveh := C81_vehicle_constant c.world.sun (v.arena.heap.atms v.arena.atm) s calls
  have hrat := C81_layer_rating c.world.sun (v.arena.heap.atms v.arena.atm) s calls
  have hstart := C11_start_time_constant c.world.sun (v.arena.heap.atms v.arena.atm) s calls
  simp only at hveh
  rw [← hb] at hveh hrat hstart
  refine ⟨h1, h2, h3, h4, h5, h6, ?_, hstart, ?_, ?_, ?_, ?_⟩
  · have key : ∀ calls : List StepCall, (∀ k ∈ calls, k.timeDelta = agentStep ∧ k.stride = defaultStride) →
        ∃ j : ℕ, j ≤ 18 * calls.length ∧
          (simulateMany c.world.sun (v.arena.heap.atms v.arena.atm) s calls).timeElapsed =
            s.timeElapsed + j * (10 * 1000000) := by
      intro calls
      induction calls using List.reverseRecOn with
      | nil => intro _; exact ⟨0, by simp, by simp [simulateMany]⟩
      | append_singleton cs k ih =>
        intro hk
        obtain ⟨j, hj, he⟩ := ih fun k hk' => hk k (List.mem_append_left _ hk')
        obtain ⟨k1, k2⟩ := hk k (by simp)
        unfold simulateMany at he ⊢
        rw [List.foldl_append]
        simp only [List.foldl_cons, List.foldl_nil]
        rw [k1, k2]
        obtain ⟨j', hj', he'⟩ := simulateStep_time c.world.sun (v.arena.heap.atms v.arena.atm) k.u k.v k.action
          (cs.foldl (fun s k => (simulateStep c.world.sun (v.arena.heap.atms v.arena.atm) k.u k.v k.action k.timeDelta
            k.stride s).1) s)
        refine ⟨j + j', by simp; omega, ?_⟩
        rw [he', he]
        push_cast
        ring
    obtain ⟨j, hj, he⟩ := key calls hc
    exact ⟨j, by omega, by rw [hb]; exact he⟩
  · obtain ⟨a1, a2, a3, a4, a5, a6, a7, a8, a9, a10, a11, a12, a13, a14⟩ := hveh
    exact ⟨a1, a2, a3, a4, a5, a6, a7, a8, a9, a10, a11, a12, a13, a14, hrat⟩
  · intro c0 c1
    obtain ⟨q1, q2, _⟩ := C09_charge_in_range c.world.sun (v.arena.heap.atms v.arena.atm) s calls c0 c1
    rw [← hb] at q1 q2
    exact ⟨q1, q2⟩
  · intro m0
    have := C10_never_negative c.world.sun (v.arena.heap.atms v.arena.atm) s calls m0
    rwa [← hb] at this
  · intro hend
    have key : ∀ calls : List StepCall,
        let r := simulateMany c.world.sun (v.arena.heap.atms v.arena.atm) s calls
        r.status = s.status ∧ r.timeElapsed = s.timeElapsed ∧ r.x = s.x ∧ r.y = s.y ∧
          r.pressure = s.pressure ∧ r.charge = s.charge := by
      intro calls
      induction calls using List.reverseRecOn with
      | nil => simp [simulateMany]
      | append_singleton cs k ih =>
        simp only [simulateMany, List.foldl_append, List.foldl_cons, List.foldl_nil] at ih ⊢
        generalize List.foldl (fun s k => (simulateStep c.world.sun (v.arena.heap.atms v.arena.atm) k.u k.v k.action
          k.timeDelta k.stride s).1) s cs = r at ih ⊢
        rcases simulateStep_cases c.world.sun (v.arena.heap.atms v.arena.atm) k.u k.v k.action k.timeDelta k.stride r
          with ⟨e, _, h⟩ | ⟨h, _⟩
        · rcases h with ⟨_, _, h⟩ | ⟨h, _⟩
          · rw [h]; exact ih
          · exact absurd (ih.1 ▸ h) hend
        · exact absurd (ih.1 ▸ h) hend
    rw [hb]
    exact key calls

/-- C97. An episode of `n` successful steps, none of them terminal, has lasted exactly `n` times three minutes. -/
theorem C97_duration (c : EnvCfg K W Rd) (as : List ℤ) (v : Env K W Rd) (i : ℕ) (hi : v.arena.ball = some i)
    (h : ∀ o ∈ Spec.play c as v, ∃ out, o = .ok out ∧ out.terminal = false) :
    ((Spec.after c as v).arena.heap.balls i).timeElapsed =
      (v.arena.heap.balls i).timeElapsed + as.length * (180 * 1000000) ∧
    (Spec.after c as v).iteration = v.iteration + as.length := by
  induction as generalizing v with
  | nil => simp [Spec.after]
  | cons a as ih =>
    simp only [Spec.play, List.mem_cons, forall_eq_or_imp] at h
    obtain ⟨⟨out, ho, hterm⟩, hrest⟩ := h
    have hstep : v.step c a = ((v.step c a).1, .ok out) := by rw [← ho]
    obtain ⟨j, w, hj, hj', -, hnt, -⟩ := C96_motion c a v _ out hstep
    rw [hi] at hj; injection hj with hj; subst hj
    obtain ⟨_, -, -, -, hit, -⟩ := C96_reported c a v _ out hstep
    obtain ⟨e1, e2⟩ := ih (v.step c a).1 hj' hrest
    have hfold : Spec.after c (a :: as) v = Spec.after c as (v.step c a).1 := rfl
    rw [hfold, e1, e2, (hnt hterm).1, hit]
    constructor
    · push_cast [List.length_cons]; ring
    · simp only [List.length_cons]; ring

/-- C97 from the start. After a successful reset, at any moment of the episode the balloon's clock is a whole number of
ten-second strides, its charge is within the battery, its ballonet is not negative, its rating is the envelope's, and
its station, date of launch and vehicle are those it started with. -/
theorem C97_from_reset (c : EnvCfg K W Rd) (hJ : Spec.SaneDraws c.world.J) (hsun : Spec.SaneSun c.world.sun)
    (v v0 : Env K W Rd) (seed : Option ℤ) (o : List ℝ × Info) (hr : v.reset c seed = (v0, .ok o)) (as : List ℤ) :
    ∃ i t, (Spec.after c as v0).arena.ball = some i ∧ t = (Spec.after c as v0).arena.heap.balls i ∧
      (∃ j : ℕ, j ≤ 18 * as.length ∧ t.timeElapsed = j * (10 * 1000000)) ∧
      (1293840000 * 1000000 ≤ t.dateTime - t.timeElapsed ∧ t.dateTime - t.timeElapsed < 1419984000 * 1000000) ∧
      0 ≤ t.charge ∧ t.charge ≤ t.cap ∧ 0 ≤ t.molsAir ∧ t.env.maxSp = t.maxSp ∧ t.powerEnabled = true ∧
      |degrees t.center.lat| ≤ 10 ∧ 225 ≤ t.upwelling ∧ t.upwelling < 315 ∧
      t.center = (v0.arena.heap.balls i).center := by
  have hreset : ∃ key A, (A : Arena K W).reset c.world key = (v0.arena, .ok o.1) ∧
      v0.arena.ball = some A.heap.nextBall := by
    unfold Env.reset at hr
    simp only at hr
    split at hr
    · cases hr
    · rename_i obs hobs
      split at hr
      · cases hr
      · rename_i i hi
        simp only [Prod.mk.injEq, Except.ok.injEq] at hr
        obtain ⟨rfl, rfl⟩ := hr
        refine ⟨_, _, Prod.ext rfl hobs, ?_⟩
        rcases C95_reset c.world hJ hsun _ _ with ⟨date, -, -, ⟨α, -, -, -, hb, -⟩ | ⟨he, -⟩⟩
        · exact hb
        · rw [hobs] at he; cases he
  obtain ⟨key, A, hA, hball⟩ := hreset
  obtain ⟨date, hd0, hd1, ⟨α, -, -, -, -, hvs, hdate, -⟩ | ⟨he, -⟩⟩ := C95_reset c.world hJ hsun key A
  swap
  · rw [hA] at he; cases he
  rw [hA] at hvs hdate
  simp only at hvs hdate
  obtain ⟨h1, h2, h3, h4, h5, h6, ⟨j, hj, hje⟩, hst, hveh, hch, hair, -⟩ := C97_invariants c as v0 _ rfl
    A.heap.nextBall hball _ _ rfl rfl
  obtain ⟨a1, a2, a3, a4, a5, a6, a7, a8, a9, a10, a11, a12, a13, a14, a15⟩ := hveh
  have hcap : 0 ≤ (v0.arena.heap.balls A.heap.nextBall).charge := by
    have := hvs.battery
    by_contra hneg
    have h1 : (v0.arena.heap.balls A.heap.nextBall).cap < 0 := by
      norm_num at this hneg ⊢
      nlinarith [this.1, this.2.1]
    nlinarith [this.1, this.2.1]
  obtain ⟨q1, q2⟩ := hch hcap hvs.battery.2.1.le
  have ht0 := hvs.flying.2.1
  refine ⟨A.heap.nextBall, _, h1, rfl, ⟨j, hj, by rw [hje, ht0]; simp⟩, ?_, q1, q2, hair hvs.buoyant.2.1.le, ?_, ?_, ?_,
    ?_, ?_, a1⟩
  · rw [hst, hdate, ht0]
    constructor <;> omega
  · rw [a15, a5]; exact hvs.unpaused.2.2.2
  · rw [a14]; exact hvs.battery.2.2
  · rw [a1]; exact hvs.station.1
  · rw [a13]; exact hvs.infrared.1
  · rw [a13]; exact hvs.infrared.2

/-! ## C98 -/

/-- What one reward says about being within the radius. -/
theorem reward_bounds (sun : Sun) (q : RewardParams) (h0 : 0 ≤ q.dropoff) (h1 : q.dropoff ≤ 1) (hh : 0 < q.halflife)
    (s : BState) (r : ℝ) (hr : reward sun q s = .ok r) :
    (Real.sqrt (s.x ^ 2 + s.y ^ 2) ≤ q.radiusKm * 1000 → 0.65 ≤ r) ∧
    (q.radiusKm * 1000 < Real.sqrt (s.x ^ 2 + s.y ^ 2) → r ≤ q.dropoff) := by
  obtain ⟨c1, c2, c3, c4⟩ := reward_cases sun q hh.ne' s
  have hrel : relativeDistance s.x s.y = Real.sqrt (s.x ^ 2 + s.y ^ 2) := rfl
  rw [hrel] at c1 c3 c4
  have hin : Real.sqrt (s.x ^ 2 + s.y ^ 2) ≤ q.radiusKm * 1000 →
      Spec.shape 0.69314718056 q (Real.sqrt (s.x ^ 2 + s.y ^ 2)) = 1 := fun h => by rw [Spec.shape, if_pos h]
  have hout : q.radiusKm * 1000 < Real.sqrt (s.x ^ 2 + s.y ^ 2) →
      Spec.shape 0.69314718056 q (Real.sqrt (s.x ^ 2 + s.y ^ 2)) ≤ q.dropoff := by
    intro h
    rw [Spec.shape, if_neg (by linarith)]
    have : 0 ≤ (Real.sqrt (s.x ^ 2 + s.y ^ 2) - q.radiusKm * 1000) / 1000 / q.halflife := by
      have : 0 < Real.sqrt (s.x ^ 2 + s.y ^ 2) - q.radiusKm * 1000 := by linarith
      positivity
    have he := Real.exp_le_one_iff.2 (show -(0.69314718056 *
      ((Real.sqrt (s.x ^ 2 + s.y ^ 2) - q.radiusKm * 1000) / 1000 / q.halflife)) ≤ 0 by
        linarith [mul_nonneg (show (0:ℝ) ≤ 0.69314718056 by norm_num) this])
    nlinarith
  obtain ⟨b0, b1, b2⟩ := shape_range q h0 h1 hh (Real.sqrt (s.x ^ 2 + s.y ^ 2))
  have key : ∃ m : ℝ, 0.65 ≤ m ∧ m ≤ 1 ∧ r = Spec.shape 0.69314718056 q (Real.sqrt (s.x ^ 2 + s.y ^ 2)) * m := by
    by_cases hd : s.lastCommand = .down
    · rcases hx : s.excessEnergy sun with e | b
      · rw [c2 e hd hx] at hr; cases hr
      · cases b
        · obtain ⟨m, hm, m0, m1, _⟩ := powerMultiplier_eq s.acsPower
          rw [c4 ⟨hd, hx⟩ m hm, Except.ok.injEq] at hr
          exact ⟨m, m0, by linarith, hr.symm⟩
        · rw [c3 hx, Except.ok.injEq] at hr
          exact ⟨1, by norm_num, le_refl _, by rw [mul_one]; exact hr.symm⟩
    · rw [c1 hd, Except.ok.injEq] at hr
      exact ⟨1, by norm_num, le_refl _, by rw [mul_one]; exact hr.symm⟩
  obtain ⟨m, m0, m1, rfl⟩ := key
  constructor
  · intro h; rw [hin h]; linarith
  · intro h
    have := hout h
    nlinarith

theorem flight_radius {S : Type} (c : EnvCfg K W Rd) (A : Agent S) {v v' : Env K W Rd} {s s' : S} {a : ℤ}
    {t : List Spec.Seen} (h : Spec.Flight (balloonEnv c) A v s a t v' s') :
    v'.radius = v.radius ∧ ∀ x ∈ t, x.radius = v.radius ∧ c.rewardFn x.ball = .ok x.out.reward := by
  induction h with
  | nil => exact ⟨rfl, by simp⟩
  | @cons v v1 v2 v3 s s1 s3 a a1 out b t hstep hagent hball hrender rest ih =>
    obtain ⟨i, hi, hrew, -, -, hrad, -⟩ := C96_reported c a _ _ _ hstep
    have h2 : v2.radius = v1.radius := by
      rcases hrender with rfl | rfl <;> rfl
    have hb : v1.arena.heap.balls i = b := by
      simp only [balloonEnv, Arena.getState, hi, Except.map, Except.ok.injEq] at hball
      exact hball
    rw [hb] at hrew
    refine ⟨ih.1.trans (h2.trans hrad), fun x hx => ?_⟩
    rcases List.mem_cons.1 hx with rfl | hx
    · exact ⟨hrad, hrew⟩
    · obtain ⟨j1, j2⟩ := ih.2 x hx
      exact ⟨j1.trans (h2.trans hrad), j2⟩

/-- Return and time within the radius bound each other. -/
def Spec.ReturnMatches (q : RewardParams) (r : EvalResult) : Prop :=
  0 ≤ r.cumulative ∧ r.cumulative ≤ r.finalStep ∧ (0 < q.dropoff → 0 < r.cumulative) ∧
  0.65 * (r.twr * r.finalStep) ≤ r.cumulative ∧
  r.cumulative ≤ r.twr * r.finalStep + q.dropoff * ((1 - r.twr) * r.finalStep)

open Classical in
theorem return_of_seen (sun : Sun) (q : RewardParams) (h0 : 0 ≤ q.dropoff) (h1 : q.dropoff ≤ 1) (hh : 0 < q.halflife)
    (t : List Spec.Seen) (h : ∀ x ∈ t, x.radius = q.radiusKm * 1000 ∧ reward sun q x.ball = .ok x.out.reward)
    (hrad : 0 ≤ q.radiusKm) :
    let n : ℝ := ((t.filter fun x => x.ball.x ^ 2 + x.ball.y ^ 2 ≤ x.radius ^ 2 ∧ 0 ≤ x.radius).length : ℝ)
    let sum : ℝ := (t.map (·.out.reward)).sum
    0 ≤ sum ∧ sum ≤ t.length ∧ (0 < q.dropoff → t ≠ [] → 0 < sum) ∧ 0.65 * n ≤ sum ∧
      sum ≤ n + q.dropoff * (t.length - n) := by
  induction t with
  | nil => simp
  | cons x t ih =>
    obtain ⟨i0, i1, i2, i3, i4⟩ := ih fun y hy => h y (List.mem_cons_of_mem _ hy)
    obtain ⟨hr, hrew⟩ := h x (by simp)
    obtain ⟨r0, r1, r2⟩ := C19_in_range sun q h0 h1 hh _ _ hrew
    obtain ⟨b0, b1⟩ := reward_bounds sun q h0 h1 hh _ _ hrew
    have hw : (x.ball.x ^ 2 + x.ball.y ^ 2 ≤ x.radius ^ 2 ∧ 0 ≤ x.radius) ↔
        Real.sqrt (x.ball.x ^ 2 + x.ball.y ^ 2) ≤ q.radiusKm * 1000 := by
      rw [← withinRadius_iff, hr]; rfl
    simp only [List.map_cons, List.sum_cons, List.length_cons, List.filter_cons]
    push_cast
    by_cases hin : Real.sqrt (x.ball.x ^ 2 + x.ball.y ^ 2) ≤ q.radiusKm * 1000
    · rw [if_pos (by simpa using hw.2 hin)]
      simp only [List.length_cons]
      push_cast
      have := b0 hin
      refine ⟨by linarith, by linarith, fun hd _ => ?_, by linarith, by linarith⟩
      have := r2 hd; linarith
    · rw [if_neg (by simpa using fun a b => hin (hw.1 ⟨a, b⟩))]
      have := b1 (not_le.1 hin)
      refine ⟨by linarith, by linarith, fun hd _ => ?_, by linarith, by linarith⟩
      have := r2 hd; linarith

/-- C98. In an evaluation of the balloon environment with the Perciatelli reward, whose radius is the environment's,
the reported return of every flight lies between 0 and its number of steps, is positive if the drop-off is, and return
and reported time within the radius determine each other up to the power penalty and the value of the drop-off. -/
theorem C98_return {S : Type} (c : EnvCfg K W Rd) (A : Agent S) (suite : Suite) (period : ℤ) (paths : Bool)
    (v v' : Env K W Rd) (s s' : S) (rs : List EvalResult) (sun : Sun) (q : RewardParams)
    (hq : c.rewardFn = reward sun q) (h0 : 0 ≤ q.dropoff) (h1 : q.dropoff ≤ 1) (hh : 0 < q.halflife)
    (hr0 : 0 ≤ q.radiusKm) (hrad : v.radius = q.radiusKm * 1000)
    (h : evalAgent (balloonEnv c) A suite period paths v s = (v', s', .ok rs)) :
    ∀ r ∈ rs, Spec.ReturnMatches q r := by
  have h1' := (C62_results _ _ _ _ _ _ _ _ _ _ h).1
  clear h
  generalize A.setMode s false = s0 at h1'
  generalize suite.seeds = seeds at h1'
  induction h1' with
  | nil => simp
  | @cons v v1 v2 s s1 s2 seed seeds r rs hf rest ih =>
    obtain ⟨-, v0, obs, sA, a, t, sB, hreset, -, hfl, hrep, -⟩ := hf
    have hv0 : v0.radius = v.radius := by
      have e : v0 = ((v.seed c seed).reset c none).1 := by
        have := congrArg Prod.fst hreset
        exact this.symm
      rw [e]
      unfold Env.reset
      simp only
      split
      · rfl
      · split <;> rfl
    obtain ⟨hr1, hseen⟩ := flight_radius c A hfl
    intro r' hr'
    rcases List.mem_cons.1 hr' with rfl | hr'
    · have key := return_of_seen sun q h0 h1 hh t (fun x hx => by
        obtain ⟨j1, j2⟩ := hseen x hx
        exact ⟨by rw [j1, hv0, hrad], by rw [← hq]; exact j2⟩) hr0
      obtain ⟨e1, e2, -, e3, e4, -⟩ := hrep
      have hne : t ≠ [] := by
        rintro rfl
        simp at e1; omega
      have hpos : (0 : ℝ) < t.length := by
        have := List.length_pos_iff.2 hne
        exact_mod_cast this
      have htw : r'.twr * r'.finalStep = ((t.filter fun x => x.ball.x ^ 2 + x.ball.y ^ 2 ≤ x.radius ^ 2 ∧
          0 ≤ x.radius).length : ℝ) := by
        rw [e4, e1]; field_simp
      obtain ⟨k0, k1, k2, k3, k4⟩ := key
      refine ⟨by rw [e3]; exact k0, by rw [e3, e1]; exact k1, fun hd => by rw [e3]; exact k2 hd hne, ?_, ?_⟩
      · rw [htw, e3]; exact k3
      · have : (1 - r'.twr) * r'.finalStep = t.length - r'.twr * r'.finalStep := by rw [e1]; ring
        rw [this, htw, e3]; exact k4
    · exact ih (by rw [hr1, hv0]; exact hrad) r' hr'

/-- The default reward satisfies the hypotheses on the parameters. -/
example : 0 ≤ RewardParams.default.dropoff ∧ RewardParams.default.dropoff ≤ 1 ∧ 0 < RewardParams.default.halflife ∧
    0 ≤ RewardParams.default.radiusKm ∧ demoEnv.radius = RewardParams.default.radiusKm * 1000 ∧
    demoCfg.rewardFn = reward nightSun RewardParams.default := by
  refine ⟨?_, ?_, ?_, ?_, ?_, rfl⟩ <;> norm_num [RewardParams.default, demoEnv]

/-! ## C99 -/

/-- C99, what holds. With the default radius, or any radius that is also bound in the reward function, a state counts
as within the radius exactly when its reward is above the drop-off (0.4 by default). -/
theorem C99_radius_partial (sun : Sun) (q : RewardParams) (h0 : 0 ≤ q.dropoff) (h1 : q.dropoff < 0.65)
    (hh : 0 < q.halflife) (b : BState) (r : ℝ) (hr : reward sun q b = .ok r) (ρ : ℝ) (hρ : ρ = q.radiusKm * 1000) :
    withinRadius b ρ ↔ q.dropoff < r := by
  obtain ⟨b0, b1⟩ := reward_bounds sun q h0 (by norm_num at h1 ⊢; linarith) hh b r hr
  have hd : withinRadius b ρ ↔ Real.sqrt (b.x ^ 2 + b.y ^ 2) ≤ q.radiusKm * 1000 := by rw [hρ]; rfl
  rw [hd]
  constructor
  · intro h; have := b0 h; linarith
  · intro h
    by_contra hn
    have := b1 (not_le.1 hn)
    linarith

/-- C99 is false of the code: the radius given to the environment does not reach the reward function. For every radius
other than the reward's there are positions that are within one and outside the other: an environment configured with
100 km pays at most the drop-off for staying between 50 km and 100 km, and one configured with 20 km pays in full
outside its radius. -/
theorem C99_radius_ignored (c : EnvCfg K W Rd) (w : WindField W) (dead : BState) (km : ℝ) (seed : Option ℤ)
    (rd : Option Rd) (clock1 clock2 : ℤ) (sun : Sun) (hc : c.rewardFn = reward sun RewardParams.default)
    (v : Env K W Rd) (hv : Env.new c w dead km seed rd clock1 clock2 = .ok v) (b : BState) (hst : b.lastCommand ≠ .down) :
    v.radius = km * 1000 ∧
    (∀ d, 50000 < d → d ≤ km * 1000 → b.x = d → b.y = 0 →
      withinRadius b v.radius ∧ ∃ r, c.rewardFn b = .ok r ∧ r ≤ 0.4) ∧
    (∀ d, 0 ≤ d → d ≤ 50000 → km * 1000 < d → b.x = d → b.y = 0 →
      ¬ withinRadius b v.radius ∧ c.rewardFn b = .ok 1) := by
  have hrad : v.radius = km * 1000 := by
    unfold Env.new at hv
    simp only at hv
    split at hv
    · cases hv
    · split at hv
      · cases hv
      · injection hv with hv
        rw [← hv]
        unfold Env.reset
        simp only
        split
        · rfl
        · split <;> rfl
  refine ⟨hrad, fun d h1 h2 hx hy => ?_, fun d h0 h1 h2 hx hy => ?_⟩
  · have hd : Real.sqrt (b.x ^ 2 + b.y ^ 2) = d := by
      rw [hx, hy]; simp [Real.sqrt_sq (show (0:ℝ) ≤ d by linarith)]
    refine ⟨?_, ?_⟩
    · rw [hrad]; show Real.sqrt (b.x ^ 2 + b.y ^ 2) ≤ _; rw [hd]; exact h2
    · obtain ⟨c1, -⟩ := reward_cases sun RewardParams.default (by norm_num [RewardParams.default]) b
      have hr := c1 hst
      refine ⟨_, by rw [hc]; exact hr, ?_⟩
      have := (reward_bounds sun RewardParams.default (by norm_num [RewardParams.default])
        (by norm_num [RewardParams.default]) (by norm_num [RewardParams.default]) b _ hr).2
        (by rw [hd]; norm_num [RewardParams.default]; linarith)
      simpa [RewardParams.default] using this
  · have hd : Real.sqrt (b.x ^ 2 + b.y ^ 2) = d := by
      rw [hx, hy]; simp [Real.sqrt_sq h0]
    refine ⟨?_, ?_⟩
    · rw [hrad]; show ¬ Real.sqrt (b.x ^ 2 + b.y ^ 2) ≤ _; rw [hd]; linarith
    · rw [hc]
      exact (C20_shape sun RewardParams.default (by norm_num [RewardParams.default]) b (Or.inl hst) d hd.symm).1
        (by norm_num [RewardParams.default]; linarith)

/-- Both situations exist: 60 km in an environment of 100 km, 30 km in one of 20 km. -/
example : (∃ b : BState, b.lastCommand ≠ .down ∧ b.x = 60000 ∧ b.y = 0 ∧ (50000 : ℝ) < 60000 ∧ (60000 : ℝ) ≤ 100 * 1000) ∧
    (∃ b : BState, b.lastCommand ≠ .down ∧ b.x = 30000 ∧ b.y = 0 ∧ (30000 : ℝ) ≤ 50000 ∧ (20 : ℝ) * 1000 < 30000) := by
  refine ⟨⟨{ demo with x := 60000, y := 0, lastCommand := .stay }, by decide, rfl, rfl, by norm_num, by norm_num⟩,
    ⟨{ demo with x := 30000, y := 0, lastCommand := .stay }, by decide, rfl, rfl, by norm_num, by norm_num⟩⟩

end BLE
