import Verif.Props.Onlooker

/-!
# C153: the true winds show only where the balloon has been
-/

namespace BLE

variable {K W Rd S : Type}

/-! ## Steps and resets -/

/-- Where the balloon is now, two noise functions give the same gust. -/
def Spec.SameGust (nz nz' : Noise4d) (A : Arena K W) : Prop :=
  ∀ i, A.ball = some i → (A.heap.winds A.wind).noise.noise nz (A.heap.balls i).x (A.heap.balls i).y (A.heap.balls i).pressure
      (A.heap.balls i).timeElapsed =
    (A.heap.winds A.wind).noise.noise nz' (A.heap.balls i).x (A.heap.balls i).y (A.heap.balls i).pressure (A.heap.balls i).timeElapsed

/-- The configuration with other gusts. -/
def Spec.withGusts (c : EnvCfg K W Rd) (nz' : Noise4d) : EnvCfg K W Rd := { c with world := { c.world with nz := nz' } }

theorem windAt_gust (E : World K W) (nz' : Noise4d) {A : Arena K W} {i : ℕ} (hi : A.ball = some i) (h : Spec.SameGust E.nz nz' A) :
    windAtBalloon { E with nz := nz' } (A.heap.winds A.wind) (A.heap.balls i) = windAtBalloon E (A.heap.winds A.wind) (A.heap.balls i) := by
  simp only [windAtBalloon, groundTruth, h i hi]

theorem measure_keeps (E : World K W) (A : Arena K W) (i : ℕ) (F : Feat) :
    (A.measure E i F).1.heap = A.heap ∧ (A.measure E i F).1.ball = A.ball ∧ (A.measure E i F).1.wind = A.wind := by
  unfold Arena.measure
  rcases windAtBalloon E (A.heap.winds A.wind) (A.heap.balls i) with e | w
  · exact ⟨rfl, rfl, rfl⟩
  · simp only
    rcases ((F.view E A.heap).observe (A.heap.balls i) w).2 with e | _ <;> exact ⟨rfl, rfl, rfl⟩

theorem measure_gust (E : World K W) (nz' : Noise4d) {A : Arena K W} {i : ℕ} (F : Feat) (hi : A.ball = some i)
    (h : Spec.SameGust E.nz nz' (A.measure E i F).1) : A.measure { E with nz := nz' } i F = A.measure E i F := by
  obtain ⟨h1, h2, h3⟩ := measure_keeps E A i F
  have h' : Spec.SameGust E.nz nz' A := by
    intro j hj
    have := h j (by rw [h2]; exact hj)
    rw [h1, h3] at this
    exact this
  unfold Arena.measure
  rw [windAt_gust E nz' hi h']
  rfl

theorem arenaStep_gust (E : World K W) (nz' : Noise4d) (a : Command) {A : Arena K W} (h : Spec.SameGust E.nz nz' A)
    (h' : Spec.SameGust E.nz nz' (A.step E a).1) : A.step { E with nz := nz' } a = A.step E a := by
  unfold Arena.step at h' ⊢
  rcases hb : A.ball with _ | i
  · rfl
  · simp only [hb] at h' ⊢
    rw [windAt_gust E nz' hb h]
    rcases hw : windAtBalloon E (A.heap.winds A.wind) (A.heap.balls i) with e | w
    · rfl
    · rw [hw] at h'
      simp only at h' ⊢
      rcases hs : (simulateStep E.sun (A.heap.atms A.atm) w.1 w.2 a agentStep defaultStride (A.heap.balls i)).2 with e | _
      · rfl
      · rw [hs] at h'
        simp only at h' ⊢
        rcases hf : (A.mutate i (simulateStep E.sun (A.heap.atms A.atm) w.1 w.2 a agentStep defaultStride (A.heap.balls i)).1).feat with _ | F
        · rfl
        · rw [hf] at h'
          simp only at h' ⊢
          exact measure_gust E nz' F (by exact hb) h'

theorem arenaReset_gust (E : World K W) (nz' : Noise4d) (key : K) {A : Arena K W}
    (h' : Spec.SameGust E.nz nz' (A.reset E key).1) : A.reset { E with nz := nz' } key = A.reset E key := by
  unfold Arena.reset at h' ⊢
  have e : ∀ α rng date, initBalloon { E with nz := nz' } α rng date = initBalloon E α rng date := fun _ _ _ => rfl
  simp only [e] at h' ⊢
  rcases hb : initBalloon E (E.J.uniform (E.J.split key 3 1)) (E.J.split key 3 0)
    (sampleTime timeBegin (E.J.choice (E.J.split key 3 2) (sampleTimeCount timeBegin timeEnd).toNat)) with e | b
  · rfl
  · rw [hb] at h'
    simp only at h' ⊢
    by_cases hs : b.status ≠ .ok
    · rw [if_pos hs, if_pos hs]
    · rw [if_neg hs] at h'
      rw [if_neg hs, if_neg hs]
      exact measure_gust E nz' _ rfl h'

theorem envStep_gust (c : EnvCfg K W Rd) (nz' : Noise4d) (a : ℤ) {v : Env K W Rd} (h : Spec.SameGust c.world.nz nz' v.arena)
    (h' : Spec.SameGust c.world.nz nz' (v.step c a).1.arena) : v.step (Spec.withGusts c nz') a = v.step c a := by
  rcases hc : Command.ofInt a with e | cmd
  · unfold Env.step; rw [hc]
  · have key : (v.step c a).1.arena = (v.arena.step c.world cmd).1 := by
      unfold Env.step
      rw [hc]
      simp only
      rcases (v.arena.step c.world cmd).2 with e | obs
      · rfl
      · simp only
        rcases (v.arena.step c.world cmd).1.ball with _ | i
        · rfl
        · simp only
          rcases c.rewardFn ((v.arena.step c.world cmd).1.heap.balls i) with e | r <;> rfl
    rw [key] at h'
    have := arenaStep_gust c.world nz' cmd h h'
    unfold Env.step
    rw [hc]
    simp only [Spec.withGusts, this]
    rfl

theorem envReset_gust (c : EnvCfg K W Rd) (nz' : Noise4d) (seed : Option ℤ) {v : Env K W Rd}
    (h' : Spec.SameGust c.world.nz nz' (v.reset c seed).1.arena) : v.reset (Spec.withGusts c nz') seed = v.reset c seed := by
  have key : ∃ k, (v.reset c seed).1.arena = (v.arena.reset c.world k).1 ∧
      (v.arena.reset { c.world with nz := nz' } k = v.arena.reset c.world k → v.reset (Spec.withGusts c nz') seed = v.reset c seed) := by
    rcases seed with _ | s
    · refine ⟨c.world.J.split v.rng 2 1, ?_, fun h => ?_⟩
      · unfold Env.reset
        simp only
        rcases (v.arena.reset c.world (c.world.J.split v.rng 2 1)).2 with e | obs
        · rfl
        · simp only
          rcases (v.arena.reset c.world (c.world.J.split v.rng 2 1)).1.ball with _ | i <;> rfl
      · unfold Env.reset
        simp only [Spec.withGusts, h]
        rfl
    · refine ⟨c.world.J.split (c.world.J.prngKey s) 2 1, ?_, fun h => ?_⟩
      · unfold Env.reset
        simp only [Env.seed]
        rcases (v.arena.reset c.world (c.world.J.split (c.world.J.prngKey s) 2 1)).2 with e | obs
        · rfl
        · simp only
          rcases (v.arena.reset c.world (c.world.J.split (c.world.J.prngKey s) 2 1)).1.ball with _ | i <;> rfl
      · unfold Env.reset
        simp only [Spec.withGusts, Env.seed, h]
        rfl
  obtain ⟨k, h1, h2⟩ := key
  rw [h1] at h'
  exact h2 (arenaReset_gust c.world nz' k h')

/-- C153. What an environment answers depends on the true winds only where the balloon was at the ends of its steps: replace the gusts by
others that agree with them there, and after any use (steps and resets in any order) the whole state of the environment and the
next answer are the same. -/
theorem C153_path (c : EnvCfg K W Rd) (nz' : Noise4d) (v : Env K W Rd) (ops : List Spec.Op)
    (h : ∀ n ≤ ops.length, Spec.SameGust c.world.nz nz' (Spec.use c (ops.take n) v).arena) :
    Spec.use (Spec.withGusts c nz') ops v = Spec.use c ops v ∧
    (∀ a, Spec.SameGust c.world.nz nz' ((Spec.use c ops v).step c a).1.arena →
      (Spec.use c ops v).step (Spec.withGusts c nz') a = (Spec.use c ops v).step c a) ∧
    (∀ seed, Spec.SameGust c.world.nz nz' ((Spec.use c ops v).reset c seed).1.arena →
      (Spec.use c ops v).reset (Spec.withGusts c nz') seed = (Spec.use c ops v).reset c seed) := by
  have key : Spec.use (Spec.withGusts c nz') ops v = Spec.use c ops v := by
    induction ops generalizing v with
    | nil => rfl
    | cons op ops ih =>
      have h0 := h 0 (Nat.zero_le _)
      have h1 := h 1 (by simp)
      cases op with
      | step a =>
        simp only [List.take_succ_cons, List.take_zero, Spec.use] at h0 h1 ⊢
        rw [envStep_gust c nz' a h0 h1]
        exact ih _ fun n hn => h (n + 1) (by simpa using hn)
      | reset =>
        simp only [List.take_succ_cons, List.take_zero, Spec.use] at h0 h1 ⊢
        rw [envReset_gust c nz' none h1]
        exact ih _ fun n hn => h (n + 1) (by simpa using hn)
  have hl := h ops.length le_rfl
  rw [List.take_length] at hl
  exact ⟨key, fun a ha => envStep_gust c nz' a hl ha, fun seed hs => envReset_gust c nz' seed hs⟩

/-! ## Flights -/

theorem evalLoop_gust (c : EnvCfg K W Rd) (nz' : Noise4d) (A : Agent S) (period : ℤ) (paths : Bool) (n : ℕ) :
    ∀ (v : Env K W Rd) (s : S) (a : ℤ) (k : Acc),
      (∀ m ≤ n, Spec.SameGust c.world.nz nz' (evalLoop (balloonEnv c) A period paths m v s a k).1.arena) →
      evalLoop (balloonEnv (Spec.withGusts c nz')) A period paths n v s a k = evalLoop (balloonEnv c) A period paths n v s a k := by
  induction n with
  | zero => intro v s a k _; rfl
  | succ n ih =>
    intro v s a k h
    have h0 := h 0 (Nat.zero_le _)
    have h1 := h 1 (by omega)
    simp only [evalLoop] at h0
    have e : (balloonEnv (Spec.withGusts c nz')).step a v = (balloonEnv c).step a v := by
      refine envStep_gust c nz' a h0 ?_
      have harena : (evalLoop (balloonEnv c) A period paths 1 v s a k).1.arena = (v.step c a).1.arena := by
        rw [evalLoop]
        simp only
        rcases ((balloonEnv c).step a v).2 with e | out
        · rfl
        simp only
        rcases (A.step s out.reward out.obs).2 with e | a'
        · rfl
        simp only
        rcases (balloonEnv c).balloon ((balloonEnv c).step a v).1 with e | b
        · rfl
        simp only
        have hv : ∀ p : Prop, ∀ inst : Decidable p,
            (@ite _ p inst ((balloonEnv c).render ((balloonEnv c).step a v).1) ((balloonEnv c).step a v).1).arena = (v.step c a).1.arena := by
          intro p inst; split_ifs <;> rfl
        by_cases hp : period = 0
        · rw [if_pos hp]; rfl
        rw [if_neg hp]
        by_cases ht : out.terminal
        · rw [if_pos ht]; exact hv _ _
        · rw [if_neg ht, evalLoop]; exact hv _ _
      rw [harena] at h1
      exact h1
    have e2 : (balloonEnv (Spec.withGusts c nz')).balloon = (balloonEnv c).balloon := rfl
    have e3 : (balloonEnv (Spec.withGusts c nz')).render = (balloonEnv c).render := rfl
    have e4 : (balloonEnv (Spec.withGusts c nz')).radius = (balloonEnv c).radius := rfl
    have hrec : ∀ m ≤ n, Spec.SameGust c.world.nz nz' (evalLoop (balloonEnv c) A period paths (m + 1) v s a k).1.arena :=
      fun m hm => h (m + 1) (by omega)
    rw [evalLoop, evalLoop]
    simp only [evalLoop] at hrec
    simp only
    rw [e, e2, e3, e4]
    rcases x1 : ((balloonEnv c).step a v).2 with er | out
    · rfl
    simp only [x1] at hrec ⊢
    rcases x2 : (A.step s out.reward out.obs).2 with er | a'
    · rfl
    simp only [x2] at hrec ⊢
    rcases x3 : (balloonEnv c).balloon ((balloonEnv c).step a v).1 with er | b
    · rfl
    simp only [x3] at hrec ⊢
    by_cases hp : period = 0
    · rw [if_pos hp, if_pos hp]
    simp only [hp, if_false] at hrec ⊢
    rcases ht : out.terminal with _ | _
    · simp only [ht, Bool.false_eq_true, if_false] at hrec ⊢
      exact ih _ _ _ _ hrec
    · rfl

/-- C153, for agents. However an agent decides, the outcome of its flight (result, state of the agent and of the environment) depends on the true winds only along
the path it flew: with other gusts that agree there with the ones it met, it flies exactly the same way. The position after `n` steps is
the one in which a flight limited to `n` steps leaves the environment. -/
theorem C153_agent (c : EnvCfg K W Rd) (nz' : Noise4d) (A : Agent S) (maxLen period : ℤ) (paths : Bool) (seed : ℤ) (v : Env K W Rd) (s : S)
    (h : ∀ n : ℕ, (n : ℤ) ≤ max maxLen 0 → Spec.SameGust c.world.nz nz' (evalFlight (balloonEnv c) A n period paths seed v s).1.arena) :
    evalFlight (balloonEnv (Spec.withGusts c nz')) A maxLen period paths seed v s = evalFlight (balloonEnv c) A maxLen period paths seed v s := by
  have h0 := h 0 (by simp)
  have harena : (evalFlight (balloonEnv c) A (0 : ℕ) period paths seed v s).1.arena =
      (((balloonEnv c).reset ((balloonEnv c).seed seed v)).1).arena := by
    unfold evalFlight
    simp only
    rcases ((balloonEnv c).reset ((balloonEnv c).seed seed v)).2 with e | o
    · rfl
    simp only
    rcases (A.beginEpisode s o).2 with e | a
    · rfl
    simp only [Nat.cast_zero, Int.toNat_zero, evalLoop, if_true]
  rw [harena] at h0
  have e : (balloonEnv (Spec.withGusts c nz')).reset ((balloonEnv (Spec.withGusts c nz')).seed seed v) =
      (balloonEnv c).reset ((balloonEnv c).seed seed v) := by
    have h1 := envReset_gust c nz' none (v := v.seed c seed) h0
    simp only [balloonEnv]
    have h2 : v.seed (Spec.withGusts c nz') seed = v.seed c seed := rfl
    rw [h2, h1]
  unfold evalFlight at h ⊢
  simp only at h ⊢
  rw [e]
  rcases x1 : ((balloonEnv c).reset ((balloonEnv c).seed seed v)).2 with er | o
  · rfl
  simp only [x1] at h ⊢
  rcases x2 : (A.beginEpisode s o).2 with er | a
  · rfl
  simp only [x2] at h ⊢
  rw [evalLoop_gust c nz' A period paths]
  intro m hm
  have := h m (by omega)
  rw [Int.toNat_natCast] at this
  rcases x3 : (evalLoop (balloonEnv c) A period paths m ((balloonEnv c).reset ((balloonEnv c).seed seed v)).1
    (A.beginEpisode s o).1 a { total := 0, within := 0, path := [], count := 0, outOfPower := false, envelopeBurst := false
                               zeropressure := false, last := none }).2.2 with er | k
  · simp only [x3] at this
    exact this
  · simp only [x3] at this
    by_cases hk : k.count = 0
    · rw [if_pos hk] at this; exact this
    · rw [if_neg hk] at this
      rcases hl : k.last with _ | ⟨r, d⟩
      · rw [hl] at this; exact this
      · rw [hl] at this; exact this

/-! ## The future -/

theorem inEpisode_after (c : EnvCfg K W Rd) {v0 : Env K W Rd} {i : ℕ} (hep : Spec.InEpisode c.world v0.arena i) (as : List ℤ) :
    Spec.InEpisode c.world (Spec.after c as v0).arena i := by
  induction as using List.reverseRecOn with
  | nil => exact hep
  | append_singleton as a ih =>
    unfold Spec.after at ih ⊢
    rw [List.foldl_append]
    simp only [List.foldl_cons, List.foldl_nil]
    rcases envStep_arena c a (as.foldl (fun v a => (v.step c a).1) v0) with h | ⟨cmd, h⟩
    · rw [h]; exact ih
    · rw [h]; exact inEpisode_step ih cmd

theorem gust_until (c : EnvCfg K W Rd) (hJ : Spec.SaneDraws c.world.J) (two : Bool) (hR : c.world.R = gpr two)
    (cal : Calendar) (hcal : Spec.Gregorian cal) (hE : c.world.sun = realSun cal) (hC : Spec.GoodWind c.world.C) (nz' : Noise4d) (T : ℤ)
    (hT : ∀ key x y p t, 0 ≤ t → t ≤ T → (NoiseModel.new.reset c.world.J key).noise c.world.nz x y p t =
      (NoiseModel.new.reset c.world.J key).noise nz' x y p t) (v : Env K W Rd) (seed : Option ℤ) (as : List ℤ)
    (hl : 180 * 1000000 * (as.length : ℤ) ≤ T) : Spec.SameGust c.world.nz nz' (Spec.after c as (v.reset c seed).1).arena := by
  obtain ⟨v0, obs, info, i, hr, hep, -⟩ := C102_env_reset c hJ two hR cal hcal hE hC v seed
  have hsun : Spec.SaneSun c.world.sun := by rw [hE]; exact C94_real_sun cal hcal.1
  intro j hj
  rw [hr] at hj ⊢
  obtain ⟨i', t, h1, rfl, ⟨m, hm, hte⟩, -⟩ := C97_from_reset c hJ hsun v v0 seed (obs, info) hr as
  rw [hj] at h1
  injection h1 with h1
  subst h1
  obtain ⟨k, d, w, hw⟩ := (inEpisode_after c hep as).weather
  rw [hw]
  refine hT (c.world.J.split k 2 0) _ _ _ _ ?_ ?_
  · rw [hte]; positivity
  · rw [hte]; omega

theorem after_append (d : EnvCfg K W Rd) (as : List ℤ) (a : ℤ) (v0 : Env K W Rd) :
    Spec.after d (as ++ [a]) v0 = ((Spec.after d as v0).step d a).1 := by
  unfold Spec.after; rw [List.foldl_append]; rfl

/-- C153, the future. What happens in the first steps of an episode does not depend on the gusts after them: if two noise functions
agree up to time `T` in the weather of every reset, the episodes are the same as long as they are not longer than `T`. -/
theorem C153_future (c : EnvCfg K W Rd) (hJ : Spec.SaneDraws c.world.J) (two : Bool) (hR : c.world.R = gpr two)
    (cal : Calendar) (hcal : Spec.Gregorian cal) (hE : c.world.sun = realSun cal) (hC : Spec.GoodWind c.world.C) (nz' : Noise4d) (T : ℤ)
    (hT : ∀ key x y p t, 0 ≤ t → t ≤ T → (NoiseModel.new.reset c.world.J key).noise c.world.nz x y p t =
      (NoiseModel.new.reset c.world.J key).noise nz' x y p t) (v : Env K W Rd) (seed : Option ℤ) (as : List ℤ)
    (hlen : 180 * 1000000 * as.length ≤ T) :
    v.reset (Spec.withGusts c nz') seed = v.reset c seed ∧
    Spec.after (Spec.withGusts c nz') as (v.reset c seed).1 = Spec.after c as (v.reset c seed).1 ∧
    ∀ a, 180 * 1000000 * (as.length + 1) ≤ T →
      (Spec.after c as (v.reset c seed).1).step (Spec.withGusts c nz') a = (Spec.after c as (v.reset c seed).1).step c a := by
  have hg := gust_until c hJ two hR cal hcal hE hC nz' T hT v seed
  have hseq : ∀ as : List ℤ, 180 * 1000000 * (as.length : ℤ) ≤ T →
      Spec.after (Spec.withGusts c nz') as (v.reset c seed).1 = Spec.after c as (v.reset c seed).1 := by
    intro as
    induction as using List.reverseRecOn with
    | nil => intro _; rfl
    | append_singleton as a ih =>
      intro hl
      have hl' : 180 * 1000000 * (as.length : ℤ) ≤ T := by simp at hl; omega
      have hg2 := hg (as ++ [a]) hl
      rw [after_append] at hg2
      rw [after_append, after_append, ih hl', envStep_gust c nz' a (hg as hl') hg2]
  refine ⟨envReset_gust c nz' seed (hg [] (by simp at *; omega)), hseq as hlen, fun a ha => ?_⟩
  refine envStep_gust c nz' a (hg as hlen) ?_
  have hg2 := hg (as ++ [a]) (by simpa using ha)
  rw [after_append] at hg2
  exact hg2

theorem after_arena (c : EnvCfg K W Rd) (as : List ℤ) : ∀ v v' : Env K W Rd, v.arena = v'.arena →
    (Spec.after c as v).arena = (Spec.after c as v').arena := by
  induction as with
  | nil => intro v v' h; exact h
  | cons a as ih =>
    intro v v' h
    refine ih _ _ ?_
    show (v.step c a).1.arena = (v'.step c a).1.arena
    unfold Env.step
    rcases Command.ofInt a with e | cmd
    · exact h
    · simp only [← h]
      rcases (v.arena.step c.world cmd).2 with e | obs
      · rfl
      · simp only
        rcases (v.arena.step c.world cmd).1.ball with _ | i
        · rfl
        · simp only
          rcases c.rewardFn ((v.arena.step c.world cmd).1.heap.balls i) with e | r <;> rfl

theorem evalLoop_after (c : EnvCfg K W Rd) (A : Agent S) (period : ℤ) (paths : Bool) (n : ℕ) :
    ∀ (v : Env K W Rd) (s : S) (a : ℤ) (k : Acc), ∃ as : List ℤ, as.length ≤ n ∧
      (evalLoop (balloonEnv c) A period paths n v s a k).1.arena = (Spec.after c as v).arena := by
  induction n with
  | zero => intro v s a k; exact ⟨[], le_rfl, rfl⟩
  | succ n ih =>
    intro v s a k
    rw [evalLoop]
    simp only
    have one : ∃ as : List ℤ, as.length ≤ n + 1 ∧ ((balloonEnv c).step a v).1.arena = (Spec.after c as v).arena := ⟨[a], by simp, rfl⟩
    rcases ((balloonEnv c).step a v).2 with e | out
    · exact one
    simp only
    rcases (A.step s out.reward out.obs).2 with e | a'
    · exact one
    simp only
    rcases (balloonEnv c).balloon ((balloonEnv c).step a v).1 with e | b
    · exact one
    simp only
    have hv : ∀ p : Prop, ∀ inst : Decidable p,
        (@ite _ p inst ((balloonEnv c).render ((balloonEnv c).step a v).1) ((balloonEnv c).step a v).1).arena = (v.step c a).1.arena := by
      intro p inst; split_ifs <;> rfl
    by_cases hp : period = 0
    · rw [if_pos hp]; exact one
    rw [if_neg hp]
    by_cases ht : out.terminal
    · rw [if_pos ht]; exact ⟨[a], by simp, hv _ _⟩
    · rw [if_neg ht]
      obtain ⟨as, h1, h2⟩ := ih (if Int.fmod k.count period = 0 then (balloonEnv c).render ((balloonEnv c).step a v).1
        else ((balloonEnv c).step a v).1) (A.step s out.reward out.obs).1 a' { k with
              total := k.total + out.reward
              path := if paths then k.path ++ [SimpleState.of b] else k.path
              within := k.within + @ite _ (withinRadius b ((balloonEnv c).radius ((balloonEnv c).step a v).1)) (Classical.propDecidable _) 1 0
              count := k.count + 1
              last := some (out.reward, out.terminal) }
      refine ⟨a :: as, by simpa using h1, ?_⟩
      rw [h2]
      exact after_arena c as _ _ (hv _ _)

/-- C153, the future, for agents: a flight of at most `maxLen` steps is the same whatever gusts blow after them. -/
theorem C153_agent_future (c : EnvCfg K W Rd) (hJ : Spec.SaneDraws c.world.J) (two : Bool) (hR : c.world.R = gpr two)
    (cal : Calendar) (hcal : Spec.Gregorian cal) (hE : c.world.sun = realSun cal) (hC : Spec.GoodWind c.world.C) (nz' : Noise4d) (T : ℤ)
    (hT : ∀ key x y p t, 0 ≤ t → t ≤ T → (NoiseModel.new.reset c.world.J key).noise c.world.nz x y p t =
      (NoiseModel.new.reset c.world.J key).noise nz' x y p t) (A : Agent S) (maxLen period : ℤ) (paths : Bool) (seed : ℤ) (v : Env K W Rd)
    (s : S) (h0 : 0 ≤ T) (hlen : 180 * 1000000 * maxLen ≤ T) :
    evalFlight (balloonEnv (Spec.withGusts c nz')) A maxLen period paths seed v s = evalFlight (balloonEnv c) A maxLen period paths seed v s := by
  refine C153_agent c nz' A maxLen period paths seed v s fun n hn => ?_
  have hg := gust_until c hJ two hR cal hcal hE hC nz' T hT (v.seed c seed) none
  suffices h : ∃ as : List ℤ, as.length ≤ n ∧ (evalFlight (balloonEnv c) A n period paths seed v s).1.arena =
      (Spec.after c as ((v.seed c seed).reset c none).1).arena by
    obtain ⟨as, h1, h2⟩ := h
    rw [h2]
    refine hg as ?_
    have : (as.length : ℤ) ≤ max maxLen 0 := le_trans (by exact_mod_cast h1) hn
    rcases le_total maxLen 0 with hm | hm
    · rw [max_eq_right hm] at this; omega
    · rw [max_eq_left hm] at this; omega
  unfold evalFlight
  simp only
  have none' : ∃ as : List ℤ, as.length ≤ n ∧ ((balloonEnv c).reset ((balloonEnv c).seed seed v)).1.arena =
      (Spec.after c as ((v.seed c seed).reset c none).1).arena := ⟨[], by simp, rfl⟩
  rcases ((balloonEnv c).reset ((balloonEnv c).seed seed v)).2 with e | o
  · exact none'
  simp only
  rcases (A.beginEpisode s o).2 with e | a
  · exact none'
  simp only [Int.toNat_natCast]
  obtain ⟨as, h1, h2⟩ := evalLoop_after c A period paths n ((balloonEnv c).reset ((balloonEnv c).seed seed v)).1
    (A.beginEpisode s o).1 a { total := 0, within := 0, path := [], count := 0, outOfPower := false, envelopeBurst := false
                               zeropressure := false, last := none }
  refine ⟨as, h1, ?_⟩
  rw [show ((v.seed c seed).reset c none).1 = ((balloonEnv c).reset ((balloonEnv c).seed seed v)).1 from rfl, ← h2]
  generalize evalLoop (balloonEnv c) A period paths n ((balloonEnv c).reset ((balloonEnv c).seed seed v)).1
    (A.beginEpisode s o).1 a _ = l
  rcases hl : l.2.2 with e | k
  · rfl
  simp only
  split_ifs
  · rfl
  rcases k.last with _ | ⟨r, d⟩ <;> rfl

/-- Gusts that set in only after the first day. -/
noncomputable def lateGusts : Noise4d := fun _ _ _ _ d => if 50 < d then 1 else 0

theorem lateGusts_quiet (key : List ℕ) (x y p : ℝ) (t : ℤ) (h0 : 0 ≤ t) (h1 : t ≤ 180 * 1000000 * 480) :
    (NoiseModel.new.reset sunnyWorld.J key).noise sunnyWorld.nz x y p t = (NoiseModel.new.reset sunnyWorld.J key).noise lateGusts x y p t := by
  have hh : hoursOf t ≤ 24 := by
    have : (t : ℝ) ≤ 180 * 1000000 * 480 := by exact_mod_cast h1
    simp only [hoursOf, totalSeconds]
    linarith
  have h0' : 0 ≤ hoursOf t := by
    have : (0 : ℝ) ≤ t := by exact_mod_cast h0
    simp only [hoursOf, totalSeconds]
    linarith
  have hn : ∀ (h : Harmonic) (st : HarmonicState), 1 ≤ h.tSpacing → st.offset 3 = -1 →
      harmonicNoise sunnyWorld.nz h x y p t (some st) = harmonicNoise lateGusts h x y p t (some st) := by
    intro h st h2 h3
    have h4 : hoursOf t / h.tSpacing ≤ 24 := (div_le_self h0' h2).trans hh
    have h5 : ¬ 50 < hoursOf t / h.tSpacing + st.offset 3 := by rw [h3]; linarith
    simp only [harmonicNoise, lateGusts, h5, if_false]
    rfl
  have hc : ∀ (hs : Fin 5 → Harmonic) (k : List ℕ) (n : NoiseComp), (∀ i, 1 ≤ (hs i).tSpacing) →
      compNoise sunnyWorld.nz hs (compReset sunnyWorld.J k n) x y p t = compNoise lateGusts hs (compReset sunnyWorld.J k n) x y p t := by
    intro hs k n h2
    have hl : ∀ (l : List (Fin 5)) (acc : ℝ × ℝ × ℝ),
        noiseLoop sunnyWorld.nz x y p t (l.map fun i => (hs i, compReset sunnyWorld.J k n i)) acc =
        noiseLoop lateGusts x y p t (l.map fun i => (hs i, compReset sunnyWorld.J k n i)) acc := by
      intro l
      induction l with
      | nil => intro acc; rfl
      | cons i l ih =>
        intro acc
        simp only [List.map_cons, noiseLoop]
        have : harmonicNoise sunnyWorld.nz (hs i) x y p t (compReset sunnyWorld.J k n i) =
            harmonicNoise lateGusts (hs i) x y p t (compReset sunnyWorld.J k n i) :=
          hn _ _ (h2 i) (by norm_num [harmonicReset, sunnyWorld, demoWorld])
        rw [this]
        rcases harmonicNoise lateGusts (hs i) x y p t (compReset sunnyWorld.J k n i) with e | m
        · rfl
        · exact ih _
    simp only [compNoise, hl]
  simp only [NoiseModel.noise, NoiseModel.reset]
  rw [hc uHarmonics _ _ fun i => by fin_cases i <;> norm_num [uHarmonics], hc vHarmonics _ _ fun i => by fin_cases i <;> norm_num [vHarmonics]]

/-- StationSeeker's first day (480 steps) in the sunny world is the same when gusts set in on the second. -/
example (v : Env (List ℕ) Unit Unit) (seed : ℤ) : sunnyWorld.nz ≠ lateGusts ∧
    evalFlight (balloonEnv (Spec.withGusts sunnyCfg lateGusts)) stationSeeker 480 10 true seed v () =
      evalFlight (balloonEnv sunnyCfg) stationSeeker 480 10 true seed v () := by
  refine ⟨fun h => ?_, C153_agent_future sunnyCfg sunnyWorld_draws true rfl gregorian gregorian_ok rfl good_static lateGusts (180 * 1000000 * 480)
    lateGusts_quiet stationSeeker 480 10 true seed v () (by norm_num) (by norm_num)⟩
  have := congrFun (congrFun (congrFun (congrFun (congrFun h 0) 0) 0) 0) 51
  norm_num [sunnyWorld, demoWorld, lateGusts] at this

/-- The same for any 480 actions. -/
example (v : Env (List ℕ) Unit Unit) (seed : ℤ) (as : List ℤ) (h : as.length ≤ 480) :
    Spec.after (Spec.withGusts sunnyCfg lateGusts) as (v.reset sunnyCfg (some seed)).1 = Spec.after sunnyCfg as (v.reset sunnyCfg (some seed)).1 :=
  (C153_future sunnyCfg sunnyWorld_draws true rfl gregorian gregorian_ok rfl good_static lateGusts (180 * 1000000 * 480) lateGusts_quiet v
    (some seed) as (by omega)).2.1

end BLE
