import Verif.Model.Env
import Verif.Props.Balloon
import Verif.Props.Reward
import Verif.Props.Wind

/-!
# The environment: C21–C24
-/

namespace BLE

variable {K W Rd : Type}

/-! ## Following one step -/

/-- Inversion of `Arena.measure`: the heap, key, references of the arena are untouched. -/
theorem measure_frame (E : World K W) (A : Arena K W) (i : ℕ) (F : Feat) :
    (A.measure E i F).1.heap = A.heap ∧ (A.measure E i F).1.rng = A.rng ∧ (A.measure E i F).1.wind = A.wind ∧
    (A.measure E i F).1.atm = A.atm ∧ (A.measure E i F).1.ball = A.ball := by
  unfold Arena.measure
  split
  · simp
  · simp only
    split <;> simp

/-- What a step of the arena does to its parts, successful or not. -/
theorem arenaStep_frame (E : World K W) (a : Command) (A : Arena K W) :
    (A.step E a).1.rng = A.rng ∧ (A.step E a).1.wind = A.wind ∧ (A.step E a).1.atm = A.atm ∧
    (A.step E a).1.ball = A.ball ∧ (A.step E a).1.heap.winds = A.heap.winds ∧
    (A.step E a).1.heap.atms = A.heap.atms ∧ (A.step E a).1.heap.nextBall = A.heap.nextBall := by
  unfold Arena.step
  split
  · simp
  · rename_i i _
    split
    · simp
    · rename_i w _
      simp only
      split
      · simp [Arena.mutate]
      · split
        · simp [Arena.mutate]
        · rename_i F _
          obtain ⟨h1, h2, h3, h4, h5⟩ := measure_frame E (A.mutate i
            (simulateStep E.sun (A.heap.atms A.atm) w.1 w.2 a agentStep defaultStride (A.heap.balls i)).1) i F
          refine ⟨h2, h3, h4, h5, ?_⟩
          rw [h1]
          simp [Arena.mutate]

/-- What a step of the arena does to the balloons: only the arena's own balloon may change, and it changes
by one `simulate_step`. -/
theorem arenaStep_ball (E : World K W) (a : Command) (A : Arena K W) (i : ℕ) (hi : A.ball = some i) :
    ((∃ e, windAtBalloon E (A.heap.winds A.wind) (A.heap.balls i) = .error e ∧ A.step E a = (A, .error e)) ∨
    ∃ w, windAtBalloon E (A.heap.winds A.wind) (A.heap.balls i) = .ok w ∧
      (A.step E a).1.heap.balls = Function.update A.heap.balls i
        (simulateStep E.sun (A.heap.atms A.atm) w.1 w.2 a agentStep defaultStride (A.heap.balls i)).1 ∧
      (∀ e, (simulateStep E.sun (A.heap.atms A.atm) w.1 w.2 a agentStep defaultStride (A.heap.balls i)).2 = .error e →
        (A.step E a).2 = .error e)) := by
  unfold Arena.step
  rw [hi]
  simp only
  rcases hw : windAtBalloon E (A.heap.winds A.wind) (A.heap.balls i) with e | w
  · left; exact ⟨e, rfl, rfl⟩
  · right
    refine ⟨w, rfl, ?_⟩
    simp only
    split
    · rename_i e he
      refine ⟨rfl, ?_⟩
      intro e' he'
      rw [he, Except.error.injEq] at he'
      rw [he']
    · rename_i he
      split
      · refine ⟨rfl, ?_⟩
        intro e' he'
        rw [he] at he'; cases he'
      · rename_i F _
        obtain ⟨h1, _⟩ := measure_frame E (A.mutate i
            (simulateStep E.sun (A.heap.atms A.atm) w.1 w.2 a agentStep defaultStride (A.heap.balls i)).1) i F
        rw [h1]
        refine ⟨rfl, ?_⟩
        intro e' he'
        rw [he] at he'; cases he'

/-- A successful step of the environment. -/
theorem envStep_ok {c : EnvCfg K W Rd} {a : ℤ} {v v' : Env K W Rd} {out : StepOut}
    (h : v.step c a = (v', .ok out)) : ∃ cmd i r, Command.ofInt a = .ok cmd ∧
      (v.arena.step c.world cmd) = (v'.arena, .ok out.obs) ∧ v.arena.ball = some i ∧ v'.arena.ball = some i ∧
      c.rewardFn (v'.arena.heap.balls i) = .ok r ∧ out.reward = r ∧ out.info = getInfo (v'.arena.heap.balls i) ∧
      out.terminal = (out.info.outOfPower || out.info.envelopeBurst || out.info.zeropressure) ∧
      v'.iteration = v.iteration + 1 ∧ v'.rng = v.rng := by
  unfold Env.step at h
  rcases hc : Command.ofInt a with e | cmd
  · rw [hc] at h; cases h
  · rw [hc] at h
    simp only at h
    rcases ho : (v.arena.step c.world cmd).2 with e | obs
    · rw [ho] at h; cases h
    · rw [ho] at h
      simp only at h
      have hb := (arenaStep_frame c.world cmd v.arena).2.2.2.1
      rcases hi : (v.arena.step c.world cmd).1.ball with _ | i
      · rw [hi] at h; cases h
      · rw [hi] at h
        simp only at h
        rcases hr : c.rewardFn ((v.arena.step c.world cmd).1.heap.balls i) with e | r
        · rw [hr] at h; cases h
        · rw [hr] at h
          simp only [Prod.mk.injEq, Except.ok.injEq] at h
          obtain ⟨rfl, rfl⟩ := h
          exact ⟨cmd, i, r, rfl, by rw [← ho], by rw [← hb, hi], hi, hr, rfl, rfl, rfl, rfl, rfl⟩

/-! ## C21 -/

/-- The terminal flag is set exactly when the balloon's flight has ended, and then exactly one cause is
reported; otherwise none. -/
theorem C21_terminal_iff (c : EnvCfg K W Rd) (a : ℤ) (v v' : Env K W Rd) (out : StepOut)
    (h : v.step c a = (v', .ok out)) : ∃ i, v'.arena.ball = some i ∧
      (out.terminal = true ↔ (v'.arena.heap.balls i).status ≠ .ok) ∧
      (out.terminal = true →
        (out.info.outOfPower = true ∧ out.info.envelopeBurst = false ∧ out.info.zeropressure = false ∧
          (v'.arena.heap.balls i).status = .outOfPower) ∨
        (out.info.outOfPower = false ∧ out.info.envelopeBurst = true ∧ out.info.zeropressure = false ∧
          (v'.arena.heap.balls i).status = .burst) ∨
        (out.info.outOfPower = false ∧ out.info.envelopeBurst = false ∧ out.info.zeropressure = true ∧
          (v'.arena.heap.balls i).status = .zeropressure)) ∧
      (out.terminal = false →
        out.info.outOfPower = false ∧ out.info.envelopeBurst = false ∧ out.info.zeropressure = false) ∧
      out.info.timeElapsed = (v'.arena.heap.balls i).timeElapsed := by
  obtain ⟨cmd, i, r, _, _, _, hi, _, _, hinfo, hterm, _⟩ := envStep_ok h
  refine ⟨i, hi, ?_⟩
  rw [hterm, hinfo]
  unfold getInfo
  cases (v'.arena.heap.balls i).status <;> simp

/-- Once the flight has ended no step succeeds, the simulation does not advance, and the iteration counter
stays. -/
theorem C21_no_step_after_end (c : EnvCfg K W Rd) (a : ℤ) (v : Env K W Rd) (i : ℕ) (hi : v.arena.ball = some i)
    (hend : (v.arena.heap.balls i).status ≠ .ok) :
    (∃ e, (v.step c a).2 = .error e) ∧ (v.step c a).1.iteration = v.iteration ∧
    ((v.step c a).1.arena.heap.balls i).timeElapsed = (v.arena.heap.balls i).timeElapsed ∧
    ((v.step c a).1.arena.heap.balls i).status = (v.arena.heap.balls i).status := by
  unfold Env.step
  rcases hc : Command.ofInt a with e | cmd
  · exact ⟨⟨e, rfl⟩, rfl, rfl, rfl⟩
  · simp only
    have key : ∃ e, (v.arena.step c.world cmd).2 = .error e ∧
        ((v.arena.step c.world cmd).1.heap.balls i).timeElapsed = (v.arena.heap.balls i).timeElapsed ∧
        ((v.arena.step c.world cmd).1.heap.balls i).status = (v.arena.heap.balls i).status := by
      rcases arenaStep_ball c.world cmd v.arena i hi with ⟨e, _, h⟩ | ⟨w, _, h1, h2⟩
      · rw [h]; exact ⟨e, rfl, rfl, rfl⟩
      · have hs : simulateStep c.world.sun (v.arena.heap.atms v.arena.atm) w.1 w.2 cmd agentStep defaultStride
            (v.arena.heap.balls i) = ({ v.arena.heap.balls i with lastCommand := cmd }, .error .assertion) := by
          unfold simulateStep
          simp only
          rw [if_pos hend]
        refine ⟨.assertion, h2 _ (by rw [hs]), ?_⟩
        rw [h1, hs]
        simp
    obtain ⟨e, h1, h2, h3⟩ := key
    rw [h1]
    exact ⟨⟨e, rfl⟩, rfl, h2, h3⟩

/-! ## C22 -/

/-- Every integer other than 0, 1, 2 is rejected with `ValueError`, and nothing changes: simulator,
renderer, counter and random state are what they were. -/
theorem C22_invalid_action (c : EnvCfg K W Rd) (a : ℤ) (v : Env K W Rd) (h0 : a ≠ 0) (h1 : a ≠ 1) (h2 : a ≠ 2) :
    v.step c a = (v, .error .value) := by
  simp [Env.step, Command.ofInt, h0, h1, h2]

/-- 0 means DOWN, 1 means STAY and 2 means UP: that is what the balloon records as its last command. -/
theorem C22_meaning (c : EnvCfg K W Rd) (a : ℤ) (v v' : Env K W Rd) (out : StepOut)
    (h : v.step c a = (v', .ok out)) : ∃ i, v'.arena.ball = some i ∧
      ((a = 0 ∧ (v'.arena.heap.balls i).lastCommand = .down) ∨ (a = 1 ∧ (v'.arena.heap.balls i).lastCommand = .stay) ∨
        (a = 2 ∧ (v'.arena.heap.balls i).lastCommand = .up)) := by
  obtain ⟨cmd, i, r, hc, hs, hi, hi', _⟩ := envStep_ok h
  refine ⟨i, hi', ?_⟩
  have hl : (v'.arena.heap.balls i).lastCommand = cmd := by
    rcases arenaStep_ball c.world cmd v.arena i hi with ⟨e, _, h⟩ | ⟨w, _, h1, _⟩
    · rw [hs] at h; simp at h
    · rw [hs] at h1
      rw [h1]
      simp only [Function.update_self]
      exact C08_records_request _ _ _ _ _ _ _ _
  rw [hl]
  unfold Command.ofInt at hc
  split_ifs at hc with c0 c1 c2
  · exact Or.inl ⟨c0, (Except.ok.inj hc).symm⟩
  · exact Or.inr (Or.inl ⟨c1, (Except.ok.inj hc).symm⟩)
  · exact Or.inr (Or.inr ⟨c2, (Except.ok.inj hc).symm⟩)

/-! ## C23 -/

/-- Two arenas that behave alike: the objects they refer to have equal contents (object identities may
differ), and each feature constructor refers to its own arena's objects. -/
def Alike (A B : Arena K W) : Prop :=
  ∃ i j F G, A.ball = some i ∧ B.ball = some j ∧ A.feat = some F ∧ B.feat = some G ∧
    F.wind = A.wind ∧ F.atm = A.atm ∧ G.wind = B.wind ∧ G.atm = B.atm ∧ F.data = G.data ∧
    A.heap.balls i = B.heap.balls j ∧ A.heap.winds A.wind = B.heap.winds B.wind ∧
    A.heap.atms A.atm = B.heap.atms B.atm

theorem measure_alike (E : World K W) {A B : Arena K W} {i j : ℕ} {F G : Feat} (hA : A.ball = some i)
    (hB : B.ball = some j) (hfA : A.feat = some F) (hfB : B.feat = some G) (h1 : F.wind = A.wind)
    (h2 : F.atm = A.atm) (h3 : G.wind = B.wind) (h4 : G.atm = B.atm) (h5 : F.data = G.data)
    (h6 : A.heap.balls i = B.heap.balls j) (h7 : A.heap.winds A.wind = B.heap.winds B.wind)
    (h8 : A.heap.atms A.atm = B.heap.atms B.atm) :
    (A.measure E i F).2 = (B.measure E j G).2 ∧ Alike (A.measure E i F).1 (B.measure E j G).1 := by
  unfold Arena.measure
  rw [h6, h7]
  rcases windAtBalloon E (B.heap.winds B.wind) (B.heap.balls j) with e | w
  · exact ⟨rfl, i, j, F, G, hA, hB, hfA, hfB, h1, h2, h3, h4, h5, h6, h7, h8⟩
  · simp only
    have hgp : (F.view E A.heap).gp = (G.view E B.heap).gp := by
      simp only [Feat.view, h1, h3, h5, h7]
    have ho : ((F.view E A.heap).observe (B.heap.balls j) w).1.gp = ((G.view E B.heap).observe (B.heap.balls j) w).1.gp ∧
        ((F.view E A.heap).observe (B.heap.balls j) w).2 = ((G.view E B.heap).observe (B.heap.balls j) w).2 := by
      unfold FeatState.observe
      rw [hgp]
      rcases (G.view E B.heap).gp.observe _ _ _ _ w with e | gp
      · exact ⟨rfl, rfl⟩
      · exact ⟨rfl, rfl⟩
    rw [ho.1, ho.2]
    have hv : ({ F with data := ((G.view E B.heap).observe (B.heap.balls j) w).1.gp.data, last := some i } : Feat).view E A.heap =
        ({ G with data := ((G.view E B.heap).observe (B.heap.balls j) w).1.gp.data, last := some j } : Feat).view E B.heap := by
      simp only [Feat.view, h1, h2, h3, h4, h7, h8, Option.map, h6]
    rcases ((G.view E B.heap).observe (B.heap.balls j) w).2 with e | u
    · exact ⟨rfl, i, j, _, _, hA, hB, rfl, rfl, h1, h2, h3, h4, rfl, h6, h7, h8⟩
    · exact ⟨by simp only; rw [hv], i, j, _, _, hA, hB, rfl, rfl, h1, h2, h3, h4, rfl, h6, h7, h8⟩

theorem step_alike (E : World K W) (a : Command) {A B : Arena K W} (h : Alike A B) :
    (A.step E a).2 = (B.step E a).2 ∧ Alike (A.step E a).1 (B.step E a).1 := by
  obtain ⟨i, j, F, G, hA, hB, hfA, hfB, h1, h2, h3, h4, h5, h6, h7, h8⟩ := h
  have hAl : Alike A B := ⟨i, j, F, G, hA, hB, hfA, hfB, h1, h2, h3, h4, h5, h6, h7, h8⟩
  unfold Arena.step
  rw [hA, hB]
  simp only
  rw [h6, h7, h8]
  rcases windAtBalloon E (B.heap.winds B.wind) (B.heap.balls j) with e | w
  · exact ⟨rfl, hAl⟩
  · simp only
    generalize simulateStep E.sun (B.heap.atms B.atm) w.1 w.2 a agentStep defaultStride (B.heap.balls j) = r
    obtain ⟨b, res⟩ := r
    have e1 : (A.mutate i b).heap.balls i = (B.mutate j b).heap.balls j := by simp [Arena.mutate]
    rcases res with e | u
    · exact ⟨rfl, i, j, F, G, hA, hB, hfA, hfB, h1, h2, h3, h4, h5, e1, h7, h8⟩
    · simp only
      rw [show (A.mutate i b).feat = some F from hfA, show (B.mutate j b).feat = some G from hfB]
      exact measure_alike E (A := A.mutate i b) (B := B.mutate j b) hA hB hfA hfB h1 h2 h3 h4 h5 e1 h7 h8

/-- Resetting the forecast of this kind of wind field forgets its previous state. -/
def Spec.ForgetsForecast (C : WindClass K W) : Prop :=
  ∀ (key : K) (date : ℤ) (w w' : W), C.resetForecast key date w = C.resetForecast key date w'

theorem reset_alike (E : World K W) (hC : Spec.ForgetsForecast E.C) (key : K) (A B : Arena K W) :
    (A.reset E key).2 = (B.reset E key).2 ∧
    (∀ obs, (A.reset E key).2 = .ok obs → Alike (A.reset E key).1 (B.reset E key).1) := by
  unfold Arena.reset
  simp only
  rcases initBalloon E (E.J.uniform (E.J.split key 3 1)) (E.J.split key 3 0)
    (sampleTime timeBegin (E.J.choice (E.J.split key 3 2) (sampleTimeCount timeBegin timeEnd).toNat)) with e | b
  · exact ⟨rfl, fun obs h => by cases h⟩
  · simp only
    by_cases hb : b.status ≠ .ok
    · rw [if_pos hb, if_pos hb]
      exact ⟨rfl, fun obs h => by cases h⟩
    · rw [if_neg hb, if_neg hb]
      have hw : ∀ (w w' : WindField W) (k : K) (d : ℤ), w.reset E.J E.C k d = w'.reset E.J E.C k d := by
        intro w w' k d
        unfold WindField.reset
        rw [hC _ _ w.sub w'.sub]
        rfl
      suffices h : ∀ (r r' : Arena K W × Except Err (List ℝ)),
          r.2 = r'.2 ∧ Alike r.1 r'.1 → r.2 = r'.2 ∧ (∀ obs, r.2 = .ok obs → Alike r.1 r'.1) by
        refine h _ _ (measure_alike E rfl rfl rfl rfl rfl rfl rfl rfl rfl ?_ ?_ ?_)
        · simp only [Function.update_self]
        · simp only [Function.update_self]
          exact hw _ _ _ _
        · simp only [Function.update_self]
      exact fun r r' h => ⟨h.1, fun _ _ => h.2⟩

/-- The outcomes of playing a list of actions, failures included (the caller may go on after a failure). -/
noncomputable def Spec.play (c : EnvCfg K W Rd) : List ℤ → Env K W Rd → List (Except Err StepOut)
  | [], _ => []
  | a :: as, v => (v.step c a).2 :: Spec.play c as (v.step c a).1

theorem envStep_alike (c : EnvCfg K W Rd) (a : ℤ) {u v : Env K W Rd} (h : Alike u.arena v.arena) :
    (u.step c a).2 = (v.step c a).2 ∧ Alike (u.step c a).1.arena (v.step c a).1.arena := by
  unfold Env.step
  rcases Command.ofInt a with e | cmd
  · exact ⟨rfl, h⟩
  · simp only
    obtain ⟨h1, h2⟩ := step_alike c.world cmd h
    have h2' := h2
    obtain ⟨i, j, F, G, hA, hB, _, _, _, _, _, _, _, h6, h7, h8⟩ := h2
    rw [h1]
    rcases (v.arena.step c.world cmd).2 with e | obs
    · exact ⟨rfl, h2'⟩
    · simp only
      rw [hA, hB]
      simp only
      rw [h6]
      rcases c.rewardFn ((v.arena.step c.world cmd).1.heap.balls j) with e | r
      · exact ⟨rfl, h2'⟩
      · exact ⟨rfl, h2'⟩

theorem play_alike (c : EnvCfg K W Rd) (as : List ℤ) {u v : Env K W Rd} (h : Alike u.arena v.arena) :
    Spec.play c as u = Spec.play c as v := by
  induction as generalizing u v with
  | nil => rfl
  | cons a as ih =>
    obtain ⟨h1, h2⟩ := envStep_alike c a h
    simp only [Spec.play, h1, ih h2]

/-- Seeded runs are reproducible. Take any two environment objects of the same configuration, whatever was
done with them before (any contents of their heaps, any renderer, radius, counters, random state), reset
both with the same seed and play the same actions: the resets have the same outcome, and if they
succeed, so do all steps — observations, rewards, flags and exceptions. -/
theorem C23_reproducible (c : EnvCfg K W Rd) (hC : Spec.ForgetsForecast c.world.C) (u v : Env K W Rd) (seed : ℤ)
    (actions : List ℤ) :
    (u.reset c (some seed)).2 = (v.reset c (some seed)).2 ∧
    (∀ o, (u.reset c (some seed)).2 = .ok o →
      Spec.play c actions (u.reset c (some seed)).1 = Spec.play c actions (v.reset c (some seed)).1) := by
  unfold Env.reset
  simp only [Env.seed]
  obtain ⟨h1, h2⟩ := reset_alike c.world hC (c.world.J.split (c.world.J.prngKey seed) 2 1) u.arena v.arena
  rw [h1]
  rw [h1] at h2
  rcases ho : (v.arena.reset c.world (c.world.J.split (c.world.J.prngKey seed) 2 1)).2 with e | obs
  · exact ⟨rfl, fun o h => by cases h⟩
  · have hal := h2 obs ho
    have hal' := hal
    obtain ⟨i, j, F, G, hA, hB, _, _, _, _, _, _, _, h6, h7, h8⟩ := hal
    simp only
    rw [hA, hB]
    simp only
    rw [h6]
    exact ⟨rfl, fun _ _ => play_alike c actions hal'⟩

/-- The wind fields of the code base satisfy the hypothesis of `C23_reproducible`. -/
theorem forgets_static : Spec.ForgetsForecast (staticWind K) := fun _ _ _ _ => rfl

theorem forgets_grid (s : FieldShape) (sample : K → ℤ → GridField) : Spec.ForgetsForecast (gridWind s sample) :=
  fun _ _ _ _ => rfl

/-! ### Keys of successive episodes -/

/-- What a user may do between two resets without a seed. -/
inductive Spec.Op
  | step (a : ℤ)
  | reset

/-- Any use of an environment object without reseeding. -/
noncomputable def Spec.use (c : EnvCfg K W Rd) : List Spec.Op → Env K W Rd → Env K W Rd
  | [], v => v
  | .step a :: ops, v => Spec.use c ops (v.step c a).1
  | .reset :: ops, v => Spec.use c ops (v.reset c none).1

/-- The key given to the arena by the `n`-th unseeded reset after seeding with `seed`. -/
def Spec.episodeKey (J : Jax K) (seed : ℤ) (n : ℕ) : K :=
  J.split ((fun k => J.split k 2 0)^[n] (J.prngKey seed)) 2 1

theorem envStep_rng (c : EnvCfg K W Rd) (a : ℤ) (v : Env K W Rd) : (v.step c a).1.rng = v.rng := by
  unfold Env.step
  split
  · rfl
  · simp only
    split
    · rfl
    · split
      · rfl
      · split <;> rfl

theorem envReset_rng (c : EnvCfg K W Rd) (v : Env K W Rd) : (v.reset c none).1.rng = c.world.J.split v.rng 2 0 ∧
    (v.reset c none).1.arena = (v.arena.reset c.world (c.world.J.split v.rng 2 1)).1 := by
  unfold Env.reset
  simp only
  split
  · exact ⟨rfl, rfl⟩
  · split <;> exact ⟨rfl, rfl⟩

/-- Episodes never reuse a key: after seeding, however the environment was used, the next unseeded reset
resets the arena with the key of its position in the sequence; and these keys are pairwise different as
long as splitting is collision-free (an idealisation of the hash behind `jax.random.split`). -/
theorem C23_fresh_keys (c : EnvCfg K W Rd) (seed : ℤ) (v : Env K W Rd) (ops : List Spec.Op) :
    ((Spec.use c ops (v.seed c seed)).reset c none).1.arena =
      ((Spec.use c ops (v.seed c seed)).arena.reset c.world
        (Spec.episodeKey c.world.J seed (ops.countP fun o => match o with | .reset => true | _ => false))).1 ∧
    ((∀ k k' i i', c.world.J.split k 2 i = c.world.J.split k' 2 i' → k = k' ∧ i = i') →
      (∀ k i, c.world.J.split k 2 i ≠ c.world.J.prngKey seed) →
      ∀ m n, Spec.episodeKey c.world.J seed m = Spec.episodeKey c.world.J seed n → m = n) := by
  constructor
  · rw [(envReset_rng c _).2]
    have key : ∀ (ops : List Spec.Op) (v : Env K W Rd) (k : K), v.rng = k → (Spec.use c ops v).rng =
        (fun k => c.world.J.split k 2 0)^[ops.countP fun o => match o with | .reset => true | _ => false] k := by
      intro ops
      induction ops with
      | nil => intro v k h; exact h
      | cons o ops ih =>
        intro v k h
        cases o with
        | step a => simpa [Spec.use] using ih (v.step c a).1 k ((envStep_rng c a v).trans h)
        | reset =>
          have := ih (v.reset c none).1 (c.world.J.split k 2 0) (by rw [(envReset_rng c v).1, h])
          simpa [Spec.use, Function.iterate_succ_apply] using this
    rw [key ops (v.seed c seed) _ rfl]
    rfl
  · intro hinj hroot m n h
    have h' := (hinj _ _ _ _ h).1
    clear h
    induction m generalizing n with
    | zero =>
      cases n with
      | zero => rfl
      | succ n =>
        rw [Function.iterate_succ_apply'] at h'
        exact absurd h'.symm (hroot _ _)
    | succ m ih =>
      cases n with
      | zero =>
        rw [Function.iterate_succ_apply'] at h'
        exact absurd h' (hroot _ _)
      | succ n =>
        rw [Function.iterate_succ_apply', Function.iterate_succ_apply'] at h'
        rw [ih n (hinj _ _ _ _ h').1]

/-- Symbolic keys (paths in the splitting tree) are collision-free, so the hypotheses above can be met. -/
example : ∃ (J : Jax (List ℕ)), (∀ k k' i i', J.split k 2 i = J.split k' 2 i' → k = k' ∧ i = i') ∧
    (∀ k i, J.split k 2 i ≠ J.prngKey 7) ∧ Spec.episodeKey J 7 0 ≠ Spec.episodeKey J 7 1 := by
  refine ⟨{ prngKey := fun _ => [], split := fun k _ i => i :: k, uniform := fun _ => 0, uniform4 := fun _ _ => 0,
            beta := fun _ => 0, choice := fun _ _ => 0, upwelling := fun _ => 250 }, ?_, ?_, ?_⟩
  · intro k k' i i' h; simp only [List.cons.injEq] at h; exact ⟨h.2, h.1⟩
  · intro k i h; cases h
  · simp [Spec.episodeKey]

/-! ## C24 -/

/-- Any sequence of arena steps. -/
noncomputable def Spec.fly (E : World K W) : List Command → Arena K W → Arena K W
  | [], A => A
  | a :: as, A => Spec.fly E as (A.step E a).1

theorem fly_frame (E : World K W) (as : List Command) (A : Arena K W) :
    (Spec.fly E as A).wind = A.wind ∧ (Spec.fly E as A).atm = A.atm ∧ (Spec.fly E as A).ball = A.ball ∧
    (Spec.fly E as A).heap.nextBall = A.heap.nextBall ∧ (Spec.fly E as A).heap.atms = A.heap.atms ∧
    (Spec.fly E as A).heap.winds = A.heap.winds ∧
    (∀ j, A.ball ≠ some j → (Spec.fly E as A).heap.balls j = A.heap.balls j) := by
  induction as generalizing A with
  | nil => simp [Spec.fly]
  | cons a as ih =>
    obtain ⟨h1, h2, h3, h4, h5, h6, h7⟩ := arenaStep_frame E a A
    obtain ⟨i1, i2, i3, i4, i5, i6, i7⟩ := ih (A.step E a).1
    simp only [Spec.fly]
    refine ⟨i1.trans h2, i2.trans h3, i3.trans h4, i4.trans h7, i5.trans h6, i6.trans h5, fun j hj => ?_⟩
    rw [i7 j (by rw [h4]; exact hj)]
    rcases hb : A.ball with _ | i
    · simp [Arena.step, hb]
    · rcases arenaStep_ball E a A i hb with ⟨e, _, h⟩ | ⟨w, _, h, _⟩
      · rw [h]
      · rw [h, Function.update_of_ne]
        rintro rfl
        exact hj hb

/-- The full property is false: the saved value refers to the live objects. Restoring it after any number of
steps changes nothing at all — the arena stays where the steps left it. -/
theorem C24_restore_is_noop (E : World K W) (A : Arena K W) (st : SimState) (h : A.getState = .ok st)
    (as : List Command) : (Spec.fly E as A).setState st = (Spec.fly E as A, .ok ()) := by
  obtain ⟨h1, h2, h3, _⟩ := fly_frame E as A
  unfold Arena.getState at h
  rcases hb : A.ball with _ | i
  · rw [hb] at h; cases h
  · rw [hb] at h
    have := (Except.ok.inj h)
    subst this
    unfold Arena.setState
    rw [h3, hb]
    simp only
    rw [← h1, ← h2]
    generalize Spec.fly E as A = B at *
    rw [hb] at h3
    cases B
    simp only at h3 ⊢
    rw [h3]

/-- In particular, whenever the balloon was actually simulated in between, the restored balloon state is not
the saved one (its clock has advanced). -/
theorem C24_not_restored (E : World K W) (A : Arena K W) (st : SimState) (h : A.getState = .ok st) (a : Command)
    (w : ℝ × ℝ) (hw : windAtBalloon E (A.heap.winds A.wind) (A.heap.balls st.ball) = .ok w) (t : BState)
    (ht : simulateStep E.sun (A.heap.atms A.atm) w.1 w.2 a agentStep defaultStride (A.heap.balls st.ball) = (t, .ok ())) :
    ((A.step E a).1.setState st).1.heap.balls st.ball ≠ A.heap.balls st.ball ∧
    (A.heap.balls st.ball).timeElapsed < (((A.step E a).1.setState st).1.heap.balls st.ball).timeElapsed := by
  have hb : A.ball = some st.ball := by
    unfold Arena.getState at h
    rcases hb : A.ball with _ | i
    · rw [hb] at h; cases h
    · rw [hb] at h
      rw [← Except.ok.inj h]
  have e := C24_restore_is_noop E A st h [a]
  simp only [Spec.fly] at e
  rw [e]
  rcases arenaStep_ball E a A st.ball hb with ⟨e, h', _⟩ | ⟨w', hw', h', _⟩
  · rw [hw] at h'; cases h'
  · rw [hw] at hw'
    cases hw'
    rw [h', Function.update_self, ht]
    simp only
    have hlt : (A.heap.balls st.ball).timeElapsed < t.timeElapsed := by
      have e1 : agentStep = ((18 : ℕ) : ℤ) * ((10 : ℕ) : ℤ) * usPerSec := by norm_num [agentStep, usPerSec]
      have e2 : defaultStride = ((10 : ℕ) : ℤ) * usPerSec := by norm_num [defaultStride]
      rw [e1, e2] at ht
      obtain ⟨c1, c2⟩ := C11_clock_partial E.sun _ _ _ a 10 18 (by norm_num) _ t ht
      by_cases hs : t.status = .ok
      · rw [(c1 hs).2]
        norm_num [usPerSec]
      · obtain ⟨j, j1, _, _, j2⟩ := c2 hs
        rw [j2]
        have : (1 : ℤ) ≤ j := by exact_mod_cast j1
        simp only [usPerSec]
        push_cast
        omega
    exact ⟨fun he => by rw [he] at hlt; exact lt_irrefl _ hlt, hlt⟩

/-- What does hold. Restoring right after saving changes nothing; and a balloon state saved before a *reset*
survives the reset and any flight of the new balloon, because a reset creates a new balloon state: restoring
brings back exactly the saved balloon state (`i < nextBall` says the saved object exists).
Missing from the full property: restoring after steps of the same flight, where it is false
(`C24_restore_is_noop`, `C24_not_restored`). -/
theorem C24_restore_partial (E : World K W) (A : Arena K W) (st : SimState) (h : A.getState = .ok st)
    (hex : st.ball < A.heap.nextBall) (key : K) (as : List Command) :
    A.setState st = (A, .ok ()) ∧
    (∀ obs, (A.reset E key).2 = .ok obs →
      ((Spec.fly E as (A.reset E key).1).setState st).1.ball = some st.ball ∧
      ((Spec.fly E as (A.reset E key).1).setState st).1.heap.balls st.ball = A.heap.balls st.ball) := by
  refine ⟨by simpa [Spec.fly] using C24_restore_is_noop E A st h [], fun obs hobs => ?_⟩
  have hreset : (A.reset E key).1.ball = some A.heap.nextBall ∧
      ∀ j, j ≠ A.heap.nextBall → (A.reset E key).1.heap.balls j = A.heap.balls j := by
    unfold Arena.reset at hobs ⊢
    simp only at hobs ⊢
    rcases hi : initBalloon E (E.J.uniform (E.J.split key 3 1)) (E.J.split key 3 0)
      (sampleTime timeBegin (E.J.choice (E.J.split key 3 2) (sampleTimeCount timeBegin timeEnd).toNat)) with e | b
    · rw [hi] at hobs; cases hobs
    · rw [hi] at hobs
      simp only at hobs ⊢
      by_cases hb : b.status ≠ .ok
      · rw [if_pos hb] at hobs; cases hobs
      · rw [if_neg hb]
        refine ⟨(measure_frame E _ _ _).2.2.2.2, fun j hj => ?_⟩
        rw [(measure_frame E _ _ _).1]
        simp only
        rw [Function.update_of_ne hj]
  obtain ⟨r1, r2⟩ := hreset
  obtain ⟨_, _, f3, _, _, _, f7⟩ := fly_frame E as (A.reset E key).1
  constructor
  · simp only [Arena.setState, f3, r1]
  · simp only [Arena.setState, f3, r1]
    rw [f7 st.ball (by rw [r1]; intro he; have := Option.some.inj he; omega), r2 st.ball (by omega)]

/-- Nor is the weather restored after a reset: the atmosphere object is overwritten in place. -/
theorem C24_weather_overwritten (E : World K W) (A : Arena K W) (st : SimState) (h : A.getState = .ok st) (key : K) :
    ((A.reset E key).1.setState st).1.heap.atms st.atm = E.J.uniform (E.J.split key 3 1) := by
  have hst : st.atm = A.atm := by
    unfold Arena.getState at h
    rcases hb : A.ball with _ | i
    · rw [hb] at h; cases h
    · rw [hb] at h
      rw [← Except.ok.inj h]
  have hset : ∀ B : Arena K W, (B.setState st).1.heap = B.heap := by
    intro B
    unfold Arena.setState
    split <;> rfl
  rw [hst, hset]
  unfold Arena.reset
  simp only
  split
  · simp
  · split
    · simp
    · rw [(measure_frame E _ _ _).1]
      simp

/-- Saving and restoring are possible exactly once there is a balloon, that is, from the first reset on. Before
that both raise AttributeError, and a failed restore leaves the arena as it was. -/
theorem C24_before_reset (A : Arena K W) (st : SimState) :
    (A.ball = none → A.getState = .error .attribute ∧ A.setState st = (A, .error .attribute)) ∧
    (∀ i, A.ball = some i → A.getState = .ok ⟨i, A.wind, A.atm⟩ ∧ (A.setState st).2 = .ok () ∧
      (A.setState st).1.getState = .ok st) := by
  constructor
  · intro h
    simp [Arena.getState, Arena.setState, h]
  · intro i h
    simp [Arena.getState, Arena.setState, h]

/-! ### A concrete flight -/

/-- A balloon about to run out of power at night. -/
noncomputable def demoDying : BState := { demo with charge := 0.01, powerEnabled := false }

theorem demoDying_step (a : Command) (u v : ℝ) :
    ∃ t, simulateStep nightSun 0 u v a agentStep defaultStride demoDying = (t, .ok ()) ∧ t.status = .outOfPower ∧
      t.timeElapsed = 10 * usPerSec := by
  obtain ⟨amb, hamb⟩ := atPressure_in (α := 0) (p := 6000) (by norm_num) (by norm_num) (by norm_num) (by norm_num)
  have hchain : ∃ ev al eff, safetyChain 0 { demoDying with lastCommand := a } a =
      ({ demoDying with lastCommand := a, env := ev, alt := al }, .ok eff) := by
    have hamb' : atPressure 0 demo.pressure = .ok amb := hamb
    refine ⟨(demo.env.getAction a demo.sp).1, (altGetAction demo.alt (demo.env.getAction a demo.sp).2 amb.height).1,
      (altGetAction demo.alt (demo.env.getAction a demo.sp).2 amb.height).2, ?_⟩
    unfold safetyChain
    simp only [demoDying, Bool.false_eq_true, if_false, hamb']
  obtain ⟨ev, al, eff, hc⟩ := hchain
  obtain ⟨s', hs'⟩ := substep_no_error (sun := nightSun) (α := 0) (by norm_num) (by norm_num) u v eff defaultStride
    (s := { demoDying with lastCommand := a, env := ev, alt := al })
    (by norm_num [demoDying, demo]) (by norm_num [demoDying, demo]) (by norm_num [demoDying, demo])
    (by norm_num [demoDying, demo]) (by norm_num [demoDying, demo]) (by norm_num [demoDying, demo])
    (by norm_num [demoDying, demo]) (by norm_num [demoDying, demo])
    (by norm_num [demoDying, demo]) (by norm_num [demoDying, demo]) nightSun_el
  have hst : s'.status = .outOfPower ∧ s'.timeElapsed = 10 * usPerSec := by
    obtain ⟨p', amb', dT, solar, _, _, _, hsol, e⟩ := substep_ok hs'
    have hnight : ∀ l t, ¬ (nightSun l t).el > minSolarEl := by
      intro l t; norm_num [nightSun, minSolarEl]
    rw [if_neg (hnight _ _)] at hsol
    rw [e]
    simp only [if_neg (hnight _ _), hsol]
    have hacs : 0 ≤ (acsEffect { demoDying with lastCommand := a, env := ev, alt := al } eff).1 := by
      cases eff
      · have := mostEfficientPower_bounds
          (BState.pressureRatio { demoDying with lastCommand := a, env := ev, alt := al })
        simp only [acsEffect]
        linarith [this.1]
      · simp [acsEffect]
      · simp [acsEffect]
    constructor
    · unfold newStatus
      simp only
      rw [if_pos]
      unfold clip
      refine (min_le_left _ _).trans (max_le ?_ le_rfl)
      have hh : hoursOf defaultStride = 1 / 360 := by norm_num [hoursOf, totalSeconds, defaultStride, usPerSec]
      rw [hh]
      have h1 : demoDying.charge = 0.01 := rfl
      have h2 : demoDying.nightLoad = 183.7 := rfl
      rw [h1, h2]
      have hgen : ∀ P : ℝ, 0 ≤ P → 0.01 + (0 - (183.7 + P)) * (1 / 360) ≤ (0 : ℝ) := by
        intro P hP; linarith
      exact hgen _ hacs
    · show (0 : ℤ) + defaultStride = _
      norm_num [defaultStride]
  refine ⟨s', ?_, hst⟩
  rw [simulateStep_unfold rfl, hc]
  have e1 : Int.tdiv agentStep usPerSec = 180 := by decide
  have e2 : Int.tdiv defaultStride usPerSec = 10 := by decide
  simp only [e1, e2]
  rw [if_neg (by decide), if_neg (by decide)]
  have : (Int.fdiv 180 10).toNat = 17 + 1 := by decide
  rw [this, substepLoop, hs']
  simp [hst.1]

/-- A world with symbolic keys, constant noise, the static wind field, night everywhere. -/
noncomputable def demoWorld : World (List ℕ) Unit where
  J := { prngKey := fun _ => [], split := fun k _ i => i :: k, uniform := fun _ => 0, uniform4 := fun _ _ => 0,
         beta := fun _ => 0, choice := fun _ _ => 0, upwelling := fun _ => 250 }
  nz := fun _ _ _ _ _ => 0
  C := staticWind (List ℕ)
  R := gpr true
  sun := nightSun

/-- The dying balloon in that world. -/
noncomputable def demoArena : Arena (List ℕ) Unit where
  heap := { balls := fun _ => demoDying, nextBall := 1, atms := fun _ => 0
            winds := fun _ => WindField.reset demoWorld.J demoWorld.C [] 0 { sub := (), noise := NoiseModel.new } }
  rng := []
  wind := 0
  atm := 0
  ball := some 0
  feat := some { wind := 0, atm := 0, data := [], last := some 0 }

/-- The situation of `C24_not_restored` occurs: save, step, restore, and the balloon is not the saved one. -/
example : ∃ st, demoArena.getState = .ok st ∧
    ((demoArena.step demoWorld .up).1.setState st).1.heap.balls st.ball ≠ demoArena.heap.balls st.ball := by
  refine ⟨⟨0, 0, 0⟩, rfl, ?_⟩
  have hw : ∃ w, windAtBalloon demoWorld (demoArena.heap.winds demoArena.wind) (demoArena.heap.balls 0) = .ok w := by
    obtain ⟨f, hf, _⟩ := C40_static (K := List ℕ) demoDying.x demoDying.y demoDying.pressure demoDying.timeElapsed
    obtain ⟨n, hn, _⟩ := C87_noise_bounded demoWorld.J demoWorld.nz (by intros; norm_num [demoWorld])
      (demoWorld.J.split [] 2 0) NoiseModel.new demoDying.x demoDying.y demoDying.pressure demoDying.timeElapsed
    exact ⟨_, (C37_ground_truth _ _ _ _ _ _ _ (f.1 + n.1, f.2 + n.2)).2 ⟨f, n, hf, hn, rfl, rfl⟩⟩
  obtain ⟨w, hw⟩ := hw
  obtain ⟨t, ht, _⟩ := demoDying_step .up w.1 w.2
  exact (C24_not_restored demoWorld demoArena ⟨0, 0, 0⟩ rfl .up w hw t ht).1

/-- An environment around the dying balloon. -/
noncomputable def demoEnv : Env (List ℕ) Unit Unit :=
  { arena := demoArena, rng := [], radius := 50000, iteration := 7, renderer := none }
/-- Its configuration. -/
noncomputable def demoCfg : EnvCfg (List ℕ) Unit Unit :=
  { world := demoWorld, rewardFn := fun s => reward nightSun RewardParams.default s
    render := { reset := id, step := fun r _ _ _ => r, render := id } }

/-- The situation of `C21_no_step_after_end` occurs: after the flight of the dying balloon has ended (out of
power), every further action raises and the clock and the status stay. -/
example (a : ℤ) : ∃ t : BState, t.status = .outOfPower ∧
    (∃ e, (Env.step demoCfg a { demoEnv with arena := demoArena.mutate 0 t }).2 = .error e) := by
  obtain ⟨t, _, h, _⟩ := demoDying_step .up 0 0
  refine ⟨t, h, (C21_no_step_after_end demoCfg a { demoEnv with arena := demoArena.mutate 0 t } 0 rfl ?_).1⟩
  show (Function.update demoArena.heap.balls 0 t 0).status ≠ .ok
  rw [Function.update_self, h]
  decide

/-- `C22_invalid_action` on −1. -/
example : demoEnv.step demoCfg (-1) = (demoEnv, .error .value) :=
  C22_invalid_action demoCfg (-1) demoEnv (by decide) (by decide) (by decide)

end BLE
