import Verif.Props.RunSeed
import Verif.Props.Evaluates
import Verif.Model.Replay
import Verif.Model.Perciatelli
import Verif.Model.AcmePolicy

/-!
# C152: looking at a flight and rating it does not change it
-/

namespace BLE

variable {K W Rd Rd' S : Type}

/-! ## The flight -/

/-- The same balloon in the same weather: equal contents of the balloon state, the wind field and the atmosphere. What has been observed
may differ. -/
def Spec.SameFlight (A B : Arena K W) : Prop :=
  ∃ i j, A.ball = some i ∧ B.ball = some j ∧ A.heap.balls i = B.heap.balls j ∧ A.heap.winds A.wind = B.heap.winds B.wind ∧
    A.heap.atms A.atm = B.heap.atms B.atm

theorem measure_flight {E E' : World K W} {A B : Arena K W} (i j : ℕ) (F G : Feat) (h : Spec.SameFlight A B) :
    Spec.SameFlight (A.measure E i F).1 (B.measure E' j G).1 := by
  obtain ⟨a1, -, a3, a4, a5⟩ := measure_frame E A i F
  obtain ⟨b1, -, b3, b4, b5⟩ := measure_frame E' B j G
  unfold Spec.SameFlight
  rw [a1, a3, a4, a5, b1, b3, b4, b5]
  exact h

theorem arenaStep_flight (E : World K W) (R' : Regressor) (a : Command) {A B : Arena K W} (h : Spec.SameFlight A B) :
    Spec.SameFlight (A.step E a).1 (B.step { E with R := R' } a).1 := by
  have h' := h
  obtain ⟨i, j, hA, hB, h1, h2, h3⟩ := h
  unfold Arena.step
  rw [hA, hB]
  simp only
  rw [show windAtBalloon { E with R := R' } (B.heap.winds B.wind) (B.heap.balls j) =
    windAtBalloon E (A.heap.winds A.wind) (A.heap.balls i) by rw [h1, h2]; rfl]
  rcases windAtBalloon E (A.heap.winds A.wind) (A.heap.balls i) with e | w
  · exact h'
  · simp only
    rw [h1, h3]
    generalize simulateStep E.sun (B.heap.atms B.atm) w.1 w.2 a agentStep defaultStride (B.heap.balls j) = r
    obtain ⟨b, res⟩ := r
    have hm : Spec.SameFlight (A.mutate i b) (B.mutate j b) := ⟨i, j, hA, hB, by simp [Arena.mutate], h2, h3⟩
    rcases res with e | x
    · exact hm
    · simp only
      rcases (A.mutate i b).feat with _ | F <;> rcases (B.mutate j b).feat with _ | G
      · exact hm
      · have := measure_frame { E with R := R' } (B.mutate j b) j G
        obtain ⟨b1, -, b3, b4, b5⟩ := this
        unfold Spec.SameFlight
        rw [b1, b3, b4, b5]
        exact hm
      · obtain ⟨b1, -, b3, b4, b5⟩ := measure_frame E (A.mutate i b) i F
        unfold Spec.SameFlight
        rw [b1, b3, b4, b5]
        exact hm
      · exact measure_flight _ _ _ _ hm

/-- A reset of two arenas with one key puts the same balloon into the same weather, if it succeeds or if this was so before. -/
theorem arenaReset_flight (E : World K W) (R' : Regressor) (key : K) {A B : Arena K W}
    (h : Spec.SameFlight A B ∨ Spec.ForgetsForecast E.C ∧ ∃ o, (A.reset E key).2 = .ok o) :
    Spec.SameFlight (A.reset E key).1 (B.reset { E with R := R' } key).1 := by
  unfold Arena.reset at h ⊢
  simp only at h ⊢
  rw [show initBalloon { E with R := R' } = initBalloon E from rfl]
  rcases hb : initBalloon E (E.J.uniform (E.J.split key 3 1)) (E.J.split key 3 0)
    (sampleTime timeBegin (E.J.choice (E.J.split key 3 2) (sampleTimeCount timeBegin timeEnd).toNat)) with e | b
  · rw [hb] at h
    simp only
    rcases h with ⟨i, j, hA, hB, h1, h2, h3⟩ | ⟨-, o, ho⟩
    · exact ⟨i, j, hA, hB, h1, h2, by simp⟩
    · cases ho
  · rw [hb] at h
    simp only at h ⊢
    by_cases hs : b.status ≠ .ok
    · rw [if_pos hs, if_pos hs]
      rw [if_pos hs] at h
      rcases h with ⟨i, j, hA, hB, h1, h2, h3⟩ | ⟨-, o, ho⟩
      · exact ⟨_, _, rfl, rfl, by simp, h2, by simp⟩
      · cases ho
    · rw [if_neg hs, if_neg hs]
      refine measure_flight _ _ _ _ ⟨_, _, rfl, rfl, by simp, ?_, by simp⟩
      simp only [Function.update_self]
      rcases h with ⟨i, j, hA, hB, h1, h2, h3⟩ | ⟨hC, -⟩
      · rw [h2]
      · unfold WindField.reset
        rw [hC _ _ (A.heap.winds A.wind).sub (B.heap.winds B.wind).sub]
        rfl

/-- The same flight and the same future random numbers. -/
def SamePhysics (u : Env K W Rd) (v : Env K W Rd') : Prop := Spec.SameFlight u.arena v.arena ∧ u.rng = v.rng

theorem envStep_flight {c : EnvCfg K W Rd} {c' : EnvCfg K W Rd'} {R' : Regressor} (hw : c'.world = { c.world with R := R' }) (a : ℤ)
    {u : Env K W Rd} {v : Env K W Rd'} (h : SamePhysics u v) : SamePhysics (u.step c a).1 (v.step c' a).1 := by
  refine ⟨?_, by rw [envStep_rng, envStep_rng]; exact h.2⟩
  have key : ∀ {Rd : Type} (c : EnvCfg K W Rd) (u : Env K W Rd), (u.step c a).1.arena =
      match Command.ofInt a with
      | .error _ => u.arena
      | .ok cmd => (u.arena.step c.world cmd).1 := by
    intro Rd c u
    unfold Env.step
    rcases Command.ofInt a with e | cmd
    · rfl
    · simp only
      repeat' split
      all_goals rfl
  rw [key, key]
  rcases Command.ofInt a with e | cmd
  · exact h.1
  · rw [hw]
    exact arenaStep_flight c.world R' cmd h.1

theorem envReset_flight {c : EnvCfg K W Rd} {c' : EnvCfg K W Rd'} {R' : Regressor} (hw : c'.world = { c.world with R := R' })
    {u : Env K W Rd} {v : Env K W Rd'} (hr : u.rng = v.rng)
    (h : Spec.SameFlight u.arena v.arena ∨ Spec.ForgetsForecast c.world.C ∧ ∃ o, (u.reset c none).2 = .ok o) :
    SamePhysics (u.reset c none).1 (v.reset c' none).1 := by
  obtain ⟨a1, a2⟩ := envReset_rng c u
  obtain ⟨b1, b2⟩ := envReset_rng c' v
  refine ⟨?_, by rw [a1, b1, hw, hr]⟩
  rw [a2, b2, hw, hr]
  refine arenaReset_flight c.world R' _ (h.imp_right fun ⟨h1, o, ho⟩ => ⟨h1, ?_⟩)
  rw [← hr]
  unfold Env.reset at ho
  simp only at ho
  rcases hx : (u.arena.reset c.world (c.world.J.split u.rng 2 1)).2 with e | x
  · rw [hx] at ho; cases ho
  · exact ⟨x, rfl⟩

theorem envStep_info (c : EnvCfg K W Rd) (a : ℤ) (v : Env K W Rd) (out : StepOut) (h : (v.step c a).2 = .ok out) :
    ∃ i, (v.step c a).1.arena.ball = some i ∧ out.info = getInfo ((v.step c a).1.arena.heap.balls i) ∧
      out.terminal = (out.info.outOfPower || out.info.envelopeBurst || out.info.zeropressure) := by
  unfold Env.step at h ⊢
  rcases hc : Command.ofInt a with e | cmd
  · rw [hc] at h; cases h
  · rw [hc] at h
    simp only at h ⊢
    rcases ho : (v.arena.step c.world cmd).2 with e | obs
    · rw [ho] at h; cases h
    · rw [ho] at h
      simp only at h ⊢
      rcases hb : (v.arena.step c.world cmd).1.ball with _ | i
      · rw [hb] at h; cases h
      · rw [hb] at h
        simp only at h ⊢
        rcases hr : c.rewardFn ((v.arena.step c.world cmd).1.heap.balls i) with e | r
        · rw [hr] at h; cases h
        · rw [hr] at h
          simp only [Except.ok.injEq] at h
          subst h
          exact ⟨i, hb, rfl, rfl⟩

/-- C152. Reset two environments with one seed that agree in random numbers, winds and sun but may differ in everything with which a
flight is looked at and rated — reward function, renderer, wind estimator, radius, and what was done with them before — and use them in the same way
(steps and resets in any order, also after exceptions): the balloons, the winds and the atmospheres stay the same, and
whenever both steps return, they report the same end of the flight and the same information. -/
theorem C152_flight (c : EnvCfg K W Rd) (c' : EnvCfg K W Rd') (R' : Regressor) (hw : c'.world = { c.world with R := R' })
    (hC : Spec.ForgetsForecast c.world.C) (u : Env K W Rd) (v : Env K W Rd') (seed : ℤ) (o : List ℝ × Info)
    (hok : (u.reset c (some seed)).2 = .ok o) (ops : List Spec.Op) (u1 : Env K W Rd) (v1 : Env K W Rd')
    (hu : u1 = Spec.use c ops (u.reset c (some seed)).1) (hv : v1 = Spec.use c' ops (v.reset c' (some seed)).1) :
    Spec.SameFlight u1.arena v1.arena ∧
    ∀ a out out', (u1.step c a).2 = .ok out → (v1.step c' a).2 = .ok out' → out.terminal = out'.terminal ∧ out.info = out'.info := by
  have key : ∀ (ops : List Spec.Op) (u : Env K W Rd) (v : Env K W Rd'), SamePhysics u v →
      SamePhysics (Spec.use c ops u) (Spec.use c' ops v) := by
    intro ops
    induction ops with
    | nil => intro u v h; exact h
    | cons op ops ih =>
      intro u v h
      cases op with
      | step a => exact ih _ _ (envStep_flight hw a h)
      | reset => exact ih _ _ (envReset_flight hw h.2 (.inl h.1))
  have h0 : SamePhysics (u.reset c (some seed)).1 (v.reset c' (some seed)).1 :=
    envReset_flight (u := u.seed c seed) (v := v.seed c' seed) hw (by simp [Env.seed, hw]) (.inr ⟨hC, o, hok⟩)
  have h1 := key ops _ _ h0
  rw [← hu, ← hv] at h1
  refine ⟨h1.1, fun a out out' e1 e2 => ?_⟩
  obtain ⟨⟨i, j, g1, g2, g3, -⟩, -⟩ := envStep_flight hw a h1
  obtain ⟨i', x1, x2, x3⟩ := envStep_info c a u1 out e1
  obtain ⟨j', y1, y2, y3⟩ := envStep_info c' a v1 out' e2
  rw [g1] at x1
  rw [g2] at y1
  injection x1 with x1
  injection y1 with y1
  subst x1 y1
  have hi : out.info = out'.info := by rw [x2, y2, g3]
  exact ⟨by rw [x3, y3, hi], hi⟩

/-! ## The evaluation -/

/-- Environments in the same phase of the same flight, with the same observations so far and the same radius. -/
def SameView (u : Env K W Rd) (v : Env K W Rd') : Prop := Alike u.arena v.arena ∧ u.radius = v.radius

theorem cross_step {c : EnvCfg K W Rd} {c' : EnvCfg K W Rd'} (hw : c'.world = c.world) (a : ℤ) {u u1 : Env K W Rd} {v v1 : Env K W Rd'}
    (h : SameView u v) {out out' : StepOut} (h1 : u.step c a = (u1, .ok out)) (h2 : v.step c' a = (v1, .ok out')) :
    SameView u1 v1 ∧ out.obs = out'.obs ∧ out.terminal = out'.terminal ∧ out.info = out'.info ∧
      ∃ b, c.rewardFn b = .ok out.reward ∧ c'.rewardFn b = .ok out'.reward := by
  obtain ⟨hal, hrad⟩ := h
  unfold Env.step at h1 h2
  rw [hw] at h2
  rcases hc : Command.ofInt a with e | cmd
  · rw [hc] at h1; cases h1
  rw [hc] at h1 h2
  simp only at h1 h2
  obtain ⟨s1, s2⟩ := step_alike c.world cmd hal
  have s3 := s2
  obtain ⟨i, j, F, G, hA, hB, -, -, -, -, -, -, -, h6, -, -⟩ := s2
  rw [← s1] at h2
  rcases ho : (u.arena.step c.world cmd).2 with e | obs
  · rw [ho] at h1; cases h1
  rw [ho] at h1 h2
  simp only [hA] at h1
  simp only [hB] at h2
  rcases hr : c.rewardFn ((u.arena.step c.world cmd).1.heap.balls i) with e | r
  · rw [hr] at h1; cases h1
  rcases hr' : c'.rewardFn ((v.arena.step c.world cmd).1.heap.balls j) with e | r'
  · rw [hr'] at h2; cases h2
  rw [hr] at h1
  rw [hr'] at h2
  simp only [Prod.mk.injEq, Except.ok.injEq] at h1 h2
  obtain ⟨rfl, rfl⟩ := h1
  obtain ⟨rfl, rfl⟩ := h2
  refine ⟨⟨s3, hrad⟩, rfl, ?_, ?_, _, hr, by rw [h6]; exact hr'⟩ <;> simp only [h6]

theorem cross_reset {c : EnvCfg K W Rd} {c' : EnvCfg K W Rd'} (hw : c'.world = c.world) (hC : Spec.ForgetsForecast c.world.C) (seed : ℤ)
    {u u1 : Env K W Rd} {v v1 : Env K W Rd'} (hrad : u.radius = v.radius) {o o' : List ℝ}
    (h1 : (balloonEnv c).reset ((balloonEnv c).seed seed u) = (u1, .ok o))
    (h2 : (balloonEnv c').reset ((balloonEnv c').seed seed v) = (v1, .ok o')) : SameView u1 v1 ∧ o = o' := by
  obtain ⟨s1, s2⟩ := reset_alike c.world hC (c.world.J.split (c.world.J.prngKey seed) 2 1) u.arena v.arena
  have main : ∀ {Rd : Type} (d : EnvCfg K W Rd) (x y : Env K W Rd) (ob : List ℝ), d.world = c.world →
      (balloonEnv d).reset ((balloonEnv d).seed seed x) = (y, .ok ob) →
      y.arena = (x.arena.reset c.world (c.world.J.split (c.world.J.prngKey seed) 2 1)).1 ∧
      (x.arena.reset c.world (c.world.J.split (c.world.J.prngKey seed) 2 1)).2 = .ok ob ∧ y.radius = x.radius := by
    intro Rd d x y ob hd h
    have e1 := (envReset_rng d (x.seed d seed)).2
    have e2 := envReset_radius d none (x.seed d seed)
    simp only [balloonEnv, Prod.mk.injEq] at h
    rw [h.1] at e1 e2
    refine ⟨by rw [e1, hd]; simp only [Env.seed, hd], ?_, e2⟩
    have h2 := h.2
    unfold Env.reset at h2
    simp only [Env.seed, hd] at h2
    rcases hx : (x.arena.reset c.world (c.world.J.split (c.world.J.prngKey seed) 2 1)).2 with e | z
    · rw [hx] at h2; cases h2
    · rw [hx] at h2
      simp only at h2
      rcases hb : (x.arena.reset c.world (c.world.J.split (c.world.J.prngKey seed) 2 1)).1.ball with _ | i
      · rw [hb] at h2; cases h2
      · rw [hb] at h2
        simp only [Except.map, Except.ok.injEq] at h2
        rw [h2]
  obtain ⟨a1, a2, a3⟩ := main c u u1 o rfl h1
  obtain ⟨b1, b2, b3⟩ := main c' v v1 o' hw h2
  rw [a2, b2] at s1
  injection s1 with s1
  refine ⟨⟨?_, by rw [a3, b3, hrad]⟩, s1⟩
  rw [a1, b1]
  exact s2 o a2

theorem cross_balloon {c : EnvCfg K W Rd} {c' : EnvCfg K W Rd'} {u : Env K W Rd} {v : Env K W Rd'} (h : SameView u v) :
    (balloonEnv c).balloon u = (balloonEnv c').balloon v := by
  obtain ⟨⟨i, j, F, G, hA, hB, -, -, -, -, -, -, -, h6, -, -⟩, -⟩ := h
  simp only [balloonEnv, Arena.getState, hA, hB, Except.map, h6]

/-- An agent whose answers do not depend on how rewards related by `ρ` differ: `R` relates states that answer alike. With
`ρ` always true it does not look at rewards at all; with `ρ` equality every agent qualifies. -/
structure Spec.Unmoved (A : Agent S) (ρ : ℝ → ℝ → Prop) (R : S → S → Prop) : Prop where
  begin_ : ∀ s s' obs, R s s' → (A.beginEpisode s obs).2 = (A.beginEpisode s' obs).2 ∧
    R (A.beginEpisode s obs).1 (A.beginEpisode s' obs).1
  step_ : ∀ s s' r r' obs, R s s' → ρ r r' → (A.step s r obs).2 = (A.step s' r' obs).2 ∧ R (A.step s r obs).1 (A.step s' r' obs).1
  end_ : ∀ s s' r r' t, R s s' → ρ r r' → R (A.endEpisode s r t) (A.endEpisode s' r' t)

/-- A result without its cumulative reward. -/
def Spec.unrated (r : EvalResult) : EvalResult := { r with cumulative := 0 }

/-- The same flight so far, but for the rewards. -/
def AccSame (ρ : ℝ → ℝ → Prop) (k k' : Acc) : Prop :=
  k.within = k'.within ∧ k.path = k'.path ∧ k.count = k'.count ∧ k.outOfPower = k'.outOfPower ∧ k.envelopeBurst = k'.envelopeBurst ∧
    k.zeropressure = k'.zeropressure ∧ ((∀ r r', ρ r r' → r = r') → k.total = k'.total) ∧
    (k.last = none ∧ k'.last = none ∨ ∃ r r' t, ρ r r' ∧ k.last = some (r, t) ∧ k'.last = some (r', t))

theorem evalLoop_cross {c : EnvCfg K W Rd} {c' : EnvCfg K W Rd'} (hw : c'.world = c.world) {A : Agent S} {ρ : ℝ → ℝ → Prop}
    {R : S → S → Prop} (hA : Spec.Unmoved A ρ R)
    (hρ : ∀ b r r', c.rewardFn b = .ok r → c'.rewardFn b = .ok r' → ρ r r') (period period' : ℤ) (paths : Bool) (n : ℕ) :
    ∀ (u u1 : Env K W Rd) (v v1 : Env K W Rd') (s s1 t t1 : S) (a : ℤ) (k k' k1 k1' : Acc), SameView u v → R s t → AccSame ρ k k' →
      evalLoop (balloonEnv c) A period paths n u s a k = (u1, s1, .ok k1) →
      evalLoop (balloonEnv c') A period' paths n v t a k' = (v1, t1, .ok k1') →
      SameView u1 v1 ∧ R s1 t1 ∧ AccSame ρ k1 k1' := by
  induction n with
  | zero =>
    intro u u1 v v1 s s1 t t1 a k k' k1 k1' h1 h2 h3 e1 e2
    simp only [evalLoop, Prod.mk.injEq, Except.ok.injEq] at e1 e2
    obtain ⟨rfl, rfl, rfl⟩ := e1
    obtain ⟨rfl, rfl, rfl⟩ := e2
    exact ⟨h1, h2, h3⟩
  | succ n ih =>
    intro u u1 v v1 s s1 t t1 a k k' k1 k1' h1 h2 h3 e1 e2
    rw [evalLoop] at e1 e2
    simp only at e1 e2
    rcases x1 : (balloonEnv c).step a u with ⟨u2, e | out⟩
    · rw [x1] at e1; cases e1
    rcases y1 : (balloonEnv c').step a v with ⟨v2, e | out'⟩
    · rw [y1] at e2; cases e2
    rw [x1] at e1
    rw [y1] at e2
    simp only at e1 e2
    obtain ⟨g1, g2, g3, g4, b, g5, g6⟩ := cross_step hw a h1 x1 y1
    have hr := hρ b _ _ g5 g6
    obtain ⟨f1, f2⟩ := hA.step_ s t out.reward out'.reward out.obs h2 hr
    rw [← g2, ← g3, ← g4, ← f1] at e2
    rcases x2 : (A.step s out.reward out.obs).2 with e | a'
    · rw [x2] at e1; cases e1
    rw [x2] at e1 e2
    simp only at e1 e2
    rw [← cross_balloon (c := c) (c' := c') g1] at e2
    rcases x3 : (balloonEnv c).balloon u2 with e | b'
    · rw [x3] at e1; cases e1
    rw [x3] at e1 e2
    simp only at e1 e2
    by_cases hp : period = 0
    · rw [if_pos hp] at e1; cases e1
    by_cases hp' : period' = 0
    · rw [if_pos hp'] at e2; cases e2
    rw [if_neg hp] at e1
    rw [if_neg hp'] at e2
    have hrad : (balloonEnv c).radius u2 = (balloonEnv c').radius v2 := g1.2
    rw [← hrad] at e2
    have hv : SameView (if Int.fmod k.count period = 0 then (balloonEnv c).render u2 else u2)
        (if Int.fmod k'.count period' = 0 then (balloonEnv c').render v2 else v2) := by
      split <;> split <;> exact g1
    obtain ⟨k1a, k2, k3, k4, k5, k6, k7, k8⟩ := h3
    rcases ht : out.terminal with _ | _
    · rw [ht] at e1 e2
      simp only [Bool.false_eq_true, if_false] at e1 e2
      refine ih _ _ _ _ _ _ _ _ _ _ _ _ _ hv f2 ?_ e1 e2
      refine ⟨by simp only [k1a], by simp only [k2], by simp only [k3], k4, k5, k6, fun hh => ?_, .inr ⟨_, _, _, hr, rfl, rfl⟩⟩
      simp only [k7 hh, hh _ _ hr]
    · rw [ht] at e1 e2
      simp only [if_true, Prod.mk.injEq, Except.ok.injEq] at e1 e2
      obtain ⟨rfl, rfl, rfl⟩ := e1
      obtain ⟨rfl, rfl, rfl⟩ := e2
      refine ⟨hv, f2, by simp only [k1a], by simp only [k2], by simp only [k3], rfl, rfl, rfl, fun hh => ?_,
        .inr ⟨_, _, _, hr, rfl, rfl⟩⟩
      simp only [k7 hh, hh _ _ hr]

theorem evalFlight_cross {c : EnvCfg K W Rd} {c' : EnvCfg K W Rd'} (hw : c'.world = c.world) (hC : Spec.ForgetsForecast c.world.C)
    {A : Agent S} {ρ : ℝ → ℝ → Prop} {R : S → S → Prop} (hA : Spec.Unmoved A ρ R)
    (hρ : ∀ b r r', c.rewardFn b = .ok r → c'.rewardFn b = .ok r' → ρ r r') (maxLen period period' : ℤ) (paths : Bool) (seed : ℤ)
    (u u1 : Env K W Rd) (v v1 : Env K W Rd') (s s1 t t1 : S) (r r' : EvalResult) (hrad : u.radius = v.radius) (h2 : R s t)
    (e1 : evalFlight (balloonEnv c) A maxLen period paths seed u s = (u1, s1, .ok r))
    (e2 : evalFlight (balloonEnv c') A maxLen period' paths seed v t = (v1, t1, .ok r')) :
    u1.radius = v1.radius ∧ R s1 t1 ∧ Spec.unrated r = Spec.unrated r' ∧ ((∀ x y, ρ x y → x = y) → r = r') := by
  unfold evalFlight at e1 e2
  simp only at e1 e2
  rcases x1 : (balloonEnv c).reset ((balloonEnv c).seed seed u) with ⟨u2, e | o⟩
  · rw [x1] at e1; cases e1
  rcases y1 : (balloonEnv c').reset ((balloonEnv c').seed seed v) with ⟨v2, e | o'⟩
  · rw [y1] at e2; cases e2
  rw [x1] at e1
  rw [y1] at e2
  simp only at e1 e2
  obtain ⟨g1, rfl⟩ := cross_reset hw hC seed hrad x1 y1
  obtain ⟨f1, f2⟩ := hA.begin_ s t o h2
  rw [← f1] at e2
  rcases x2 : (A.beginEpisode s o).2 with e | a
  · rw [x2] at e1; cases e1
  rw [x2] at e1 e2
  simp only at e1 e2
  rcases x3 : evalLoop (balloonEnv c) A period paths maxLen.toNat u2 (A.beginEpisode s o).1 a
    { total := 0, within := 0, path := [], count := 0, outOfPower := false, envelopeBurst := false
      zeropressure := false, last := none } with ⟨u3, s3, e | k⟩
  · rw [x3] at e1; cases e1
  rcases y3 : evalLoop (balloonEnv c') A period' paths maxLen.toNat v2 (A.beginEpisode t o).1 a
    { total := 0, within := 0, path := [], count := 0, outOfPower := false, envelopeBurst := false
      zeropressure := false, last := none } with ⟨v3, t3, e | k'⟩
  · rw [y3] at e2; cases e2
  rw [x3] at e1
  rw [y3] at e2
  simp only at e1 e2
  obtain ⟨g3, g4, k1, k2, k3, k4, k5, k6, k7, k8⟩ := evalLoop_cross hw hA hρ period period' paths _ _ _ _ _ _ _ _ _ _ _ _ _ _ g1 f2
    ⟨rfl, rfl, rfl, rfl, rfl, rfl, fun _ => rfl, .inl ⟨rfl, rfl⟩⟩ x3 y3
  rw [← k3] at e2
  by_cases h0 : k.count = 0
  · rw [if_pos h0] at e1; cases e1
  rw [if_neg h0] at e1 e2
  rcases k8 with ⟨l1, -⟩ | ⟨x, y, z, l1, l2, l3⟩
  · rw [l1] at e1; cases e1
  · rw [l2] at e1
    rw [l3] at e2
    simp only [Prod.mk.injEq, Except.ok.injEq] at e1 e2
    obtain ⟨rfl, rfl, rfl⟩ := e1
    obtain ⟨rfl, rfl, rfl⟩ := e2
    refine ⟨g3.2, hA.end_ _ _ _ _ _ g4 l1, ?_, fun hh => ?_⟩
    · simp only [Spec.unrated, k1, k2, k4, k5, k6]
    · simp only [k1, k2, k4, k5, k6, k7 hh]

/-- C152, the evaluation. Evaluate an agent on one suite in two environments with the same random numbers, winds, sun, wind estimator and
radius but with different reward functions, renderers or rendering periods. If the agent's answers do not depend on the
difference `ρ` of the rewards, the two evaluations, once both return, agree in everything but the cumulative reward: the
flight paths, the times within the radius, the lengths and the causes of the end. If the rewards are the same they agree completely. -/
theorem C152_evaluation (c : EnvCfg K W Rd) (c' : EnvCfg K W Rd') (hw : c'.world = c.world) (hC : Spec.ForgetsForecast c.world.C)
    (A : Agent S) (ρ : ℝ → ℝ → Prop) (R : S → S → Prop) (hA : Spec.Unmoved A ρ R)
    (hρ : ∀ b r r', c.rewardFn b = .ok r → c'.rewardFn b = .ok r' → ρ r r') (suite : Suite) (period period' : ℤ) (paths : Bool)
    (u u1 : Env K W Rd) (v v1 : Env K W Rd') (hrad : u.radius = v.radius) (s s1 t t1 : S) (hs : R (A.setMode s false) (A.setMode t false))
    (rs rs' : List EvalResult) (e1 : evalAgent (balloonEnv c) A suite period paths u s = (u1, s1, .ok rs))
    (e2 : evalAgent (balloonEnv c') A suite period' paths v t = (v1, t1, .ok rs')) :
    rs.map Spec.unrated = rs'.map Spec.unrated ∧ R s1 t1 ∧ ((∀ x y, ρ x y → x = y) → rs = rs') := by
  unfold evalAgent at e1 e2
  by_cases hm : ¬ suite.maxLen > 0
  · rw [if_pos hm] at e1; cases e1
  rw [if_neg hm] at e1 e2
  generalize A.setMode s false = s0 at *
  generalize A.setMode t false = t0 at *
  generalize suite.seeds = seeds at *
  clear s t
  induction seeds generalizing u v s0 t0 rs rs' with
  | nil =>
    simp only [evalFlights, Prod.mk.injEq, Except.ok.injEq] at e1 e2
    obtain ⟨rfl, rfl, rfl⟩ := e1
    obtain ⟨rfl, rfl, rfl⟩ := e2
    exact ⟨rfl, hs, fun _ => rfl⟩
  | cons seed seeds ih =>
    rw [evalFlights] at e1 e2
    simp only at e1 e2
    rcases x1 : evalFlight (balloonEnv c) A suite.maxLen period paths seed u s0 with ⟨u2, s2, e | r⟩
    · rw [x1] at e1; cases e1
    rcases y1 : evalFlight (balloonEnv c') A suite.maxLen period' paths seed v t0 with ⟨v2, t2, e | r'⟩
    · rw [y1] at e2; cases e2
    rw [x1] at e1
    rw [y1] at e2
    simp only at e1 e2
    obtain ⟨g1, g2, g3, g4⟩ := evalFlight_cross hw hC hA hρ _ _ _ _ _ _ _ _ _ _ _ _ _ _ _ hrad hs x1 y1
    rcases x2 : evalFlights (balloonEnv c) A suite.maxLen period paths seeds u2 s2 with ⟨u3, s3, e | qs⟩
    · rw [x2] at e1; cases e1
    rcases y2 : evalFlights (balloonEnv c') A suite.maxLen period' paths seeds v2 t2 with ⟨v3, t3, e | qs'⟩
    · rw [y2] at e2; cases e2
    rw [x2] at e1
    rw [y2] at e2
    simp only [Except.map, Prod.mk.injEq, Except.ok.injEq] at e1 e2
    obtain ⟨rfl, rfl, rfl⟩ := e1
    obtain ⟨rfl, rfl, rfl⟩ := e2
    obtain ⟨k1, k2, k3⟩ := ih _ _ g1 (rs := qs) (rs' := qs') (hs := g2) (e1 := x2) (e2 := y2)
    exact ⟨by simp only [List.map_cons, g3, k1], k2, fun hh => by rw [g4 hh, k3 hh]⟩

/-- C152, rendering: with the same reward function every agent, also one that learns, gets the same results and ends in the same state
whatever the renderer and the rendering period. -/
theorem C152_rendering (c : EnvCfg K W Rd) (c' : EnvCfg K W Rd') (hw : c'.world = c.world) (hr : c'.rewardFn = c.rewardFn)
    (hC : Spec.ForgetsForecast c.world.C) (A : Agent S) (suite : Suite) (period period' : ℤ) (paths : Bool) (u u1 : Env K W Rd)
    (v v1 : Env K W Rd') (hrad : u.radius = v.radius) (s s1 t1 : S) (rs rs' : List EvalResult)
    (e1 : evalAgent (balloonEnv c) A suite period paths u s = (u1, s1, .ok rs))
    (e2 : evalAgent (balloonEnv c') A suite period' paths v s = (v1, t1, .ok rs')) : rs = rs' ∧ s1 = t1 := by
  obtain ⟨-, h2, h3⟩ := C152_evaluation c c' hw hC A Eq Eq
    ⟨fun s s' obs h => by rw [h]; exact ⟨rfl, rfl⟩, fun s s' r r' obs h h' => by rw [h, h']; exact ⟨rfl, rfl⟩,
      fun s s' r r' t h h' => by rw [h, h']⟩
    (fun b r r' h h' => by rw [hr, h] at h'; injection h') suite period period' paths u u1 v v1 hrad s s1 s t1 rfl rs rs' e1 e2
  exact ⟨h3 fun _ _ h => h, h2⟩

/-- C152, the agents. None of the agents of the package looks at the rewards when it is evaluated: the hypothesis of `C152_evaluation` holds of each
of them whatever the rewards are, and of each two states that are equal when the mode has been set. -/
theorem C152_agents {J : Jax K} {normal : K → ℝ} {run : List ℝ → Fin 3 → ℝ} {G P O X : Type} {randint : G → ℕ → G × ℕ} {n : ℕ}
    {split : K → K × K} {sample : K → (Fin 3 → ℝ) → Fin 3} {act : P → List ℝ → ℤ}
    {learn : P → O → List ℝ → ℤ → ℝ → List ℝ → ℤ → P × O} (N : DopaNet K P O) (E : Explorer X) :
    Spec.Unmoved stationSeeker (fun _ _ => True) Eq ∧ Spec.Unmoved (perciatelliAgent run) (fun _ _ => True) Eq ∧
    Spec.Unmoved (randomAgent randint n) (fun _ _ => True) Eq ∧ Spec.Unmoved (randomWalkAgent J normal) (fun _ _ => True) Eq ∧
    Spec.Unmoved (acmeEvalAgent split sample) (fun _ _ => True) Eq ∧
    (Spec.Unmoved (mlpAgent act learn) (fun _ _ => True) (fun s s' => s = s' ∧ s.train = false) ∧
      ∀ s, ((mlpAgent act learn).setMode s false).train = false) ∧
    (Spec.Unmoved (dopamineAgent N E) (fun _ _ => True) (fun s s' => s = s' ∧ s.eval = true ∧ s.core.eval = true) ∧
      ∀ s, ((dopamineAgent N E).setMode s false).eval = true ∧ ((dopamineAgent N E).setMode s false).core.eval = true) := by
  have easy : ∀ {S : Type} (A : Agent S), (∀ s r r' obs, A.step s r obs = A.step s r' obs) →
      (∀ s r r' t, A.endEpisode s r t = A.endEpisode s r' t) → Spec.Unmoved A (fun _ _ => True) Eq := by
    intro S A h1 h2
    refine ⟨fun s s' obs h => ?_, fun s s' r r' obs h _ => ?_, fun s s' r r' t h _ => ?_⟩
    · rw [h]; exact ⟨rfl, rfl⟩
    · rw [h, h1 s' r r']; exact ⟨rfl, rfl⟩
    · rw [h, h2 s' r r']
  refine ⟨easy _ (fun _ _ _ _ => rfl) (fun _ _ _ _ => rfl), easy _ (fun _ _ _ _ => rfl) (fun _ _ _ _ => rfl),
    easy _ (fun _ _ _ _ => rfl) (fun _ _ _ _ => rfl), easy _ (fun _ _ _ _ => rfl) (fun _ _ _ _ => rfl),
    easy _ (fun _ _ _ _ => rfl) (fun _ _ _ _ => rfl), ⟨⟨?_, ?_, ?_⟩, fun _ => rfl⟩, ⟨⟨?_, ?_, ?_⟩, fun _ => ⟨rfl, rfl⟩⟩⟩
  · rintro s _ obs ⟨rfl, h⟩
    exact ⟨rfl, rfl, h⟩
  · rintro s _ r r' obs ⟨rfl, h⟩ -
    simp [mlpAgent, h]
  · rintro s _ r r' t ⟨rfl, h⟩ -
    exact ⟨rfl, h⟩
  · rintro s _ obs ⟨rfl, h1, h2⟩
    simp [dopamineAgent, quantileAgent, Dopa.begin, Dopa.select, h1, h2]
  · rintro s _ r r' obs ⟨rfl, h1, h2⟩ -
    simp [dopamineAgent, quantileAgent, Dopa.step, Dopa.select, h1, h2]
  · rintro s _ r r' t ⟨rfl, h1, h2⟩ -
    simp [dopamineAgent, quantileAgent, Dopa.finish, h1, h2]

/-- StationSeeker in the sunny world for two days with seeds 0 and 7, rated once by the default reward and rendered every 10 steps, once by a reward with
another drop-off and rendered every step by a renderer that counts: both evaluations return two results, which agree but for the
cumulative reward. -/
example (u v : Env (List ℕ) Unit Unit) (n : ℕ) : ∃ (c' : EnvCfg (List ℕ) Unit ℕ) (r0 r7 q0 q7 : EvalResult),
    c'.rewardFn = reward sunnyWorld.sun { RewardParams.default with dropoff := 0.1 } ∧
    (evalAgent (balloonEnv sunnyCfg) stationSeeker ⟨[0, 7], 960⟩ 10 true u ()).2.2 = .ok [r0, r7] ∧
    (evalAgent (balloonEnv c') stationSeeker ⟨[0, 7], 960⟩ 1 true
      { arena := v.arena, rng := v.rng, radius := u.radius, iteration := 0, renderer := some n } ()).2.2 = .ok [q0, q7] ∧
    { r0 with cumulative := 0 } = { q0 with cumulative := 0 } ∧ { r7 with cumulative := 0 } = { q7 with cumulative := 0 } := by
  let c' : EnvCfg (List ℕ) Unit ℕ :=
    { world := sunnyWorld, rewardFn := reward sunnyWorld.sun { RewardParams.default with dropoff := 0.1 }
      render := { reset := fun _ => 0, step := fun r _ _ _ => r, render := fun r => r + 1 } }
  obtain ⟨u1, s1, rs, h1, h2⟩ := C138_static sunnyCfg sunnyWorld_draws true rfl gregorian gregorian_ok rfl rfl
    (fun _ _ _ _ _ => by norm_num [sunnyCfg, sunnyWorld, demoWorld]) RewardParams.default
    (by norm_num [RewardParams.default]) rfl stationSeeker (fun _ => True) (fun _ => True) (C138_seeker _ true rfl gregorian gregorian_ok rfl)
    ⟨[0, 7], 960⟩ rfl 10 (by norm_num) true u () trivial
  obtain ⟨v1, t1, qs, k1, k2⟩ := C138_static c' sunnyWorld_draws true rfl gregorian gregorian_ok rfl rfl
    (fun _ _ _ _ _ => by norm_num [c', sunnyWorld, demoWorld]) { RewardParams.default with dropoff := 0.1 }
    (by norm_num [RewardParams.default]) rfl stationSeeker (fun _ => True) (fun _ => True) (C138_seeker _ true rfl gregorian gregorian_ok rfl)
    ⟨[0, 7], 960⟩ rfl 1 (by norm_num) true
    { arena := v.arena, rng := v.rng, radius := u.radius, iteration := 0, renderer := some n } () trivial
  have h := (C152_evaluation sunnyCfg c' rfl forgets_static stationSeeker (fun _ _ => True) Eq
    ⟨fun _ _ _ _ => ⟨rfl, rfl⟩, fun _ _ _ _ _ _ _ => ⟨rfl, rfl⟩, fun _ _ _ _ _ _ _ => rfl⟩ (fun _ _ _ _ _ => trivial) _ _ _ _ _ _ _ _
    (by exact rfl) _ _ _ _ rfl _ _ h1 k1).1
  obtain ⟨r0, r7, rfl⟩ := List.length_eq_two.1 (by simpa using congrArg List.length h2 : rs.length = 2)
  obtain ⟨q0, q7, rfl⟩ := List.length_eq_two.1 (by simpa using congrArg List.length k2 : qs.length = 2)
  simp only [List.map_cons, List.map_nil, List.cons.injEq, and_true, Spec.unrated] at h
  exact ⟨c', r0, r7, q0, q7, rfl, by rw [h1], by rw [k1], h.1, h.2⟩

/-- The sunny world seen by another wind estimator and rated by a constant: however it is used, the balloon is the same. -/
example (u v : Env (List ℕ) Unit Unit) (seed : ℤ) (ops : List Spec.Op) :
    Spec.SameFlight (Spec.use sunnyCfg ops (u.reset sunnyCfg (some seed)).1).arena
      (Spec.use { sunnyCfg with world := { sunnyWorld with R := gpr false }, rewardFn := fun _ => .ok 1 } ops
        (v.reset { sunnyCfg with world := { sunnyWorld with R := gpr false }, rewardFn := fun _ => .ok 1 } (some seed)).1).arena := by
  obtain ⟨v', obs, info, i, h, -⟩ := C102_env_reset sunnyCfg sunnyWorld_draws true rfl gregorian gregorian_ok rfl good_static u (some seed)
  exact (C152_flight sunnyCfg { sunnyCfg with world := { sunnyWorld with R := gpr false }, rewardFn := fun _ => .ok 1 } (gpr false) rfl
    forgets_static u v seed (obs, info) (by rw [h]) ops _ _ rfl rfl).1

end BLE
