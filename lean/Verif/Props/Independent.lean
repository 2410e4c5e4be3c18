import Verif.Props.Evaluates
import Mathlib.Probability.Independence.InfinitePi
import Mathlib.Probability.StrongLaw
import Mathlib.Probability.HasLawExists
import Mathlib.Probability.Distributions.Uniform
import Mathlib.Tactic.DeriveFintype

/-!
# C140: episodes are independent samples and averages of evaluations converge

`jax.random` is idealised: every key carries its own random bits, the bits of different keys are independent and have
the same distribution, and every draw is a function of the bits of its key.
-/

namespace BLE

open MeasureTheory ProbabilityTheory

variable {K W Rd S B : Type}

/-! ## Ideal random numbers -/

/-- The splits that lead to a key, the last one first: `(n, i)` stands for "the `i`-th of `n`". -/
abbrev Spec.Path := List (ℕ × ℕ)

/-- A key is a seed and the splits made since. -/
abbrev Spec.Key := ℤ × Spec.Path

/-- How the draws are computed from the bits of a key. `infrared` is one proposal of the rejection loop. -/
structure Spec.Decoder (B : Type) where
  uniform : B → ℝ
  uniform4 : B → Fin 4 → ℝ
  beta : B → ℝ
  choice : B → ℕ → ℕ
  infrared : B → ℝ

open Classical in
/-- The first accepted element of a sequence. -/
noncomputable def Spec.firstAccepted (accept : B → Prop) (f : ℕ → B) : Option B :=
  if h : ∃ n, accept (f n) then some (f (Nat.find h)) else none

/-- What the rejection loop `sampling.py:136-152` returns for the accepted proposal; 225 stands for "never ends". -/
noncomputable def Spec.accepted (D : Spec.Decoder B) : Option B → ℝ
  | some x => D.infrared x
  | none => 225

/-- `jax.random` with bits `b`. -/
noncomputable def Spec.idealJax (D : Spec.Decoder B) (b : Spec.Key → B) : Jax Spec.Key where
  prngKey s := (s, [])
  split k n i := (k.1, (n, i) :: k.2)
  uniform k := D.uniform (b k)
  uniform4 k := D.uniform4 (b k)
  beta k := D.beta (b k)
  choice k := D.choice (b k)
  upwelling k := Spec.accepted D (Spec.firstAccepted (fun x => 225 ≤ D.infrared x)
    fun n => b (k.1, List.replicate n (2, 0) ++ k.2))

/-- An environment with these random numbers: everything else is that of `c`, and the forecast is drawn with `ρ`. -/
noncomputable def Spec.idealCfg (D : Spec.Decoder B) (ρ : B → ℤ → W) (c : EnvCfg Spec.Key W Rd) (b : Spec.Key → B) :
    EnvCfg Spec.Key W Rd :=
  { c with world := { c.world with
      J := Spec.idealJax D b, C := { c.world.C with resetForecast := fun k date _ => ρ (b k) date } } }

/-- Different keys have independent bits with the same distribution. -/
structure Spec.RandomBits {Ω : Type*} [MeasurableSpace Ω] [MeasurableSpace B] (P : Measure Ω) (bits : Spec.Key → Ω → B) : Prop where
  meas : ∀ k, Measurable (bits k)
  indep : iIndepFun bits P
  ident : ∀ k k', P.map (bits k) = P.map (bits k')

/-! ## What is drawn at the start of an episode -/

/-- The quantities drawn by `BalloonArena.reset`. -/
inductive Spec.Quantity
  | blend | date | distance | angle | lat | lng | pressure | infrared | forecast | u (i : Fin 5) | v (i : Fin 5)
deriving DecidableEq, Fintype

/-- Their types. -/
def Spec.Quantity.Value (W : Type) : Spec.Quantity → Type
  | .date => ℕ
  | .forecast => ℤ → W → W
  | .u _ => HarmonicState
  | .v _ => HarmonicState
  | _ => ℝ

instance (q : Spec.Quantity) : MeasurableSpace (q.Value W) := ⊤

/-- What is drawn when the arena is reset with a key: the atmosphere's blend, the date, distance and direction from the
station, the station's latitude and longitude, the pressure, the upwelling infrared, the forecast, and the noise of each
harmonic of both wind components. -/
noncomputable def Spec.drawsOf (E : World K W) (key : K) : (q : Spec.Quantity) → q.Value W
  | .blend => E.J.uniform (E.J.split key 3 1)
  | .date => E.J.choice (E.J.split key 3 2) (sampleTimeCount timeBegin timeEnd).toNat
  | .distance => E.J.beta (E.J.split (E.J.split key 3 0) 6 1)
  | .angle => E.J.uniform (E.J.split (E.J.split key 3 0) 6 2)
  | .lat => E.J.uniform (E.J.split (E.J.split (E.J.split key 3 0) 6 3) 2 0)
  | .lng => E.J.uniform (E.J.split (E.J.split (E.J.split key 3 0) 6 3) 2 1)
  | .pressure => E.J.uniform (E.J.split (E.J.split key 3 0) 6 4)
  | .infrared => E.J.upwelling (E.J.split (E.J.split key 3 0) 6 5)
  | .forecast => E.C.resetForecast (E.J.split (E.J.split (E.J.split (E.J.split key 3 0) 6 0) 2 1) 2 1)
  | .u i => harmonicReset E.J (E.J.split (E.J.split (E.J.split (E.J.split (E.J.split (E.J.split key 3 0) 6 0) 2 1) 2 0) 2 0) 5 i)
  | .v i => harmonicReset E.J (E.J.split (E.J.split (E.J.split (E.J.split (E.J.split (E.J.split key 3 0) 6 0) 2 1) 2 0) 2 1) 5 i)

theorem initBalloon_draws {E E' : World K W} {k k' : K} (hs : E.sun = E'.sun) (α : ℝ) (date : ℤ)
    (h : Spec.drawsOf E k = Spec.drawsOf E' k') :
    initBalloon E α (E.J.split k 3 0) date = initBalloon E' α (E'.J.split k' 3 0) date := by
  have h1 : E.J.beta (E.J.split (E.J.split k 3 0) 6 1) = E'.J.beta (E'.J.split (E'.J.split k' 3 0) 6 1) := congrFun h .distance
  have h2 : E.J.uniform (E.J.split (E.J.split k 3 0) 6 2) = E'.J.uniform (E'.J.split (E'.J.split k' 3 0) 6 2) := congrFun h .angle
  have h3 : E.J.uniform (E.J.split (E.J.split (E.J.split k 3 0) 6 3) 2 0) =
    E'.J.uniform (E'.J.split (E'.J.split (E'.J.split k' 3 0) 6 3) 2 0) := congrFun h .lat
  have h4 : E.J.uniform (E.J.split (E.J.split (E.J.split k 3 0) 6 3) 2 1) =
    E'.J.uniform (E'.J.split (E'.J.split (E'.J.split k' 3 0) 6 3) 2 1) := congrFun h .lng
  have h5 : E.J.uniform (E.J.split (E.J.split k 3 0) 6 4) = E'.J.uniform (E'.J.split (E'.J.split k' 3 0) 6 4) := congrFun h .pressure
  have h6 : E.J.upwelling (E.J.split (E.J.split k 3 0) 6 5) = E'.J.upwelling (E'.J.split (E'.J.split k' 3 0) 6 5) :=
    congrFun h .infrared
  unfold initBalloon
  simp only [zero_add, Nat.reduceAdd, h1, h2, h3, h4, h5, h6, hs]

theorem windReset_draws {E E' : World K W} {k k' : K} (date : ℤ) (w : WindField W)
    (h : Spec.drawsOf E k = Spec.drawsOf E' k') :
    w.reset E.J E.C (E.J.split (E.J.split (E.J.split k 3 0) 6 0) 2 1) date =
      w.reset E'.J E'.C (E'.J.split (E'.J.split (E'.J.split k' 3 0) 6 0) 2 1) date := by
  unfold WindField.reset NoiseModel.reset compReset
  have h1 := congrFun h .forecast
  simp only [Spec.drawsOf] at h1
  rw [h1]
  have hu : ∀ i : Fin 5, _ := fun i => congrFun h (.u i)
  have hv : ∀ i : Fin 5, _ := fun i => congrFun h (.v i)
  simp only [Spec.drawsOf] at hu hv
  simp only [hu, hv]

/-- The same simulator with other random numbers and another forecast sampler. -/
def Spec.redraw (E : World K W) (J : Jax K) (f : K → ℤ → W → W) : World K W :=
  { E with J := J, C := { E.C with resetForecast := f } }

/-- C140. Starting an episode depends on the random numbers only through the draws: worlds that differ only in their random numbers
and forecast samplers, reset with keys that give the same draws, have the same outcome and start the same episode. -/
theorem C140_only_draws (E : World K W) (J : Jax K) (f : K → ℤ → W → W) (k k' : K) (A : Arena K W)
    (h : Spec.drawsOf E k = Spec.drawsOf (Spec.redraw E J f) k') :
    (A.reset E k).2 = (A.reset (Spec.redraw E J f) k').2 ∧
    (∀ obs, (A.reset E k).2 = .ok obs → Alike (A.reset E k).1 (A.reset (Spec.redraw E J f) k').1) := by
  have hα : E.J.uniform (E.J.split k 3 1) = (Spec.redraw E J f).J.uniform ((Spec.redraw E J f).J.split k' 3 1) := congrFun h .blend
  have hd : E.J.choice (E.J.split k 3 2) (sampleTimeCount timeBegin timeEnd).toNat =
    (Spec.redraw E J f).J.choice ((Spec.redraw E J f).J.split k' 3 2) (sampleTimeCount timeBegin timeEnd).toNat := congrFun h .date
  unfold Arena.reset
  simp only
  rw [← hα, ← hd, ← initBalloon_draws (E := E) (E' := Spec.redraw E J f) rfl _ _ h]
  rcases initBalloon E (E.J.uniform (E.J.split k 3 1)) (E.J.split k 3 0)
    (sampleTime timeBegin (E.J.choice (E.J.split k 3 2) (sampleTimeCount timeBegin timeEnd).toNat)) with e | b
  · exact ⟨rfl, fun obs h => by cases h⟩
  · simp only
    by_cases hb : b.status ≠ .ok
    · rw [if_pos hb, if_pos hb]
      exact ⟨rfl, fun obs h => by cases h⟩
    · rw [if_neg hb, if_neg hb]
      rw [← windReset_draws (E := E) (E' := Spec.redraw E J f) _ _ h]
      have hm : ∀ (A : Arena K W) (i : ℕ) (F : Feat), A.measure (Spec.redraw E J f) i F = A.measure E i F := fun _ _ _ => rfl
      rw [hm]
      suffices h : ∀ (r r' : Arena K W × Except Err (List ℝ)),
          r.2 = r'.2 ∧ Alike r.1 r'.1 → r.2 = r'.2 ∧ (∀ obs, r.2 = .ok obs → Alike r.1 r'.1) by
        exact h _ _ (measure_alike E rfl rfl rfl rfl rfl rfl rfl rfl rfl rfl rfl rfl)
      exact fun r r' h => ⟨h.1, fun _ _ => h.2⟩

theorem evalLoop_same_agent {V : Type} {G : GymEnv V} {B Q : V → V → Prop} (hG : Spec.Repeats G B Q) (A : Agent S) (period : ℤ)
    (paths : Bool) (n : ℕ) : ∀ (v v' : V) (s : S) (a : ℤ) (k : Acc), Q v v' →
      (evalLoop G A period paths n v s a k).2 = (evalLoop G A period paths n v' s a k).2 := by
  induction n with
  | zero => intro v v' s a k hQ; rfl
  | succ n ih =>
    intro v v' s a k hQ
    rw [evalLoop, evalLoop]
    simp only
    obtain ⟨e1, q1⟩ := hG.step_ v v' a hQ
    revert e1 q1
    generalize G.step a v = x
    generalize G.step a v' = x'
    obtain ⟨w, o⟩ := x
    obtain ⟨w', o'⟩ := x'
    intro e1 q1
    simp only at e1 q1
    subst e1
    rcases o with e | out
    · rfl
    simp only
    rcases A.step s out.reward out.obs with ⟨s1, e | a1⟩
    · rfl
    simp only
    rw [hG.ball_ w w' q1, hG.radius_ w w' q1]
    rcases G.balloon w' with e | b
    · rfl
    simp only
    by_cases hp : period = 0
    · rw [if_pos hp, if_pos hp]
    rw [if_neg hp, if_neg hp]
    have hq : Q (if Int.fmod k.count period = 0 then G.render w else w) (if Int.fmod k.count period = 0 then G.render w' else w') := by
      split
      · exact hG.render_ _ _ q1
      · exact q1
    cases out.terminal
    · simp only [Bool.false_eq_true, if_false]
      exact ih _ _ _ _ _ hq
    · simp only [if_true]

theorem evalLoop_interface {V : Type} {G G' : GymEnv V} (h1 : G.step = G'.step) (h2 : G.balloon = G'.balloon)
    (h3 : G.render = G'.render) (h4 : G.radius = G'.radius) (A : Agent S) (period : ℤ) (paths : Bool) (n : ℕ) :
    ∀ (v : V) (s : S) (a : ℤ) (k : Acc), evalLoop G A period paths n v s a k = evalLoop G' A period paths n v s a k := by
  obtain ⟨g1, g2, g3, g4, g5, g6⟩ := G
  obtain ⟨g1', g2', g3', g4', g5', g6'⟩ := G'
  simp only at h1 h2 h3 h4
  subst h1 h2 h3 h4
  induction n with
  | zero => intro v s a k; rfl
  | succ n ih =>
    intro v s a k
    rw [evalLoop, evalLoop]
    simp only [ih]

/-- The result of a flight without the seed it was started with. -/
def Spec.outcome (r : Except Err EvalResult) : Except Err EvalResult := r.map fun r => { r with seed := 0 }

/-- What happens in a flight depends on the random numbers only through the draws of its reset. -/
theorem flight_draws (D : Spec.Decoder B) (ρ : B → ℤ → W) (c : EnvCfg Spec.Key W Rd) (b b' : Spec.Key → B) (A : Agent S)
    (maxLen period : ℤ) (paths : Bool) (σ σ' : ℤ) (v : Env Spec.Key W Rd) (s : S)
    (h : Spec.drawsOf (Spec.idealCfg D ρ c b).world (σ, [(2, 1)]) = Spec.drawsOf (Spec.idealCfg D ρ c b').world (σ', [(2, 1)])) :
    Spec.outcome (evalFlight (balloonEnv (Spec.idealCfg D ρ c b)) A maxLen period paths σ v s).2.2 =
      Spec.outcome (evalFlight (balloonEnv (Spec.idealCfg D ρ c b')) A maxLen period paths σ' v s).2.2 := by
  obtain ⟨hr1, hr2⟩ := C140_only_draws (Spec.idealCfg D ρ c b).world (Spec.idealJax D b') (fun k date _ => ρ (b' k) date) (σ, [(2, 1)])
    (σ', [(2, 1)]) v.arena h
  have hw : Spec.redraw (Spec.idealCfg D ρ c b).world (Spec.idealJax D b') (fun k date _ => ρ (b' k) date) =
    (Spec.idealCfg D ρ c b').world := rfl
  rw [hw] at hr1 hr2
  have hG := balloonEnv_repeats (Spec.idealCfg D ρ c b) (fun _ _ _ _ => rfl)
  have hloop := evalLoop_interface (G := balloonEnv (Spec.idealCfg D ρ c b')) (G' := balloonEnv (Spec.idealCfg D ρ c b)) rfl rfl rfl
    rfl A period paths
  have hres : ((balloonEnv (Spec.idealCfg D ρ c b)).reset ((balloonEnv (Spec.idealCfg D ρ c b)).seed σ v)).2 =
      ((balloonEnv (Spec.idealCfg D ρ c b')).reset ((balloonEnv (Spec.idealCfg D ρ c b')).seed σ' v)).2 ∧
      ∀ o, ((balloonEnv (Spec.idealCfg D ρ c b)).reset ((balloonEnv (Spec.idealCfg D ρ c b)).seed σ v)).2 = .ok o →
        Alike ((balloonEnv (Spec.idealCfg D ρ c b)).reset ((balloonEnv (Spec.idealCfg D ρ c b)).seed σ v)).1.arena
          ((balloonEnv (Spec.idealCfg D ρ c b')).reset ((balloonEnv (Spec.idealCfg D ρ c b')).seed σ' v)).1.arena ∧
        ((balloonEnv (Spec.idealCfg D ρ c b)).reset ((balloonEnv (Spec.idealCfg D ρ c b)).seed σ v)).1.radius =
          ((balloonEnv (Spec.idealCfg D ρ c b')).reset ((balloonEnv (Spec.idealCfg D ρ c b')).seed σ' v)).1.radius := by
    have k1 : ∀ b σ, (Spec.idealCfg D ρ c b).world.J.split ((v.seed (Spec.idealCfg D ρ c b) σ).rng) 2 1 = (σ, [(2, 1)]) := fun _ _ => rfl
    have k2 : ∀ b σ, (v.seed (Spec.idealCfg D ρ c b) σ).arena = v.arena := fun _ _ => rfl
    refine ⟨?_, fun o ho => ⟨?_, ?_⟩⟩
    · simp only [balloonEnv]
      unfold Env.reset
      simp only [k1, k2]
      rcases hq : (v.arena.reset (Spec.idealCfg D ρ c b).world (σ, [(2, 1)])).2 with e | obs
      · rw [hq] at hr1; rw [← hr1]
      · have hal := hr2 obs hq
        rw [hq] at hr1; rw [← hr1]
        obtain ⟨i, j, F, G, hA, hB, _, _, _, _, _, _, _, h6, h7, h8⟩ := hal
        simp only [hA, hB]
        rfl
    · simp only [balloonEnv] at ho ⊢
      rw [(envReset_rng _ _).2, (envReset_rng _ _).2, k1, k1, k2, k2]
      unfold Env.reset at ho
      simp only [k1, k2] at ho
      rcases hq : (v.arena.reset (Spec.idealCfg D ρ c b).world (σ, [(2, 1)])).2 with e | obs
      · rw [hq] at ho; cases ho
      · exact hr2 obs hq
    · simp only [balloonEnv]
      rw [envReset_radius, envReset_radius]
      rfl
  unfold evalFlight
  simp only
  obtain ⟨e1, q1⟩ := hres
  revert e1 q1
  generalize (balloonEnv (Spec.idealCfg D ρ c b)).reset ((balloonEnv (Spec.idealCfg D ρ c b)).seed σ v) = x
  generalize (balloonEnv (Spec.idealCfg D ρ c b')).reset ((balloonEnv (Spec.idealCfg D ρ c b')).seed σ' v) = x'
  obtain ⟨w, o⟩ := x
  obtain ⟨w', o'⟩ := x'
  intro e1 q1
  simp only at e1 q1
  subst e1
  rcases o with e | obs
  · rfl
  replace q1 := q1 obs rfl
  simp only
  rcases A.beginEpisode s obs with ⟨s1, e | a1⟩
  · rfl
  simp only [hloop]
  generalize ({ total := 0, within := 0, path := [], count := 0, outOfPower := false, envelopeBurst := false
                zeropressure := false, last := none } : Acc) = k
  have e3 := evalLoop_same_agent hG A period paths maxLen.toNat w w' s1 a1 k q1
  revert e3
  generalize evalLoop (balloonEnv (Spec.idealCfg D ρ c b)) A period paths maxLen.toNat w s1 a1 k = z
  generalize evalLoop (balloonEnv (Spec.idealCfg D ρ c b)) A period paths maxLen.toNat w' s1 a1 k = z'
  obtain ⟨w2, s2, o⟩ := z
  obtain ⟨w2', s2', o'⟩ := z'
  intro e3
  simp only [Prod.mk.injEq] at e3
  obtain ⟨rfl, rfl⟩ := e3
  rcases o with e | k'
  · rfl
  simp only
  by_cases h0 : k'.count = 0
  · rw [if_pos h0, if_pos h0]
  rw [if_neg h0, if_neg h0]
  rcases k'.last with _ | ⟨r, d⟩ <;> rfl

/-- An episode as the user sees it: the first observation and, for every sequence of actions, what the steps return. -/
noncomputable def Spec.episode (c : EnvCfg K W Rd) (v : Env K W Rd) :
    Except Err (List ℝ × Info × (List ℤ → List (Except Err StepOut))) :=
  (v.reset c none).2.map fun o => (o.1, o.2, fun actions => Spec.play c actions (v.reset c none).1)

theorem episode_of_alike (D : Spec.Decoder B) (ρ : B → ℤ → W) (c : EnvCfg Spec.Key W Rd) (b b' : Spec.Key → B)
    (v v' : Env Spec.Key W Rd)
    (h1 : (v.arena.reset (Spec.idealCfg D ρ c b).world (v.rng.1, (2, 1) :: v.rng.2)).2 =
      (v'.arena.reset (Spec.idealCfg D ρ c b').world (v'.rng.1, (2, 1) :: v'.rng.2)).2)
    (h2 : ∀ obs, (v.arena.reset (Spec.idealCfg D ρ c b).world (v.rng.1, (2, 1) :: v.rng.2)).2 = .ok obs →
      Alike (v.arena.reset (Spec.idealCfg D ρ c b).world (v.rng.1, (2, 1) :: v.rng.2)).1
        (v'.arena.reset (Spec.idealCfg D ρ c b').world (v'.rng.1, (2, 1) :: v'.rng.2)).1) :
    Spec.episode (Spec.idealCfg D ρ c b) v = Spec.episode (Spec.idealCfg D ρ c b') v' := by
  have hplay : ∀ (as : List ℤ) (u : Env Spec.Key W Rd), Spec.play (Spec.idealCfg D ρ c b') as u = Spec.play (Spec.idealCfg D ρ c b) as u := by
    intro as
    induction as with
    | nil => intro u; rfl
    | cons a as ih =>
      intro u
      have e : u.step (Spec.idealCfg D ρ c b') a = u.step (Spec.idealCfg D ρ c b) a := rfl
      simp only [Spec.play, e, ih]
  have k1 : ∀ (b : Spec.Key → B) (k : Spec.Key), (Spec.idealCfg D ρ c b).world.J.split k 2 1 = (k.1, (2, 1) :: k.2) := fun _ _ => rfl
  unfold Spec.episode
  simp only [hplay]
  rcases hq : (v.arena.reset (Spec.idealCfg D ρ c b).world (v.rng.1, (2, 1) :: v.rng.2)).2 with e | obs
  · have e1 : (v.reset (Spec.idealCfg D ρ c b) none).2 = .error e := by
      unfold Env.reset; simp only [k1, hq]
    have e2 : (v'.reset (Spec.idealCfg D ρ c b') none).2 = .error e := by
      rw [hq] at h1
      unfold Env.reset; simp only [k1, ← h1]
    rw [e1, e2]
    rfl
  · have hal := h2 obs hq
    have hpl := fun as => play_alike (Spec.idealCfg D ρ c b) as (u := (v.reset (Spec.idealCfg D ρ c b) none).1)
      (v := (v'.reset (Spec.idealCfg D ρ c b') none).1) (by
        rw [(envReset_rng _ _).2, (envReset_rng _ _).2, k1, k1]; exact hal)
    simp only [hpl]
    obtain ⟨i, j, F, G, hA, hB, _, _, _, _, _, _, _, h6, h7, h8⟩ := hal
    have e1 : (v.reset (Spec.idealCfg D ρ c b) none).2 =
        .ok (obs, getInfo ((v'.arena.reset (Spec.idealCfg D ρ c b').world (v'.rng.1, (2, 1) :: v'.rng.2)).1.heap.balls j)) := by
      unfold Env.reset; simp only [k1, hq, hA, h6]
    have e2 : (v'.reset (Spec.idealCfg D ρ c b') none).2 =
        .ok (obs, getInfo ((v'.arena.reset (Spec.idealCfg D ρ c b').world (v'.rng.1, (2, 1) :: v'.rng.2)).1.heap.balls j)) := by
      rw [hq] at h1
      unfold Env.reset; simp only [k1, ← h1, hB]
    rw [e1, e2]

/-- An episode depends on the random numbers only through the draws of its reset, and on nothing that happened before. -/
theorem episode_draws (D : Spec.Decoder B) (ρ : B → ℤ → W) (c : EnvCfg Spec.Key W Rd) (b b' : Spec.Key → B)
    (v v' : Env Spec.Key W Rd)
    (h : Spec.drawsOf (Spec.idealCfg D ρ c b).world (v.rng.1, (2, 1) :: v.rng.2) =
      Spec.drawsOf (Spec.idealCfg D ρ c b').world (v'.rng.1, (2, 1) :: v'.rng.2)) :
    Spec.episode (Spec.idealCfg D ρ c b) v = Spec.episode (Spec.idealCfg D ρ c b') v' := by
  trans Spec.episode (Spec.idealCfg D ρ c b) { v' with rng := v.rng }
  · obtain ⟨h1, h2⟩ := reset_alike (Spec.idealCfg D ρ c b).world (fun _ _ _ _ => rfl) (v.rng.1, (2, 1) :: v.rng.2) v.arena v'.arena
    exact episode_of_alike D ρ c b b v { v' with rng := v.rng } h1 h2
  · obtain ⟨h1, h2⟩ := C140_only_draws (Spec.idealCfg D ρ c b).world (Spec.idealJax D b') (fun k date _ => ρ (b' k) date)
      (v.rng.1, (2, 1) :: v.rng.2) (v'.rng.1, (2, 1) :: v'.rng.2) v'.arena h
    exact episode_of_alike D ρ c b b' { v' with rng := v.rng } v' h1 h2

/-! ## Groups of independent keys -/

section Groups

variable {Ω : Type*} [MeasurableSpace Ω] [MeasurableSpace B] {P : Measure Ω} {bits : Spec.Key → Ω → B}

theorem group_law (h : Spec.RandomBits P bits) {κ : Type*} {g : κ → Spec.Key} (hg : Function.Injective g) (k : Spec.Key) :
    P.map (fun ω j => bits (g j) ω) = Measure.infinitePi fun _ : κ => P.map (bits k) := by
  have h1 : iIndepFun (fun j => bits (g j)) P := h.indep.precomp hg
  rw [h1.map_fun_eq_infinitePi_map fun j => h.meas (g j)]
  congr 1
  funext j
  exact h.ident _ _

/-- Disjoint sets of keys give independent families of bits. -/
theorem group_indep (h : Spec.RandomBits P bits) {ι : Type*} {κ : ι → Type*} (f : (i : ι) → κ i → Spec.Key)
    (hf : Function.Injective fun p : (i : ι) × κ i => f p.1 p.2) : iIndepFun (fun i ω (j : κ i) => bits (f i j) ω) P := by
  have := h.indep.isProbabilityMeasure
  have hpr : ∀ i j, IsProbabilityMeasure (P.map (bits (f i j))) := fun i j => Measure.isProbabilityMeasure_map (h.meas _).aemeasurable
  have hinj : ∀ i, Function.Injective (f i) := by
    intro i j j' hj
    have : (⟨i, j⟩ : (i : ι) × κ i) = ⟨i, j'⟩ := hf hj
    simpa using this
  have h1 : iIndepFun (fun p : (i : ι) × κ i => bits (f p.1 p.2)) P := h.indep.precomp hf
  have hm : ∀ i, Measurable fun ω (j : κ i) => bits (f i j) ω := fun i => measurable_pi_iff.2 fun j => h.meas _
  rw [iIndepFun_iff_map_fun_eq_infinitePi_map hm]
  have e1 : (fun ω i (j : κ i) => bits (f i j) ω) =
      MeasurableEquiv.piCurry (fun (i : ι) (_ : κ i) => B) ∘ fun ω (p : (i : ι) × κ i) => bits (f p.1 p.2) ω := by
    funext ω i j; rfl
  rw [e1, ← Measure.map_map (MeasurableEquiv.measurable _) (measurable_pi_iff.2 fun p => h.meas _),
    h1.map_fun_eq_infinitePi_map (fun p => h.meas _), Measure.infinitePi_map_piCurry (fun i j => P.map (bits (f i j)))]
  congr 1
  funext i
  rw [(h.indep.precomp (hinj i)).map_fun_eq_infinitePi_map fun j => h.meas _]

end Groups

/-! ## The bits behind the draws -/

/-- The key of a quantity, below the key of the reset. -/
def Spec.Quantity.path : Spec.Quantity → Spec.Path
  | .blend => [(3, 1)]
  | .date => [(3, 2)]
  | .distance => [(6, 1), (3, 0)]
  | .angle => [(6, 2), (3, 0)]
  | .lat => [(2, 0), (6, 3), (3, 0)]
  | .lng => [(2, 1), (6, 3), (3, 0)]
  | .pressure => [(6, 4), (3, 0)]
  | .infrared => [(6, 5), (3, 0)]
  | .forecast => [(2, 1), (2, 1), (6, 0), (3, 0)]
  | .u i => [(5, i.val), (2, 0), (2, 0), (2, 1), (6, 0), (3, 0)]
  | .v i => [(5, i.val), (2, 1), (2, 0), (2, 1), (6, 0), (3, 0)]

/-- The keys a quantity may use: one, except for the infrared, whose loop splits its key after every rejection. -/
def Spec.Quantity.Index : Spec.Quantity → Type
  | .infrared => ℕ
  | _ => Unit

/-- These keys. -/
def Spec.Quantity.pathAt : (q : Spec.Quantity) → q.Index → Spec.Path
  | .infrared => fun n => List.replicate n (2, 0) ++ Spec.Quantity.path .infrared
  | .blend => fun _ => Spec.Quantity.path .blend
  | .date => fun _ => Spec.Quantity.path .date
  | .distance => fun _ => Spec.Quantity.path .distance
  | .angle => fun _ => Spec.Quantity.path .angle
  | .lat => fun _ => Spec.Quantity.path .lat
  | .lng => fun _ => Spec.Quantity.path .lng
  | .pressure => fun _ => Spec.Quantity.path .pressure
  | .forecast => fun _ => Spec.Quantity.path .forecast
  | .u i => fun _ => Spec.Quantity.path (.u i)
  | .v i => fun _ => Spec.Quantity.path (.v i)

/-- What the quantity is computed from. -/
noncomputable def Spec.Quantity.used (D : Spec.Decoder B) : (q : Spec.Quantity) → (q.Index → B) → Option B
  | .infrared => fun f => Spec.firstAccepted (fun x => 225 ≤ D.infrared x) f
  | .blend => fun f => some (f ())
  | .date => fun f => some (f ())
  | .distance => fun f => some (f ())
  | .angle => fun f => some (f ())
  | .lat => fun f => some (f ())
  | .lng => fun f => some (f ())
  | .pressure => fun f => some (f ())
  | .forecast => fun f => some (f ())
  | .u _ => fun f => some (f ())
  | .v _ => fun f => some (f ())

/-- How the quantity is computed from it. -/
noncomputable def Spec.Quantity.decode (D : Spec.Decoder B) (ρ : B → ℤ → W) : (q : Spec.Quantity) → Option B → q.Value W
  | .infrared => fun o => Spec.accepted D o
  | .blend => fun o => (o.elim 0 D.uniform : ℝ)
  | .date => fun o => (o.elim 0 fun x => D.choice x (sampleTimeCount timeBegin timeEnd).toNat : ℕ)
  | .distance => fun o => (o.elim 0 D.beta : ℝ)
  | .angle => fun o => (o.elim 0 D.uniform : ℝ)
  | .lat => fun o => (o.elim 0 D.uniform : ℝ)
  | .lng => fun o => (o.elim 0 D.uniform : ℝ)
  | .pressure => fun o => (o.elim 0 D.uniform : ℝ)
  | .forecast => fun o date w => o.elim w fun x => ρ x date
  | .u _ => fun o => (o.elim ⟨0, 0⟩ fun x => ⟨D.choice x 1634753849, fun i => D.uniform4 x i * 2 - 1⟩ : HarmonicState)
  | .v _ => fun o => (o.elim ⟨0, 0⟩ fun x => ⟨D.choice x 1634753849, fun i => D.uniform4 x i * 2 - 1⟩ : HarmonicState)

theorem drawsOf_ideal (D : Spec.Decoder B) (ρ : B → ℤ → W) (c : EnvCfg Spec.Key W Rd) (b : Spec.Key → B) (k : Spec.Key)
    (q : Spec.Quantity) : Spec.drawsOf (Spec.idealCfg D ρ c b).world k q =
      q.decode D ρ (q.used D fun j => b (k.1, q.pathAt j ++ k.2)) := by
  cases q
  case infrared =>
    simp only [Spec.drawsOf, Spec.Quantity.decode, Spec.Quantity.used, Spec.Quantity.pathAt, Spec.Quantity.path, List.append_assoc]
    rfl
  all_goals rfl

section Measurable

variable [MeasurableSpace B] [DiscreteMeasurableSpace B] [Countable B]

instance : MeasurableSpace (Option B) := ⊤
instance : DiscreteMeasurableSpace (Option B) := ⟨fun _ => trivial⟩

theorem firstAccepted_measurable (accept : B → Prop) : Measurable (Spec.firstAccepted accept : (ℕ → B) → Option B) := by
  classical
  refine measurable_to_countable' fun o => ?_
  have hev : ∀ n (T : Set B), MeasurableSet {f : ℕ → B | f n ∈ T} := fun n T => measurable_pi_apply n (MeasurableSet.of_discrete (s := T))
  rcases o with _ | x
  · have e : Spec.firstAccepted accept ⁻¹' {none} = ⋂ n, {f : ℕ → B | f n ∈ {y | ¬ accept y}} := by
      ext f
      simp only [Set.mem_preimage, Set.mem_singleton_iff, Spec.firstAccepted, Set.mem_iInter, Set.mem_ofPred_eq]
      split
      · rename_i h; simpa using h
      · rename_i h; simpa using h
    rw [e]
    exact MeasurableSet.iInter fun n => hev n _
  · have e : Spec.firstAccepted accept ⁻¹' {some x} = ⋃ n, ({f : ℕ → B | f n ∈ {y | accept y ∧ y = x}} ∩
        ⋂ m, ⋂ (_ : m < n), {f : ℕ → B | f m ∈ {y | ¬ accept y}}) := by
      ext f
      simp only [Set.mem_preimage, Set.mem_singleton_iff, Spec.firstAccepted, Set.mem_iUnion, Set.mem_inter_iff,
        Set.mem_iInter, Set.mem_ofPred_eq]
      constructor
      · intro h
        split at h
        · rename_i hex
          refine ⟨Nat.find hex, ⟨Nat.find_spec hex, Option.some.inj h⟩, fun m hm => Nat.find_min hex hm⟩
        · cases h
      · rintro ⟨n, ⟨h1, h2⟩, h3⟩
        have hex : ∃ n, accept (f n) := ⟨n, h1⟩
        rw [dif_pos hex]
        have : Nat.find hex = n := (Nat.find_eq_iff hex).2 ⟨h1, h3⟩
        rw [this, h2]
    rw [e]
    have h3 : ∀ n : ℕ, MeasurableSet (⋂ m, ⋂ (_ : m < n), {f : ℕ → B | f m ∈ {y | ¬ accept y}}) := fun n =>
      MeasurableSet.iInter fun m => MeasurableSet.iInter fun _ => hev m _
    exact MeasurableSet.iUnion fun n => (hev n _).inter (h3 n)

theorem used_measurable (D : Spec.Decoder B) (q : Spec.Quantity) : Measurable (q.used D) := by
  have hs : Measurable (fun f : Unit → B => some (f ())) :=
    (Measurable.of_discrete (f := (some : B → Option B))).comp (measurable_pi_apply ())
  cases q
  case infrared => exact firstAccepted_measurable (fun x : B => 225 ≤ D.infrared x)
  all_goals exact hs

theorem pathAt_injective : Function.Injective fun p : (q : Spec.Quantity) × q.Index => p.1.pathAt p.2 := by
  rintro ⟨q, j⟩ ⟨q', j'⟩ h
  have h' := congrArg List.reverse h
  cases q <;> cases q' <;>
    simp [Spec.Quantity.pathAt, Spec.Quantity.path, Fin.val_inj] at h' <;> try rfl
  · have : j = j' := by
      have e : ∀ n : ℕ, (List.replicate n ((2, 0) : ℕ × ℕ)).length = n := fun n => List.length_replicate
      exact (e j).symm.trans ((congrArg List.length h').trans (e j'))
    rw [this]
  · subst h'; rfl
  · subst h'; rfl

end Measurable

/-! ## The theorems -/

section Main

variable {Ω : Type*} [MeasurableSpace Ω] [MeasurableSpace B] [DiscreteMeasurableSpace B] [Countable B] {P : Measure Ω}
  {bits : Spec.Key → Ω → B}

/-- C140. What is drawn at the start of an episode is drawn independently: the blend of the atmosphere, the date, the distance and
the direction from the station, the station's latitude and longitude, the pressure, the upwelling infrared, the forecast and the noise
of each of the ten harmonics. -/
theorem C140_draws (h : Spec.RandomBits P bits) (D : Spec.Decoder B) (ρ : B → ℤ → W) (c : EnvCfg Spec.Key W Rd) (k : Spec.Key) :
    iIndepFun (fun (q : Spec.Quantity) ω => Spec.drawsOf (Spec.idealCfg D ρ c fun k => bits k ω).world k q) P := by
  have hinj : Function.Injective fun p : (q : Spec.Quantity) × q.Index => ((k.1, p.1.pathAt p.2 ++ k.2) : Spec.Key) := by
    intro p p' hp
    exact pathAt_injective (List.append_cancel_right (Prod.mk.inj hp).2)
  have h1 := group_indep h (fun q j => (k.1, Spec.Quantity.pathAt q j ++ k.2)) hinj
  have h2 := h1.comp (fun q f => q.decode D ρ (q.used D f)) fun q =>
    (Measurable.of_discrete (f := q.decode D ρ)).comp (used_measurable D q)
  refine h2.congr fun q => ?_
  filter_upwards with ω
  exact (drawsOf_ideal D ρ c (fun k => bits k ω) k q).symm

/-- Everything that depends on the bits below a key only through the draws of an episode is measurable. -/
theorem draws_measurable {β : Type*} (D : Spec.Decoder B) (ρ : B → ℤ → W) (c : EnvCfg Spec.Key W Rd) (F : (Spec.Path → B) → β)
    (hF : ∀ p p', Spec.drawsOf (Spec.idealCfg D ρ c fun k => p k.2).world (0, []) =
      Spec.drawsOf (Spec.idealCfg D ρ c fun k => p' k.2).world (0, []) → F p = F p') : Measurable[_, ⊤] F := by
  let Z : (Spec.Path → B) → Spec.Quantity → Option B := fun p q => q.used D fun j => p (q.pathAt j)
  have hZ : Measurable Z := measurable_pi_iff.2 fun q =>
    (used_measurable D q).comp (measurable_pi_iff.2 fun j => measurable_pi_apply _)
  have hfac : Function.FactorsThrough F Z := by
    intro p p' hpp
    apply hF
    funext q
    rw [drawsOf_ideal, drawsOf_ideal]
    simp only [List.append_nil]
    exact congrArg _ (congrFun hpp q)
  rcases isEmpty_or_nonempty (Spec.Path → B) with he | ⟨⟨p0⟩⟩
  · exact fun s _ => by rw [Set.eq_empty_of_isEmpty (F ⁻¹' s)]; exact MeasurableSet.empty
  have : Nonempty β := ⟨F p0⟩
  obtain ⟨G, rfl⟩ := (Function.factorsThrough_iff F).1 hfac
  exact (@Measurable.of_discrete _ _ _ ⊤ _ G).comp hZ

/-- The bits below keys none of which lies below another are independent and identically distributed; so is everything computed
from them alike. -/
theorem below_iid (h : Spec.RandomBits P bits) {ι : Type*} (key : ι → Spec.Key)
    (hkey : Function.Injective fun p : ι × Spec.Path => (((key p.1).1, p.2 ++ (key p.1).2) : Spec.Key)) {β : Type*}
    (F : (Spec.Path → B) → β) (hF : Measurable[_, ⊤] F) :
    iIndepFun (m := fun _ => ⊤) (fun i ω => F fun p => bits ((key i).1, p ++ (key i).2) ω) P ∧
    ∀ i j, @IdentDistrib _ _ _ _ _ ⊤ (fun ω => F fun p => bits ((key i).1, p ++ (key i).2) ω)
      (fun ω => F fun p => bits ((key j).1, p ++ (key j).2) ω) P P := by
  have hinj : Function.Injective fun p : (_ : ι) × Spec.Path => (((key p.1).1, p.2 ++ (key p.1).2) : Spec.Key) := by
    rintro ⟨i, p⟩ ⟨j, q⟩ hpq
    have := @hkey (i, p) (j, q) hpq
    simp only [Prod.mk.injEq] at this
    obtain ⟨rfl, rfl⟩ := this
    rfl
  have hi : ∀ i, Function.Injective fun p : Spec.Path => (((key i).1, p ++ (key i).2) : Spec.Key) := by
    intro i p q hpq
    exact (Prod.mk.inj (@hkey (i, p) (i, q) hpq)).2
  letI : MeasurableSpace β := ⊤
  refine ⟨(group_indep h (fun i p => ((key i).1, p ++ (key i).2)) hinj).comp (fun _ => F) fun _ => hF, fun i j => ?_⟩
  have hm : ∀ i, Measurable fun ω (p : Spec.Path) => bits ((key i).1, p ++ (key i).2) ω :=
    fun i => measurable_pi_iff.2 fun p => h.meas _
  have hid : IdentDistrib (fun ω (p : Spec.Path) => bits ((key i).1, p ++ (key i).2) ω)
      (fun ω (p : Spec.Path) => bits ((key j).1, p ++ (key j).2) ω) P P :=
    ⟨(hm i).aemeasurable, (hm j).aemeasurable, by rw [group_law h (hi i) (0, []), group_law h (hi j) (0, [])]⟩
  exact hid.comp hF

theorem list_below {p q : Spec.Path} {m n : ℕ} (h : p ++ (2, 1) :: List.replicate m (2, 0) = q ++ (2, 1) :: List.replicate n (2, 0)) :
    m = n ∧ p = q := by
  have key : ∀ (m n : ℕ) (p q : Spec.Path), List.replicate m ((2, 0) : ℕ × ℕ) ++ (2, 1) :: p = List.replicate n (2, 0) ++ (2, 1) :: q →
      m = n ∧ p = q := by
    intro m
    induction m with
    | zero =>
      intro n p q h
      cases n with
      | zero => simpa using h
      | succ n => simp [List.replicate_succ] at h
    | succ m ih =>
      intro n p q h
      cases n with
      | zero => simp [List.replicate_succ] at h
      | succ n =>
        simp only [List.replicate_succ, List.cons_append, List.cons.injEq, true_and] at h
        obtain ⟨h1, h2⟩ := ih n p q h
        exact ⟨by omega, h2⟩
  have h' := congrArg List.reverse h
  simp only [List.reverse_append, List.reverse_cons, List.reverse_replicate, List.append_assoc, List.singleton_append] at h'
  obtain ⟨h1, h2⟩ := key _ _ _ _ h'
  exact ⟨h1, List.reverse_injective h2⟩

theorem use_rng (D : Spec.Decoder B) (ρ : B → ℤ → W) (c : EnvCfg Spec.Key W Rd) (b : Spec.Key → B) (ops : List Spec.Op) :
    ∀ v : Env Spec.Key W Rd, (Spec.use (Spec.idealCfg D ρ c b) ops v).rng =
      (v.rng.1, List.replicate (ops.countP fun o => match o with | .reset => true | _ => false) (2, 0) ++ v.rng.2) := by
  induction ops with
  | nil => intro v; rfl
  | cons o ops ih =>
    intro v
    cases o with
    | step a =>
      rw [Spec.use, ih, envStep_rng]
      simp
    | reset =>
      rw [Spec.use, ih, (envReset_rng _ v).1]
      have k1 : ∀ k : Spec.Key, (Spec.idealCfg D ρ c b).world.J.split k 2 0 = (k.1, (2, 0) :: k.2) := fun _ => rfl
      rw [k1]
      simp only [List.countP_cons, if_true, List.replicate_succ', List.append_assoc, List.singleton_append]

theorem draws_below (D : Spec.Decoder B) (ρ : B → ℤ → W) (c : EnvCfg Spec.Key W Rd) (b : Spec.Key → B) (k : Spec.Key) :
    Spec.drawsOf (Spec.idealCfg D ρ c b).world k =
      Spec.drawsOf (Spec.idealCfg D ρ c fun k' => b (k.1, k'.2.dropLast ++ k.2)).world (0, [(2, 1)]) ∧
    Spec.drawsOf (Spec.idealCfg D ρ c b).world k =
      Spec.drawsOf (Spec.idealCfg D ρ c fun k' => b (k.1, k'.2 ++ k.2)).world (0, []) := by
  constructor
  · funext q
    rw [drawsOf_ideal, drawsOf_ideal]
    simp only [List.dropLast_concat]
  · funext q
    rw [drawsOf_ideal, drawsOf_ideal]
    simp only [List.append_nil]

/-- C140. The episodes of a training run are independent and identically distributed: seed the environment once, then use it in any
way (the steps made before the `n`-th reset may depend on everything); the sequence of episodes that the resets start, each given by
its first observation and its response to every sequence of actions, is an i.i.d. sequence. -/
theorem C140_episodes (h : Spec.RandomBits P bits) (D : Spec.Decoder B) (ρ : B → ℤ → W) (c : EnvCfg Spec.Key W Rd) (σ : ℤ)
    (v : Ω → Env Spec.Key W Rd) (ops : ℕ → Ω → List Spec.Op)
    (hops : ∀ n ω, (ops n ω).countP (fun o => match o with | .reset => true | _ => false) = n) :
    iIndepFun (m := fun _ => ⊤) (fun (n : ℕ) ω => Spec.episode (Spec.idealCfg D ρ c fun k => bits k ω)
      (Spec.use (Spec.idealCfg D ρ c fun k => bits k ω) (ops n ω) ((v ω).seed (Spec.idealCfg D ρ c fun k => bits k ω) σ))) P ∧
    ∀ m n : ℕ, @IdentDistrib _ _ _ _ _ ⊤ (fun ω => Spec.episode (Spec.idealCfg D ρ c fun k => bits k ω)
      (Spec.use (Spec.idealCfg D ρ c fun k => bits k ω) (ops m ω) ((v ω).seed (Spec.idealCfg D ρ c fun k => bits k ω) σ)))
      (fun ω => Spec.episode (Spec.idealCfg D ρ c fun k => bits k ω)
      (Spec.use (Spec.idealCfg D ρ c fun k => bits k ω) (ops n ω) ((v ω).seed (Spec.idealCfg D ρ c fun k => bits k ω) σ))) P P := by
  have := h.indep.isProbabilityMeasure
  obtain ⟨ω0⟩ := nonempty_of_isProbabilityMeasure P
  let F : (Spec.Path → B) → Except Err (List ℝ × Info × (List ℤ → List (Except Err StepOut))) := fun p =>
    Spec.episode (Spec.idealCfg D ρ c fun k => p k.2.dropLast) { v ω0 with rng := (0, []) }
  have hF : Measurable[_, ⊤] F := by
    refine draws_measurable D ρ c F fun p p' hp => ?_
    refine episode_draws D ρ c _ _ _ _ ?_
    have e1 := (draws_below D ρ c (fun k => p k.2) (0, [])).1
    have e2 := (draws_below D ρ c (fun k => p' k.2) (0, [])).1
    simp only [List.append_nil] at e1 e2
    exact e1.symm.trans (hp.trans e2)
  have hX : ∀ (n : ℕ) ω, Spec.episode (Spec.idealCfg D ρ c fun k => bits k ω)
      (Spec.use (Spec.idealCfg D ρ c fun k => bits k ω) (ops n ω) ((v ω).seed (Spec.idealCfg D ρ c fun k => bits k ω) σ)) =
      F fun p => bits (σ, p ++ (2, 1) :: List.replicate n (2, 0)) ω := by
    intro n ω
    refine episode_draws D ρ c _ _ _ _ ?_
    rw [use_rng, hops]
    have e0 : ((v ω).seed (Spec.idealCfg D ρ c fun k => bits k ω) σ).rng = (σ, []) := rfl
    rw [e0]
    simp only [List.append_nil]
    exact (draws_below D ρ c (fun k => bits k ω) (σ, (2, 1) :: List.replicate n (2, 0))).1
  simp only [hX]
  refine below_iid h (fun n : ℕ => (σ, (2, 1) :: List.replicate n (2, 0))) ?_ F hF
  rintro ⟨m, p⟩ ⟨n, q⟩ hpq
  obtain ⟨rfl, rfl⟩ := list_below (Prod.mk.inj hpq).2
  rfl

/-- C140. The flights of an evaluation are independent and identically distributed: the results for different seeds, apart from the
seeds themselves, are an i.i.d. family, for every agent that starts each flight in the same state. -/
theorem C140_flights (h : Spec.RandomBits P bits) (D : Spec.Decoder B) (ρ : B → ℤ → W) (c : EnvCfg Spec.Key W Rd)
    (A : Agent S) (maxLen period : ℤ) (paths : Bool) (v : Env Spec.Key W Rd) (s : S) :
    iIndepFun (m := fun _ => ⊤) (fun (σ : ℤ) ω => Spec.outcome
      (evalFlight (balloonEnv (Spec.idealCfg D ρ c fun k => bits k ω)) A maxLen period paths σ v s).2.2) P ∧
    ∀ σ τ : ℤ, @IdentDistrib _ _ _ _ _ ⊤
      (fun ω => Spec.outcome (evalFlight (balloonEnv (Spec.idealCfg D ρ c fun k => bits k ω)) A maxLen period paths σ v s).2.2)
      (fun ω => Spec.outcome (evalFlight (balloonEnv (Spec.idealCfg D ρ c fun k => bits k ω)) A maxLen period paths τ v s).2.2) P P := by
  let F : (Spec.Path → B) → Except Err EvalResult := fun p => Spec.outcome
    (evalFlight (balloonEnv (Spec.idealCfg D ρ c fun k => p k.2.dropLast)) A maxLen period paths 0 v s).2.2
  have hF : Measurable[_, ⊤] F := by
    refine draws_measurable D ρ c F fun p p' hp => ?_
    refine flight_draws D ρ c _ _ A maxLen period paths 0 0 v s ?_
    have e1 := (draws_below D ρ c (fun k => p k.2) (0, [])).1
    have e2 := (draws_below D ρ c (fun k => p' k.2) (0, [])).1
    simp only [List.append_nil] at e1 e2
    exact e1.symm.trans (hp.trans e2)
  have hX : ∀ (σ : ℤ) ω, Spec.outcome
      (evalFlight (balloonEnv (Spec.idealCfg D ρ c fun k => bits k ω)) A maxLen period paths σ v s).2.2 =
      F fun p => bits (σ, p ++ [(2, 1)]) ω := by
    intro σ ω
    refine flight_draws D ρ c _ _ A maxLen period paths σ 0 v s ?_
    exact (draws_below D ρ c (fun k => bits k ω) (σ, [(2, 1)])).1
  simp only [hX]
  refine below_iid h (fun σ : ℤ => (σ, [(2, 1)])) ?_ F hF
  rintro ⟨m, p⟩ ⟨n, q⟩ hpq
  obtain ⟨h1, h2⟩ := Prod.mk.inj hpq
  exact Prod.ext h1 (List.append_cancel_right h2)

/-- C140. The rejection loop that draws the upwelling infrared ends with probability one, if a proposal is accepted with positive
probability. -/
theorem C140_infrared (h : Spec.RandomBits P bits) (D : Spec.Decoder B) (k : Spec.Key)
    (hpos : P {ω | 225 ≤ D.infrared (bits k ω)} ≠ 0) :
    ∀ᵐ ω ∂P, ∃ n : ℕ, 225 ≤ D.infrared (bits (k.1, List.replicate n (2, 0) ++ k.2) ω) := by
  have := h.indep.isProbabilityMeasure
  have hm : ∀ k, MeasurableSet {ω | D.infrared (bits k ω) < 225} := fun k =>
    h.meas k (MeasurableSet.of_discrete (s := {x | D.infrared x < 225}))
  have hlaw : ∀ k', P {ω | D.infrared (bits k' ω) < 225} = P {ω | D.infrared (bits k ω) < 225} := by
    intro k'
    have e : P.map (bits k') {x | D.infrared x < 225} = P.map (bits k) {x | D.infrared x < 225} := by rw [h.ident k' k]
    rwa [Measure.map_apply (h.meas _) MeasurableSet.of_discrete, Measure.map_apply (h.meas _) MeasurableSet.of_discrete] at e
  have hq : P {ω | D.infrared (bits k ω) < 225} < 1 := by
    have e : {ω | D.infrared (bits k ω) < 225} = {ω | 225 ≤ D.infrared (bits k ω)}ᶜ := by
      ext ω; simp
    have e2 : MeasurableSet {ω | 225 ≤ D.infrared (bits k ω)} := h.meas k (MeasurableSet.of_discrete (s := {x | 225 ≤ D.infrared x}))
    rw [e, prob_compl_eq_one_sub e2]
    exact ENNReal.sub_lt_self (by simp) (by simp) hpos
  have hinj : Function.Injective fun n : ℕ => ((k.1, List.replicate n (2, 0) ++ k.2) : Spec.Key) := by
    intro m n hmn
    have := congrArg List.length (Prod.mk.inj hmn).2
    simpa using this
  have hind : iIndepFun (fun n : ℕ => bits (k.1, List.replicate n (2, 0) ++ k.2)) P := h.indep.precomp hinj
  rw [ae_iff]
  have hle : ∀ N : ℕ, P {ω | ¬ ∃ n : ℕ, 225 ≤ D.infrared (bits (k.1, List.replicate n (2, 0) ++ k.2) ω)} ≤
      P {ω | D.infrared (bits k ω) < 225} ^ N := by
    intro N
    have e := hind.measure_inter_preimage_eq_mul (Finset.range N) (sets := fun _ => {x | D.infrared x < 225})
      fun _ _ => MeasurableSet.of_discrete
    have e3 : ∀ n, P ((bits (k.1, List.replicate n (2, 0) ++ k.2)) ⁻¹' {x | D.infrared x < 225}) = P {ω | D.infrared (bits k ω) < 225} :=
      fun n => hlaw _
    simp only [e3, Finset.prod_const, Finset.card_range] at e
    rw [← e]
    refine measure_mono fun ω hω => ?_
    simp only [Set.mem_ofPred_eq, not_exists, not_le] at hω
    simp only [Set.mem_iInter, Set.mem_preimage, Set.mem_ofPred_eq]
    exact fun n _ => hω n
  have hlim := ENNReal.tendsto_pow_atTop_nhds_zero_of_lt_one hq
  exact le_antisymm (ge_of_tendsto' hlim hle) zero_le

/-- A statistic of a flight; a flight that raises counts as 0. -/
def Spec.flightScore (f : EvalResult → ℝ) : Except Err EvalResult → ℝ
  | .ok r => f r
  | .error _ => 0

/-- The expected value of a statistic of the flight with seed 0 of an agent that starts in state `s`. -/
noncomputable def Spec.expected (P : Measure Ω) (bits : Spec.Key → Ω → B) (D : Spec.Decoder B) (ρ : B → ℤ → W) (c : EnvCfg Spec.Key W Rd)
    (A : Agent S) (maxLen period : ℤ) (paths : Bool) (v : Env Spec.Key W Rd) (s : S) (f : EvalResult → ℝ) : ℝ :=
  ∫ ω, Spec.flightScore f (evalFlight (balloonEnv (Spec.idealCfg D ρ c fun k => bits k ω)) A maxLen period paths 0 v s).2.2 ∂P

theorem score_outcome {f : EvalResult → ℝ} (hf : ∀ r σ, f { r with seed := σ } = f r) (r : Except Err EvalResult) :
    Spec.flightScore f (Spec.outcome r) = Spec.flightScore f r := by
  rcases r with e | r
  · rfl
  · exact hf r 0

/-- C140. Averages over evaluated seeds converge to the expected value: take a frozen agent whose flights do not raise (with
probability one), a bounded statistic of flights that does not mention the seed, and any sequence of different seeds. With probability one
the evaluation of the first `n` seeds succeeds for all `n`, its results do not depend on `n`, and the average of the statistic
over them tends to its expected value for a single seed. -/
theorem C140_average (h : Spec.RandomBits P bits) (D : Spec.Decoder B) (ρ : B → ℤ → W) (c : EnvCfg Spec.Key W Rd)
    {A : Agent S} {R : S → S → Prop} (hA : Spec.Frozen A R) (maxLen period : ℤ) (hm : 0 < maxLen) (paths : Bool)
    (v : Env Spec.Key W Rd) (s : S) (hs : R (A.setMode s false) (A.setMode s false)) (f : EvalResult → ℝ)
    (hf : ∀ r σ, f { r with seed := σ } = f r) (M : ℝ)
    (hM : ∀ b σ r, (evalFlight (balloonEnv (Spec.idealCfg D ρ c b)) A maxLen period paths σ v (A.setMode s false)).2.2 = .ok r → |f r| ≤ M)
    (σ : ℕ → ℤ) (hσ : Function.Injective σ)
    (hok : ∀ᵐ ω ∂P, ∃ r, (evalFlight (balloonEnv (Spec.idealCfg D ρ c fun k => bits k ω)) A maxLen period paths (σ 0) v
      (A.setMode s false)).2.2 = .ok r) :
    ∀ᵐ ω ∂P, ∃ r : ℕ → EvalResult,
      (∀ n, (evalAgent (balloonEnv (Spec.idealCfg D ρ c fun k => bits k ω)) A ⟨(List.range n).map σ, maxLen⟩ period paths v s).2.2 =
        .ok ((List.range n).map r)) ∧
      Filter.Tendsto (fun n : ℕ => (∑ i ∈ Finset.range n, f (r i)) / n) Filter.atTop
        (nhds (Spec.expected P bits D ρ c A maxLen period paths v (A.setMode s false) f)) := by
  have := h.indep.isProbabilityMeasure
  generalize hs0 : A.setMode s false = s0 at *
  obtain ⟨hind, hid⟩ := C140_flights h D ρ c A maxLen period paths v s0
  let X : ℕ → Ω → ℝ := fun i ω => Spec.flightScore f (Spec.outcome
    (evalFlight (balloonEnv (Spec.idealCfg D ρ c fun k => bits k ω)) A maxLen period paths (σ i) v s0).2.2)
  have hX : ∀ i ω, X i ω = Spec.flightScore f
      (evalFlight (balloonEnv (Spec.idealCfg D ρ c fun k => bits k ω)) A maxLen period paths (σ i) v s0).2.2 :=
    fun i ω => score_outcome hf _
  letI : MeasurableSpace (Except Err EvalResult) := ⊤
  have hsc : Measurable (Spec.flightScore f) := fun _ _ => trivial
  have hXi : iIndepFun X P := (hind.precomp hσ).comp (fun _ => Spec.flightScore f) fun _ => hsc
  have hXd : ∀ i, IdentDistrib (X i) (X 0) P P := fun i => (hid (σ i) (σ 0)).comp hsc
  have hbound : ∀ ω, ‖X 0 ω‖ ≤ |M| := by
    intro ω
    rw [hX]
    rcases hr : (evalFlight (balloonEnv (Spec.idealCfg D ρ c fun k => bits k ω)) A maxLen period paths (σ 0) v s0).2.2 with e | r
    · simp [Spec.flightScore]
    · exact (hM _ _ _ hr).trans (le_abs_self M)
  have hint : Integrable (X 0) P :=
    Integrable.of_bound (hXd 0).aemeasurable_fst.aestronglyMeasurable |M| (ae_of_all _ hbound)
  have hslln := strong_law_ae_real X hint (fun i j hij => hXi.indepFun hij) hXd
  have hall : ∀ᵐ ω ∂P, ∀ i, ∃ r, (evalFlight (balloonEnv (Spec.idealCfg D ρ c fun k => bits k ω)) A maxLen period paths (σ i) v s0).2.2 = .ok r := by
    rw [ae_all_iff]
    intro i
    have h1 := (hid (σ 0) (σ i)).ae_snd (p := fun x => ∃ r, x = .ok r) trivial (by
      filter_upwards [hok] with ω hω
      obtain ⟨r, hr⟩ := hω
      rw [hr]
      exact ⟨_, rfl⟩)
    filter_upwards [h1] with ω hω
    obtain ⟨r, hr⟩ := hω
    rcases hq : (evalFlight (balloonEnv (Spec.idealCfg D ρ c fun k => bits k ω)) A maxLen period paths (σ i) v s0).2.2 with e | r'
    · rw [hq] at hr; cases hr
    · exact ⟨r', rfl⟩
  filter_upwards [hslln, hall] with ω h1 h2
  let g : ℤ → EvalResult := fun x =>
    (evalFlight (balloonEnv (Spec.idealCfg D ρ c fun k => bits k ω)) A maxLen period paths x v s0).2.2.toOption.getD default
  have hg : ∀ i, (evalFlight (balloonEnv (Spec.idealCfg D ρ c fun k => bits k ω)) A maxLen period paths (σ i) v s0).2.2 = .ok (g (σ i)) := by
    intro i
    obtain ⟨r, hr⟩ := h2 i
    simp only [g, hr]
    rfl
  refine ⟨fun i => g (σ i), fun n => ?_, ?_⟩
  · unfold evalAgent
    rw [if_neg (by simpa using hm), hs0]
    rw [evalFlights_repeats (balloonEnv_repeats (Spec.idealCfg D ρ c fun k => bits k ω) fun _ _ _ _ => rfl) hA maxLen period paths v s0 g
      ((List.range n).map σ) (by
        intro x hx
        obtain ⟨i, -, rfl⟩ := List.mem_map.1 hx
        exact hg i) v s0 rfl hs, List.map_map]
    rfl
  · have e : ∀ i, X i ω = f (g (σ i)) := fun i => by rw [hX, hg]; rfl
    simp only [e] at h1
    have e2 : ∫ ω, X 0 ω ∂P = Spec.expected P bits D ρ c A maxLen period paths v s0 f := by
      have h3 := ((hid (σ 0) 0).comp hsc).integral_eq
      simp only [Function.comp_def, score_outcome hf] at h3
      simp only [hX]
      exact h3
    rw [← e2]
    exact h1

theorem evalLoop_bounds {V : Type} {G : GymEnv V} {M : ℝ} (hM : 0 ≤ M)
    (hG : ∀ v a out, (G.step a v).2 = .ok out → |out.reward| ≤ M) (A : Agent S) (period : ℤ) (paths : Bool) (n : ℕ) :
    ∀ (v : V) (s : S) (a : ℤ) (k k' : Acc), (evalLoop G A period paths n v s a k).2.2 = .ok k' → |k'.total| ≤ |k.total| + M * n ∧
      (k.within ≤ k.count → k'.within ≤ k'.count) := by
  induction n with
  | zero =>
    intro v s a k k' h
    simp only [evalLoop, Except.ok.injEq] at h
    subst h
    simp
  | succ n ih =>
    intro v s a k k' h
    rw [evalLoop] at h
    simp only at h
    have hrew := hG v a
    rcases hx : G.step a v with ⟨w, e | out⟩
    · rw [hx] at h; cases h
    rw [hx] at h hrew
    replace hrew := hrew out rfl
    simp only at h
    rcases hy : A.step s out.reward out.obs with ⟨s1, e | a1⟩
    · rw [hy] at h; cases h
    rw [hy] at h
    simp only at h
    rcases hz : G.balloon w with e | b
    · rw [hz] at h; cases h
    rw [hz] at h
    simp only at h
    by_cases hp : period = 0
    · rw [if_pos hp] at h; cases h
    rw [if_neg hp] at h
    have habs : |k.total + out.reward| ≤ |k.total| + M := (abs_add_le _ _).trans (by linarith)
    have hn : (0 : ℝ) ≤ M * n := mul_nonneg hM n.cast_nonneg
    split at h
    · simp only [Except.ok.injEq] at h
      subst h
      refine ⟨?_, fun hk => ?_⟩
      · push_cast; linarith
      · simp only
        split <;> omega
    · obtain ⟨h1, h2⟩ := ih _ _ _ _ _ h
      refine ⟨?_, fun hk => h2 ?_⟩
      · simp only at h1
        push_cast; linarith
      · simp only
        split <;> omega

theorem evalFlight_bounds {V : Type} {G : GymEnv V} {M : ℝ} (hM : 0 ≤ M)
    (hG : ∀ v a out, (G.step a v).2 = .ok out → |out.reward| ≤ M) (A : Agent S) (maxLen period : ℤ) (paths : Bool) (seed : ℤ) (v : V)
    (s : S) (r : EvalResult) (h : (evalFlight G A maxLen period paths seed v s).2.2 = .ok r) :
    |r.cumulative| ≤ M * maxLen.toNat ∧ |r.twr| ≤ 1 := by
  unfold evalFlight at h
  simp only at h
  rcases hx : G.reset (G.seed seed v) with ⟨w, e | obs⟩
  · rw [hx] at h; cases h
  rw [hx] at h
  simp only at h
  rcases hy : A.beginEpisode s obs with ⟨s1, e | a1⟩
  · rw [hy] at h; cases h
  rw [hy] at h
  simp only at h
  have hb := evalLoop_bounds hM hG A period paths maxLen.toNat w s1 a1
    { total := 0, within := 0, path := [], count := 0, outOfPower := false, envelopeBurst := false
      zeropressure := false, last := none }
  revert hb h
  generalize evalLoop G A period paths maxLen.toNat w s1 a1
    { total := 0, within := 0, path := [], count := 0, outOfPower := false, envelopeBurst := false
      zeropressure := false, last := none } = z
  obtain ⟨w2, s2, e | k⟩ := z
  · intro h; cases h
  intro h hb
  obtain ⟨h1, h2⟩ := hb k rfl
  replace h2 := h2 le_rfl
  simp only at h
  split at h
  · cases h
  rename_i h0
  rcases hl : k.last with _ | ⟨rw', dn⟩
  · rw [hl] at h; cases h
  rw [hl] at h
  simp only [Except.ok.injEq] at h
  subst h
  refine ⟨by simpa using h1, ?_⟩
  have hc : (0 : ℝ) < k.count := by exact_mod_cast Nat.pos_of_ne_zero h0
  have hw : (k.within : ℝ) ≤ k.count := by exact_mod_cast h2
  simp only
  rw [abs_of_nonneg (by positivity), div_le_one hc]
  exact hw

theorem envStep_reward (c : EnvCfg K W Rd) (v : Env K W Rd) (a : ℤ) (out : StepOut) (h : (v.step c a).2 = .ok out) :
    ∃ b, c.rewardFn b = .ok out.reward := by
  unfold Env.step at h
  split at h
  · cases h
  simp only at h
  split at h
  · cases h
  split at h
  · cases h
  rename_i i _
  split at h
  · cases h
  rename_i r hr
  simp only [Except.ok.injEq] at h
  subst h
  exact ⟨_, hr⟩

/-- C140, for the two reported numbers: the average return and the average time within the radius of an agent converge with probability
one to their expected values. -/
theorem C140_reported (h : Spec.RandomBits P bits) (D : Spec.Decoder B) (ρ : B → ℤ → W) (c : EnvCfg Spec.Key W Rd) (M : ℝ)
    (hrew : ∀ b r, c.rewardFn b = .ok r → |r| ≤ M)
    {A : Agent S} {R : S → S → Prop} (hA : Spec.Frozen A R) (maxLen period : ℤ) (hm : 0 < maxLen) (paths : Bool)
    (v : Env Spec.Key W Rd) (s : S) (hs : R (A.setMode s false) (A.setMode s false)) (σ : ℕ → ℤ) (hσ : Function.Injective σ)
    (hok : ∀ᵐ ω ∂P, ∃ r, (evalFlight (balloonEnv (Spec.idealCfg D ρ c fun k => bits k ω)) A maxLen period paths (σ 0) v
      (A.setMode s false)).2.2 = .ok r) :
    ∀ᵐ ω ∂P, ∃ r : ℕ → EvalResult,
      (∀ n, (evalAgent (balloonEnv (Spec.idealCfg D ρ c fun k => bits k ω)) A ⟨(List.range n).map σ, maxLen⟩ period paths v s).2.2 =
        .ok ((List.range n).map r)) ∧
      Filter.Tendsto (fun n : ℕ => (∑ i ∈ Finset.range n, (r i).cumulative) / n) Filter.atTop 
        (nhds (Spec.expected P bits D ρ c A maxLen period paths v (A.setMode s false) fun r => r.cumulative)) ∧
      Filter.Tendsto (fun n : ℕ => (∑ i ∈ Finset.range n, (r i).twr) / n) Filter.atTop 
        (nhds (Spec.expected P bits D ρ c A maxLen period paths v (A.setMode s false) fun r => r.twr)) := by
  have hb : ∀ b σ r, (evalFlight (balloonEnv (Spec.idealCfg D ρ c b)) A maxLen period paths σ v (A.setMode s false)).2.2 = .ok r →
      |r.cumulative| ≤ |M| * maxLen.toNat ∧ |r.twr| ≤ 1 := by
    intro b σ r hr
    refine evalFlight_bounds (abs_nonneg M) (fun v a out ho => ?_) A maxLen period paths σ v _ r hr
    obtain ⟨b', hb'⟩ := envStep_reward _ _ _ _ ho
    exact (hrew b' _ hb').trans (le_abs_self M)
  have h1 := C140_average h D ρ c hA maxLen period hm paths v s hs (fun r => r.cumulative) (fun _ _ => rfl) _
    (fun b σ r hr => (hb b σ r hr).1) σ hσ hok
  have h2 := C140_average h D ρ c hA maxLen period hm paths v s hs (fun r => r.twr) (fun _ _ => rfl) _
    (fun b σ r hr => (hb b σ r hr).2) σ hσ hok
  filter_upwards [h1, h2] with ω ⟨r, e1, t1⟩ ⟨r', e2, t2⟩
  have hrr : ∀ i, r' i = r i := by
    intro i
    have e := (e1 (i + 1)).symm.trans (e2 (i + 1))
    rw [List.range_succ, List.map_append, List.map_append] at e
    have e' := List.append_inj_right' (Except.ok.inj e) rfl
    simpa using e'.symm
  simp only [hrr] at t2
  exact ⟨r, e1, t1, t2⟩

/-- The draws lie in their ranges. -/
def Spec.SaneDecoder (D : Spec.Decoder B) : Prop :=
  ∀ x, (0 ≤ D.uniform x ∧ D.uniform x < 1) ∧ (0 ≤ D.beta x ∧ D.beta x ≤ 1) ∧ D.infrared x < 315 ∧ ∀ n, 0 < n → D.choice x n < n

theorem idealJax_sane {D : Spec.Decoder B} (hD : Spec.SaneDecoder D) (b : Spec.Key → B) : Spec.SaneDraws (Spec.idealJax D b) := by
  classical
  intro k
  refine ⟨(hD _).1, (hD _).2.1, ?_, (hD _).2.2.2⟩
  simp only [Spec.idealJax, Spec.firstAccepted]
  split
  · rename_i hex
    exact ⟨Nat.find_spec hex, (hD _).2.2.1⟩
  · norm_num [Spec.accepted]

/-- C140, without assumptions on the flights: on the static wind field with the Perciatelli reward, for every frozen agent that
answers observations with 0, 1 or 2 (StationSeeker, trained networks), and two-day episodes. -/
theorem C140_static (h : Spec.RandomBits P bits) (D : Spec.Decoder B) (hD : Spec.SaneDecoder D) (c : EnvCfg Spec.Key Unit Rd)
    (two : Bool) (hR : c.world.R = gpr two) (cal : Calendar) (hcal : Spec.Gregorian cal) (hE : c.world.sun = realSun cal)
    (hC : c.world.C = staticWind Spec.Key) (hnz : ∀ s a b c' d, |c.world.nz s a b c' d| ≤ 1)
    (q : RewardParams) (h0 : 0 ≤ q.dropoff) (h1 : q.dropoff ≤ 1) (hh : 0 < q.halflife) (hrew : c.rewardFn = reward c.world.sun q)
    {A : Agent S} {R : S → S → Prop} (hA : Spec.Frozen A R) (I J : S → Prop) (hP : ∀ E : World Spec.Key Unit, E.R = gpr two →
      E.sun = realSun cal → Spec.Pilot E A I J) (period : ℤ) (hper : period ≠ 0) (paths : Bool)
    (v : Env Spec.Key Unit Rd) (s : S) (hs : R (A.setMode s false) (A.setMode s false)) (hI : I (A.setMode s false))
    (σ : ℕ → ℤ) (hσ : Function.Injective σ) :
    ∀ᵐ ω ∂P, ∃ r : ℕ → EvalResult,
      (∀ n, (evalAgent (balloonEnv (Spec.idealCfg D (fun _ _ => ()) c fun k => bits k ω)) A ⟨(List.range n).map σ, 960⟩ period paths v s).2.2 =
        .ok ((List.range n).map r)) ∧
      Filter.Tendsto (fun n : ℕ => (∑ i ∈ Finset.range n, (r i).cumulative) / n) Filter.atTop 
        (nhds (Spec.expected P bits D (fun _ _ => ()) c A 960 period paths v (A.setMode s false) fun r => r.cumulative)) ∧
      Filter.Tendsto (fun n : ℕ => (∑ i ∈ Finset.range n, (r i).twr) / n) Filter.atTop 
        (nhds (Spec.expected P bits D (fun _ _ => ()) c A 960 period paths v (A.setMode s false) fun r => r.twr)) := by
  refine C140_reported h D (fun _ _ => ()) c 1 ?_ hA 960 period (by norm_num) paths v s hs σ hσ (ae_of_all _ fun ω => ?_)
  · intro b r hr
    rw [hrew] at hr
    have := C19_in_range c.world.sun q h0 h1 hh b r hr
    rw [abs_le]
    constructor <;> linarith [this.1, this.2]
  · have hC' : (Spec.idealCfg D (fun _ _ => ()) c fun k => bits k ω).world.C = staticWind Spec.Key := by
      simp only [Spec.idealCfg, hC, staticWind]
    obtain ⟨v', s', r, e, -, -⟩ := flight_flies (c := Spec.idealCfg D (fun _ _ => ()) c fun k => bits k ω) (idealJax_sane hD _) two hR hcal hE
      (by rw [hC']; exact good_static) hh hrew (by norm_num : (0:ℝ) ≤ 21.1)
      (C136_static_limit (Spec.idealCfg D (fun _ _ => ()) c fun k => bits k ω).world hC' hnz) (hP _ hR hE) hper paths
      (maxLen := 960) (by norm_num) (by norm_num) (by norm_num) (σ 0) v (A.setMode s false) hI
    exact ⟨r, by rw [e]⟩

end Main

/-! ## Coins -/

/-- Draws computed from one coin. -/
noncomputable def coinDecoder : Spec.Decoder Bool where
  uniform x := if x then 1 / 2 else 0
  uniform4 x _ := if x then 1 / 2 else 0
  beta x := if x then 1 / 2 else 0
  choice x n := if x = true ∧ 1 < n then 1 else 0
  infrared x := if x then 300 else 100

theorem coinDecoder_sane : Spec.SaneDecoder coinDecoder := by
  intro x
  cases x <;> simp [coinDecoder] <;> norm_num
  intro n hn
  split <;> omega

/-- Independent fair coins for all keys exist. -/
theorem coins_exist : ∃ (Ω : Type) (_ : MeasurableSpace Ω) (P : Measure Ω) (bits : Spec.Key → Ω → Bool), Spec.RandomBits P bits ∧
    ∀ k x, P (bits k ⁻¹' {x}) = 2⁻¹ := by
  obtain ⟨Ω, mΩ, P, X, h1, h2, h3, h4⟩ := exists_iid Spec.Key (PMF.uniformOfFintype Bool).toMeasure
  refine ⟨Ω, mΩ, P, X, ⟨h1, h3, fun k k' => by rw [(h2 k).map_eq, (h2 k').map_eq]⟩, fun k x => ?_⟩
  rw [← Measure.map_apply (h1 k) (measurableSet_singleton x), (h2 k).map_eq, PMF.toMeasure_apply_singleton _ _ (measurableSet_singleton x)]
  simp

/-- C140. The only dependence among the draws of an episode is inside a harmonic: the seed of its noise generator and its offsets are
drawn from the same key (`simplex_wind_noise.py:102, 112`), so they need not be independent of each other. -/
theorem C140_harmonic_reuse : ∃ (Ω : Type) (_ : MeasurableSpace Ω) (P : Measure Ω) (bits : Spec.Key → Ω → Bool) (D : Spec.Decoder Bool),
    Spec.RandomBits P bits ∧ Spec.SaneDecoder D ∧ ∀ k,
      ¬ IndepFun (fun ω => (harmonicReset (Spec.idealJax D fun k => bits k ω) k).seed)
        (fun ω => (harmonicReset (Spec.idealJax D fun k => bits k ω) k).offset 0) P := by
  obtain ⟨Ω, mΩ, P, bits, h, hc⟩ := coins_exist
  refine ⟨Ω, mΩ, P, bits, coinDecoder, h, coinDecoder_sane, fun k hk => ?_⟩
  have e := hk.measure_inter_preimage_eq_mul {1} {0} (measurableSet_singleton _) (measurableSet_singleton _)
  have e1 : (fun ω => (harmonicReset (Spec.idealJax coinDecoder fun k => bits k ω) k).seed) ⁻¹' {1} = bits k ⁻¹' {true} := by
    ext ω
    simp [harmonicReset, Spec.idealJax, coinDecoder]
  have e2 : (fun ω => (harmonicReset (Spec.idealJax coinDecoder fun k => bits k ω) k).offset 0) ⁻¹' {0} = bits k ⁻¹' {true} := by
    ext ω
    simp only [harmonicReset, Spec.idealJax, coinDecoder, Set.mem_preimage, Set.mem_singleton_iff]
    cases bits k ω <;> norm_num
  rw [e1, e2, Set.inter_self, hc] at e
  have := congrArg ENNReal.toReal e
  norm_num at this

/-- A static wind field with noise that depends on the drawn seeds only. -/
noncomputable def coinCfg : EnvCfg Spec.Key Unit Unit :=
  { world := { J := Spec.idealJax coinDecoder fun _ => true, nz := fun n _ _ _ _ => if n = 0 then 1 else -1
               C := staticWind Spec.Key, R := gpr true, sun := realSun gregorian }
    rewardFn := reward (realSun gregorian) RewardParams.default
    render := { reset := id, step := fun r _ _ _ => r, render := id } }

/-- Evaluating StationSeeker on seeds 0, 1, 2, … in the simulator whose every draw is made by tossing a coin. -/
example (v : Env Spec.Key Unit Unit) : ∃ (Ω : Type) (_ : MeasurableSpace Ω) (P : Measure Ω) (bits : Spec.Key → Ω → Bool),
    IsProbabilityMeasure P ∧ ∀ᵐ ω ∂P, ∃ r : ℕ → EvalResult,
      (∀ n, (evalAgent (balloonEnv (Spec.idealCfg coinDecoder (fun _ _ => ()) coinCfg fun k => bits k ω)) stationSeeker
        ⟨(List.range n).map (fun i : ℕ => (i : ℤ)), 960⟩ 10 true v ()).2.2 = .ok ((List.range n).map r)) ∧
      Filter.Tendsto (fun n : ℕ => (∑ i ∈ Finset.range n, (r i).twr) / n) Filter.atTop
        (nhds (Spec.expected P bits coinDecoder (fun _ _ => ()) coinCfg stationSeeker 960 10 true v () fun r => r.twr)) := by
  obtain ⟨Ω, mΩ, P, bits, h, -⟩ := coins_exist
  refine ⟨Ω, mΩ, P, bits, h.indep.isProbabilityMeasure, ?_⟩
  have := C140_static h coinDecoder coinDecoder_sane coinCfg true rfl gregorian gregorian_ok rfl rfl
    (fun s a b c d => by simp only [coinCfg]; split <;> norm_num) RewardParams.default (by norm_num [RewardParams.default])
    (by norm_num [RewardParams.default]) (by norm_num [RewardParams.default]) rfl stationSeeker_frozen (fun _ => True) (fun _ => True)
    (fun E hR hE => C138_seeker E true hR gregorian gregorian_ok hE) 10 (by norm_num) true v () trivial trivial (fun i => (i : ℤ))
    Nat.cast_injective
  filter_upwards [this] with ω hω
  obtain ⟨r, e, -, t⟩ := hω
  exact ⟨r, e, t⟩

/-- If proposals for the infrared are made with coins, the loop ends with probability one. -/
example : ∃ (Ω : Type) (_ : MeasurableSpace Ω) (P : Measure Ω) (bits : Spec.Key → Ω → Bool), Spec.RandomBits P bits ∧
    ∀ k : Spec.Key, ∀ᵐ ω ∂P, ∃ n : ℕ, 225 ≤ coinDecoder.infrared (bits (k.1, List.replicate n (2, 0) ++ k.2) ω) := by
  obtain ⟨Ω, mΩ, P, bits, h, hc⟩ := coins_exist
  refine ⟨Ω, mΩ, P, bits, h, fun k => C140_infrared h coinDecoder k ?_⟩
  have e : {ω | 225 ≤ coinDecoder.infrared (bits k ω)} = bits k ⁻¹' {true} := by
    ext ω
    simp only [coinDecoder, Set.mem_ofPred_eq, Set.mem_preimage, Set.mem_singleton_iff]
    cases bits k ω <;> norm_num
  rw [e, hc]
  simp

end BLE
