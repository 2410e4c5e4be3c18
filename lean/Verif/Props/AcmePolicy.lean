import Mathlib.MeasureTheory.Measure.MeasureSpace
import Verif.Model.AcmePolicy
import Verif.Props.Networks

/-!
# C124, C125: Acme's policies, configuration and evaluation agent
-/

namespace BLE

open MeasureTheory

variable {K W Rd : Type}

/-! ## Policies -/

/-- A probability vector. -/
def Spec.Probabilities {n : ℕ} (p : Fin n → ℝ) : Prop := (∀ a, 0 ≤ p a) ∧ ∑ a, p a = 1

/-- A sampler never returns an impossible outcome. -/
def Spec.Supported (sample : K → (Fin 3 → ℝ) → Fin 3) : Prop := ∀ k p, Spec.Probabilities p → 0 < p (sample k p)

/-- The maximal entries. -/
def Spec.Best {n : ℕ} (q : Fin n → ℝ) (a : Fin n) : Prop := ∀ j, q j ≤ q a

theorem exists_best {n : ℕ} (h : 0 < n) (q : Fin n → ℝ) : ∃ a, Spec.Best q a := by
  obtain ⟨b, -, hb, -⟩ := greedy_spec q h
  exact ⟨b, hb⟩

/-- The exploration probabilities are probabilities; every action gets at least its share of ε, actions that are not best get exactly
that, the best actions together get at least 1 − ε, and better actions are never less likely. -/
theorem C124_probabilities {n : ℕ} (hn : 0 < n) (ε : ℝ) (h0 : 0 ≤ ε) (h1 : ε ≤ 1) (q : Fin n → ℝ) :
    Spec.Probabilities (epsilonGreedy ε q) ∧ (∀ a, ε / n ≤ epsilonGreedy ε q a) ∧
    (∀ a, ¬ Spec.Best q a → epsilonGreedy ε q a = ε / n) ∧
    (∀ a b, q a ≤ q b → epsilonGreedy ε q a ≤ epsilonGreedy ε q b) ∧
    (∀ s : Finset (Fin n), (∀ a, Spec.Best q a → a ∈ s) → 1 - ε ≤ ∑ a ∈ s, epsilonGreedy ε q a) := by
  classical
  obtain ⟨m, hm⟩ := exists_best hn q
  set B := Finset.univ.filter fun b : Fin n => ∀ j, q j ≤ q b with hB
  have hBpos : (0 : ℝ) < B.card := by
    exact_mod_cast Finset.card_pos.2 ⟨m, show m ∈ B from Finset.mem_filter.2 ⟨Finset.mem_univ _, hm⟩⟩
  have hn' : (0 : ℝ) < n := by exact_mod_cast hn
  have hdef : ∀ a, epsilonGreedy ε q a = (1 - ε) * (if ∀ j, q j ≤ q a then 1 / (B.card : ℝ) else 0) + ε / n := by
    intro a
    rw [epsilonGreedy, ← hB, mul_one_div]
  have hge : ∀ a, ε / n ≤ epsilonGreedy ε q a := by
    intro a
    rw [hdef]
    have : 0 ≤ (1 - ε) * (if ∀ j, q j ≤ q a then 1 / (B.card : ℝ) else 0) :=
      mul_nonneg (by linarith) (by split <;> positivity)
    linarith
  have hnn : ∀ a, 0 ≤ epsilonGreedy ε q a := fun a => (by positivity : 0 ≤ ε / n).trans (hge a)
  have hg : ∑ a, (if ∀ j, q j ≤ q a then 1 / (B.card : ℝ) else 0) = 1 := by
    rw [← Finset.sum_filter, Finset.sum_const, ← hB, nsmul_eq_mul, mul_one_div, div_self hBpos.ne']
  have hsum : ∑ a, epsilonGreedy ε q a = 1 := by
    simp only [hdef, Finset.sum_add_distrib, ← Finset.mul_sum, hg]
    simp only [Finset.sum_const, Finset.card_univ, Fintype.card_fin, nsmul_eq_mul]
    field_simp
    ring
  refine ⟨⟨hnn, hsum⟩, hge, fun a ha => ?_, fun a b hab => ?_, fun s hs => ?_⟩
  · rw [hdef, if_neg (show ¬ ∀ j, q j ≤ q a from ha)]; ring
  · rw [hdef a, hdef b]
    by_cases ha : ∀ j, q j ≤ q a
    · rw [if_pos ha, if_pos fun j => (ha j).trans hab]
    · have := hge b
      rw [hdef b] at this
      rw [if_neg ha]
      linarith
  · have hBs : B ⊆ s := fun a ha => hs a (Finset.mem_filter.1 ha).2
    refine le_trans ?_ (Finset.sum_le_sum_of_subset_of_nonneg hBs fun a _ _ => hnn a)
    have : ∀ a ∈ B, epsilonGreedy ε q a = (1 - ε) / B.card + ε / n := by
      intro a ha
      rw [hdef, if_pos (Finset.mem_filter.1 ha).2]; ring
    rw [Finset.sum_congr rfl this, Finset.sum_const, nsmul_eq_mul, mul_add, mul_div_cancel₀ _ hBpos.ne']
    have : 0 ≤ (B.card : ℝ) * (ε / n) := by positivity
    linarith

example : epsilonGreedy 0.5 (![0, 2, 2] : Fin 3 → ℝ) 0 = 1 / 6 := by
  have h := (C124_probabilities (by norm_num) 0.5 (by norm_num) (by norm_num) (![0, 2, 2] : Fin 3 → ℝ)).2.2.1 0
    fun h => by have := h 1; norm_num at this
  rw [h]; norm_num

/-- What the network says about an observation: the mean of its quantiles, per action. -/
noncomputable def Spec.acmeQ (p : AcmeParams) (obs : List ℝ) (a : Fin 3) : ℝ :=
  (∑ t : Fin 51, quantileLogits 1099 600 8 3 51 p obs a t) / 51

theorem acmeQ_eq (p : AcmeParams) (obs : List ℝ) : squeeze0 (acmeValues p [obs]) = .ok (Spec.acmeQ p obs) := by
  simp only [acmeValues, vmap, List.map_cons, List.map_nil, squeeze0]
  congr 1

/-- The evaluation policy always answers with an action of maximal value, whatever epsilon and key; if there is only one, the key does
not matter either. -/
theorem C124_eval (sample : K → (Fin 3 → ℝ) → Fin 3) (hs : Spec.Supported sample) (p : AcmeParams) (obs : List ℝ) :
    ∀ key ε, ∃ a, evalPolicy sample p key obs ε = .ok a ∧ Spec.Best (Spec.acmeQ p obs) a ∧
      (∀ ε', evalPolicy sample p key obs ε' = .ok a) ∧
      ((∀ b, Spec.Best (Spec.acmeQ p obs) b → b = a) → ∀ key', evalPolicy sample p key' obs ε = .ok a) := by
  have h : ∀ key, Spec.Best (Spec.acmeQ p obs) (sample key (epsilonGreedy 0 (Spec.acmeQ p obs))) := by
    intro key
    have hp := C124_probabilities (by norm_num) 0 le_rfl zero_le_one (Spec.acmeQ p obs)
    by_contra hb
    have h1 := hs key _ hp.1
    rw [hp.2.2.1 _ hb] at h1
    norm_num at h1
  intro key ε
  have e : ∀ key ε, evalPolicy sample p key obs ε = .ok (sample key (epsilonGreedy 0 (Spec.acmeQ p obs))) := by
    intro key ε
    simp only [evalPolicy, acmeQ_eq]
  exact ⟨_, e key ε, h key, fun ε' => e key ε', fun hu key' => by rw [e, hu _ (h key')]⟩

/-- If keys are drawn so that the sampler follows the probabilities it is given, the behaviour policy takes every action with at least
a third of ε, and the best actions together with at least 1 − ε. -/
theorem C124_behaviour [MeasurableSpace K] (μ : Measure K) (sample : K → (Fin 3 → ℝ) → Fin 3)
    (hlaw : ∀ p, Spec.Probabilities p → ∀ a, μ {k | sample k p = a} = ENNReal.ofReal (p a))
    (p : AcmeParams) (obs : List ℝ) (ε : ℝ) (h0 : 0 ≤ ε) (h1 : ε ≤ 1) :
    (∀ a, ENNReal.ofReal (ε / 3) ≤ μ {k | behaviorPolicy sample p k obs ε = .ok a}) ∧
    (∀ a, ¬ Spec.Best (Spec.acmeQ p obs) a → μ {k | behaviorPolicy sample p k obs ε = .ok a} = ENNReal.ofReal (ε / 3)) ∧
    (∀ a, (∀ b, Spec.Best (Spec.acmeQ p obs) b → b = a) →
      ENNReal.ofReal (1 - ε) ≤ μ {k | behaviorPolicy sample p k obs ε = .ok a}) := by
  have hp := C124_probabilities (by norm_num) ε h0 h1 (Spec.acmeQ p obs)
  have e : ∀ a, μ {k | behaviorPolicy sample p k obs ε = .ok a} = ENNReal.ofReal (epsilonGreedy ε (Spec.acmeQ p obs) a) := by
    intro a
    rw [← hlaw _ hp.1 a]
    congr 1
    ext k
    simp only [behaviorPolicy, acmeQ_eq, Set.mem_ofPred_eq, Except.ok.injEq]
  have h3 : ((3 : ℕ) : ℝ) = 3 := by norm_num
  rw [h3] at hp
  refine ⟨fun a => ?_, fun a ha => ?_, fun a ha => ?_⟩
  · rw [e]; exact ENNReal.ofReal_le_ofReal (hp.2.1 a)
  · rw [e, hp.2.2.1 a ha]
  · rw [e]
    refine ENNReal.ofReal_le_ofReal ?_
    simpa using hp.2.2.2.2 {a} fun b hb => Finset.mem_singleton.2 (ha b hb)

/-! ## Configuration -/

theorem assign_lookup (l : List (String × Setting)) : ∀ (c : String → Option Setting) (f : String), f ∉ l.map (·.1) →
    assign c l f = c f := by
  induction l with
  | nil => exact fun _ _ _ => rfl
  | cons e l ih =>
    intro c f hf
    simp only [List.map_cons, List.mem_cons, not_or] at hf
    rw [assign, ih _ _ hf.2, if_neg hf.1]

theorem lookup_popFlag (d : List (String × Setting)) (key f : String) (h : f ≠ key) :
    (d.filter fun e => e.1 ≠ key).lookup f = d.lookup f := by
  induction d with
  | nil => rfl
  | cons e d ih =>
    obtain ⟨k, v⟩ := e
    by_cases hk : k = key
    · subst hk
      have hfk : (f == k) = false := by simp [h]
      simp only [List.filter_cons, List.lookup_cons, ne_eq, not_true_eq_false, decide_false, Bool.false_eq_true, if_false]
      rw [hfk]
      simpa using ih
    · simp only [List.filter_cons, List.lookup_cons, ne_eq, hk, not_false_eq_true, decide_true, if_true]
      cases f == k
      · simpa using ih
      · rfl

/-- Ten fields of the configuration are fixed, whatever is passed; every other field is as passed, or the default; a parameter
that names no field is refused. Exploration is on iff asked for. -/
theorem C124_config (defaults : String → Option Setting) (params : List (String × Setting)) :
    (∀ c explore, createDqn defaults params = .ok (c, explore) →
      c "discount" = some (.num 0.993) ∧ c "n_step" = some (.num 5) ∧ c "min_replay_size" = some (.num 500) ∧
      c "target_update_period" = some (.num 25) ∧ c "adam_eps" = some (.num 0.00002) ∧
      c "max_replay_size" = some (.num 2000000) ∧ c "batch_size" = some (.num 32) ∧ c "samples_per_insert" = some (.num 8) ∧
      c "prefetch_size" = some (.num 0) ∧
      (params.lookup "adaptive_learning_rate" = none → c "learning_rate" = some (.num 2e-6)) ∧
      (params.lookup "adaptive_learning_rate" = some (.flag true) →
        c "learning_rate" = some (.schedule (linearSchedule 2e-6 4e-7 156250))) ∧
      (∀ b, params.lookup "marco_polo_exploration" = some (.flag b) → explore = b) ∧
      (params.lookup "marco_polo_exploration" = none → explore = false) ∧
      ∀ f, f ∉ (dqnSettings false).map (·.1) → f ≠ "marco_polo_exploration" → f ≠ "adaptive_learning_rate" →
        c f = (params.lookup f).or (defaults f)) ∧
    (createDqn defaults params = .error .type ↔
      ∃ f v, (f, v) ∈ params ∧ f ≠ "marco_polo_exploration" ∧ f ≠ "adaptive_learning_rate" ∧ defaults f = none) ∧
    (createDqn defaults params ≠ .error .type → ∃ c explore, createDqn defaults params = .ok (c, explore)) := by
  have hne : "adaptive_learning_rate" ≠ "marco_polo_exploration" := by decide
  set m := popFlag params "marco_polo_exploration" with hm
  set a := popFlag m.2 "adaptive_learning_rate" with ha
  have hlk : ∀ f, f ≠ "marco_polo_exploration" → m.2.lookup f = params.lookup f :=
    fun f hf => lookup_popFlag params "marco_polo_exploration" f hf
  have hlk2 : ∀ f, f ≠ "marco_polo_exploration" → f ≠ "adaptive_learning_rate" → a.2.lookup f = params.lookup f :=
    fun f h1 h2 => (lookup_popFlag m.2 "adaptive_learning_rate" f h2).trans (hlk f h1)
  have hdef : createDqn defaults params = if ∃ e ∈ a.2, defaults e.1 = none then .error .type else
      .ok (assign (fun f => (a.2.lookup f).or (defaults f)) (dqnSettings a.1), m.1) := rfl
  refine ⟨fun c explore h => ?_, ?_, fun h => ?_⟩
  · rw [hdef] at h
    split_ifs at h with he
    obtain ⟨rfl, rfl⟩ := Prod.mk.inj (Except.ok.inj h)
    refine ⟨?_, ?_, ?_, ?_, ?_, ?_, ?_, ?_, ?_, fun h => ?_, fun h => ?_, fun b h => ?_, fun h => ?_, fun f hf h1 h2 => ?_⟩
    · simp [assign, dqnSettings]
    · simp [assign, dqnSettings]
    · simp [assign, dqnSettings]
    · simp [assign, dqnSettings]
    · simp [assign, dqnSettings]
    · simp [assign, dqnSettings]
    · simp [assign, dqnSettings]
    · simp [assign, dqnSettings]; norm_num
    · simp [assign, dqnSettings]
    · have : a.1 = false := by
        rw [ha, popFlag, hlk _ hne, h]
      simp [assign, dqnSettings, this]
    · have : a.1 = true := by
        rw [ha, popFlag, hlk _ hne, h]
      simp [assign, dqnSettings, this]
    · rw [hm, popFlag, h]
    · rw [hm, popFlag, h]
    · have : f ∉ (dqnSettings a.1).map (·.1) := by simpa [dqnSettings] using hf
      rw [assign_lookup _ _ _ this]
      show (a.2.lookup f).or (defaults f) = _
      rw [hlk2 f h1 h2]
  · rw [hdef]
    have hmem : ∀ e, e ∈ a.2 ↔ e ∈ params ∧ e.1 ≠ "marco_polo_exploration" ∧ e.1 ≠ "adaptive_learning_rate" := by
      intro e
      simp only [ha, hm, popFlag, List.mem_filter, decide_eq_true_eq]
      tauto
    constructor
    · intro h
      split_ifs at h with he
      obtain ⟨e, h1, h2⟩ := he
      obtain ⟨h3, h4, h5⟩ := (hmem e).1 h1
      exact ⟨e.1, e.2, h3, h4, h5, h2⟩
    · rintro ⟨f, v, h1, h2, h3, h4⟩
      rw [if_pos ⟨(f, v), (hmem _).2 ⟨h1, h2, h3⟩, h4⟩]
  · rw [hdef] at h ⊢
    split_ifs at h ⊢ with he
    · exact absurd rfl h
    · exact ⟨_, _, rfl⟩

example (defaults : String → Option Setting) (h : defaults "seed" = some (.num 1)) :
    (∃ c, createDqn defaults [("marco_polo_exploration", .flag true), ("seed", .num 7)] = .ok (c, true) ∧
      c "seed" = some (.num 7) ∧ c "learning_rate" = some (.num 2e-6)) := by
  have hno : createDqn defaults [("marco_polo_exploration", .flag true), ("seed", .num 7)] ≠ .error .type := by
    rw [Ne, (C124_config defaults _).2.1]
    rintro ⟨f, v, hm, h1, -, h3⟩
    simp only [List.mem_cons, Prod.mk.injEq, List.not_mem_nil, or_false] at hm
    rcases hm with ⟨rfl, -⟩ | ⟨rfl, -⟩
    · exact h1 rfl
    · rw [h] at h3; cases h3
  obtain ⟨c, x, e⟩ := (C124_config defaults _).2.2 hno
  obtain ⟨-, -, -, -, -, -, -, -, -, hl, -, hx, -, hf⟩ := (C124_config defaults _).1 c x e
  obtain rfl := hx true (by simp [List.lookup_cons])
  refine ⟨c, e, ?_, hl (by simp [List.lookup_cons])⟩
  rw [hf "seed" (by simp [dqnSettings]) (by decide) (by decide)]
  simp [List.lookup_cons]

/-- With these numbers, one gradient step per four transitions stored is what keeps the sampled and stored transitions in proportion,
and then the target network is renewed every 100 transitions. -/
theorem C124_rates (defaults : String → Option Setting) (params : List (String × Setting)) (c : String → Option Setting) (x : Bool)
    (h : createDqn defaults params = .ok (c, x)) : ∃ period batch perInsert : ℝ, c "target_update_period" = some (.num period) ∧
      c "batch_size" = some (.num batch) ∧ c "samples_per_insert" = some (.num perInsert) ∧
      ∀ inserts updates : ℝ, updates * batch = inserts * perInsert → inserts = 4 * updates ∧
        (updates = period → inserts = 100) := by
  obtain ⟨-, -, -, h1, -, -, h2, h3, -⟩ := (C124_config defaults params).1 c x h
  exact ⟨25, 32, 8, h1, h2, h3, fun i u hu => ⟨by linarith, fun hp => by linarith⟩⟩

/-- The adaptive learning rate starts at 2e-6, never increases, never leaves [4e-7, 2e-6], and is 4e-7 from step 156250 on. -/
theorem C124_learning_rate (n m : ℕ) (h : n ≤ m) :
    linearSchedule 2e-6 4e-7 156250 0 = 2e-6 ∧
    linearSchedule 2e-6 4e-7 156250 m ≤ linearSchedule 2e-6 4e-7 156250 n ∧
    4e-7 ≤ linearSchedule 2e-6 4e-7 156250 n ∧ linearSchedule 2e-6 4e-7 156250 n ≤ 2e-6 ∧
    (156250 ≤ n → linearSchedule 2e-6 4e-7 156250 n = 4e-7) := by
  have hm : ((min n 156250 : ℕ) : ℝ) ≤ (min m 156250 : ℕ) := by exact_mod_cast min_le_min h le_rfl
  have h0 : (0 : ℝ) ≤ (min n 156250 : ℕ) := by positivity
  have ht : ((min n 156250 : ℕ) : ℝ) ≤ 156250 := by exact_mod_cast min_le_right _ _
  unfold linearSchedule
  refine ⟨by norm_num, ?_, ?_, ?_, fun hn => ?_⟩
  · push_cast at *
    linarith
  · push_cast at *
    linarith
  · push_cast at *
    linarith
  · rw [min_eq_right hn]; norm_num

example : linearSchedule 2e-6 4e-7 156250 78125 = 1.2e-6 := by norm_num [linearSchedule]

/-! ## The evaluation agent -/

/-- The evaluation agent takes one of the three actions, of maximal value under its parameters, and keeps the parameters. It can be put
into evaluation mode but refuses training mode. -/
theorem C125_agent (split : K → K × K) (sample : K → (Fin 3 → ℝ) → Fin 3) (hs : Spec.Supported sample) (s : AcmeEval K) (obs : List ℝ) :
    (∃ a : Fin 3, ((acmeEvalAgent split sample).beginEpisode s obs).2 = .ok (a : ℕ) ∧ Spec.Best (Spec.acmeQ s.params obs) a ∧
      ∀ r, (acmeEvalAgent split sample).step s r obs = (acmeEvalAgent split sample).beginEpisode s obs) ∧
    ((acmeEvalAgent split sample).beginEpisode s obs).1.params = s.params ∧
    (∀ r t, (acmeEvalAgent split sample).endEpisode s r t = s) ∧
    s.setMode false = (s, .ok ()) ∧ s.setMode true = (s, .error .value) := by
  obtain ⟨a, h, hb, -⟩ := C124_eval sample hs s.params obs (split s.rng).2 s.epsilon
  refine ⟨⟨a, ?_, hb, fun r => rfl⟩, rfl, fun _ _ => rfl, rfl, rfl⟩
  simp only [acmeEvalAgent, AcmeEval.select, h]

/-- Loading puts exactly the requested checkpoint in charge, not the latest; if it is missing, or the directory empty, the agent is left as
it was. What was loaded or flown before does not matter. -/
theorem C125_checkpoint (key0 : K) (dir : AcmeCheckpoints) (s : AcmeEval K) (n : ℕ) :
    (∀ p, dir.lookup n = some p → (s.load key0 dir n) = (acmeEvalNew key0 p, .ok ())) ∧
    (dir.lookup n = none → (s.load key0 dir n).1 = s ∧ ∃ e, (s.load key0 dir n).2 = .error e) := by
  constructor
  · intro p h
    have : dir ≠ [] := by rintro rfl; cases h
    simp [AcmeEval.load, this, h, acmeEvalNew]
  · intro h
    unfold AcmeEval.load
    split_ifs
    · exact ⟨rfl, _, rfl⟩
    · rw [h]; exact ⟨rfl, _, rfl⟩

/-- No two actions share the maximal value, on any observation. -/
def Spec.Decided (p : AcmeParams) : Prop := ∀ obs a b, Spec.Best (Spec.acmeQ p obs) a → Spec.Best (Spec.acmeQ p obs) b → b = a

/-- Full statement: the results of the shards are those of the unsharded evaluation, for every parameters. It holds if the maximal action
is always unique. -/
theorem C125_sharding_partial (c : EnvCfg K W Rd) (hC : Spec.ForgetsForecast c.world.C) {G : Type} (split : G → G × G)
    (sample : G → (Fin 3 → ℝ) → Fin 3) (hs : Spec.Supported sample) (p : AcmeParams) (hp : Spec.Decided p) (key0 : G) (suite : Suite)
    (period : ℤ) (paths : Bool) (v : Env K W Rd) (rs : List EvalResult)
    (h : (evalAgent (balloonEnv c) (acmeEvalAgent split sample) suite period paths v (acmeEvalNew key0 p)).2.2 = .ok rs)
    (n : ℕ) (hn : 1 ≤ n) (vs : ℕ → Env K W Rd) (hv : ∀ i, (vs i).radius = v.radius) :
    ∃ rss : ℕ → List EvalResult, (∀ i < n, (evalAgent (balloonEnv c) (acmeEvalAgent split sample)
      { suite with seeds := shard suite.seeds i n } period paths (vs i) (acmeEvalNew key0 p)).2.2 = .ok (rss i)) ∧
      (List.range n).flatMap rss = rs := by
  have hsel : ∀ (s s' : AcmeEval G) obs, s.params = p → s'.params = p →
      (s.select split sample obs).2 = (s'.select split sample obs).2 := by
    intro s s' obs h1 h2
    obtain ⟨a, e, hb, -, hk⟩ := C124_eval sample hs p obs (split s.rng).2 s.epsilon
    obtain ⟨b, e', hb', he, -⟩ := C124_eval sample hs p obs (split s'.rng).2 s'.epsilon
    have : b = a := hp obs a b hb hb'
    subst this
    simp only [AcmeEval.select, h1, h2, e, e']
  have hF : Spec.Frozen (acmeEvalAgent split sample) (fun s s' => s.params = p ∧ s'.params = p) :=
    ⟨fun _ _ h => ⟨h.2, h.1⟩, fun _ _ _ h h' => ⟨h.1, h'.2⟩, fun s s' obs h => ⟨hsel s s' obs h.1 h.2, h.1, h.2⟩,
      fun s s' r obs h => ⟨hsel s s' obs h.1 h.2, h.1, h.2⟩, fun _ _ _ _ h => h⟩
  exact C91_sharding c hC hF suite period paths v _ ⟨rfl, rfl⟩ rs h n hn vs (fun _ => acmeEvalNew key0 p) hv fun _ => ⟨rfl, rfl⟩

theorem forward_zero (k : ℕ) : ∀ (d h n : ℕ) (x : Fin d → ℝ) (j : Fin n), mlpForward d h k n (fun _ => 0) x j = 0 := by
  induction k with
  | zero => intro d h n x j; simp [mlpForward, dense]
  | succ k ih => intro d h n x j; exact ih h h n _ j

theorem acmeQ_zero (o : List ℝ) (a : Fin 3) : Spec.acmeQ (fun _ => 0) o a = 0 := by
  simp [Spec.acmeQ, quantileLogits, forward_zero]

theorem epsilonGreedy_zero_pos (o : List ℝ) (a : Fin 3) : 0 < epsilonGreedy 0 (Spec.acmeQ (fun _ => 0) o) a := by
  have hp := C124_probabilities (by norm_num) 0 le_rfl zero_le_one (Spec.acmeQ (fun _ => 0) o)
  by_contra h
  have hle : ∀ b, epsilonGreedy 0 (Spec.acmeQ (fun _ => 0) o) b ≤ 0 :=
    fun b => (hp.2.2.2.1 b a (by rw [acmeQ_zero, acmeQ_zero])).trans (not_lt.1 h)
  have := hp.1.2
  rw [Fin.sum_univ_three] at this
  linarith [hle 0, hle 1, hle 2]

open Classical in
/-- A sampler that takes the first possible outcome for key 0, and the last one for the other keys. -/
noncomputable def firstOrLast (k : ℕ) (p : Fin 3 → ℝ) : Fin 3 :=
  if k = 0 then (if 0 < p 0 then 0 else if 0 < p 1 then 1 else 2) else (if 0 < p 2 then 2 else if 0 < p 1 then 1 else 0)

theorem firstOrLast_supported : Spec.Supported firstOrLast := by
  intro k p hp
  have : 0 < p 0 ∨ 0 < p 1 ∨ 0 < p 2 := by
    by_contra h
    push Not at h
    have := hp.2
    rw [Fin.sum_univ_three] at this
    linarith [h.1, h.2.1, h.2.2]
  unfold firstOrLast
  split_ifs with hk h0 h1 h2 h3
  · exact h0
  · exact h1
  · tauto
  · exact h2
  · exact h3
  · tauto

/-- An environment without state that pays every action by its number. -/
def payByNumber (b : BState) : GymEnv Unit where
  seed _ v := v
  reset v := (v, .ok [])
  step a v := (v, .ok ⟨[], a, false, ⟨false, false, false, 0⟩⟩)
  balloon _ := .ok b
  render v := v
  radius _ := 0

/-- With ties it fails: the choice among them is drawn from a generator that runs on from episode to episode. For the untrained network
with zero parameters, a generator that counts and a proper sampler, an environment that repeats itself: the second seed of a suite
scores 2 in the unsharded evaluation and 0 in its own shard. -/
theorem C125_ties (b : BState) : Spec.Repeats (payByNumber b) (fun _ _ => True) (fun _ _ => True) ∧ Spec.Supported firstOrLast ∧
    ∃ r0 r1 r1', (evalAgent (payByNumber b) (acmeEvalAgent (fun k : ℕ => (k + 1, k)) firstOrLast) { seeds := [0, 1], maxLen := 1 } 1 false
        () (acmeEvalNew 0 fun _ => 0)).2.2 = .ok [r0, r1] ∧
      (evalAgent (payByNumber b) (acmeEvalAgent (fun k : ℕ => (k + 1, k)) firstOrLast)
        { seeds := shard [0, 1] 1 2, maxLen := 1 } 1 false () (acmeEvalNew 0 fun _ => 0)).2.2 = .ok [r1'] ∧
      r1.seed = r1'.seed ∧ r1.cumulative = 2 ∧ r1'.cumulative = 0 := by
  refine ⟨⟨fun _ _ _ _ _ => trivial, fun _ _ => trivial, fun _ => trivial, fun _ _ => trivial, fun _ => trivial,
    fun _ _ _ _ => ⟨rfl, fun _ _ => trivial⟩, fun _ _ _ _ => ⟨rfl, trivial⟩, fun _ _ _ => rfl, fun _ _ _ => rfl,
    fun _ _ _ => trivial⟩, firstOrLast_supported, ?_⟩
  have hsel : ∀ (k : ℕ) (e : ℝ) (obs : List ℝ), AcmeEval.select (fun k : ℕ => (k + 1, k)) firstOrLast
      { params := fun _ => 0, rng := k, epsilon := e } obs =
      ({ params := fun _ => 0, rng := k + 1, epsilon := e }, .ok (if k = 0 then 0 else 2)) := by
    intro k e obs
    simp only [AcmeEval.select, evalPolicy, acmeQ_eq]
    refine Prod.ext rfl ?_
    simp only [firstOrLast, epsilonGreedy_zero_pos, if_true]
    split_ifs <;> rfl
  have hsh : shard ([0, 1] : List ℤ) 1 2 = [1] := by decide
  set A := acmeEvalAgent (fun k : ℕ => (k + 1, k)) firstOrLast with hA
  set st : ℕ → AcmeEval ℕ := fun k => { params := fun _ => 0, rng := k, epsilon := 0 } with hst
  have hbe : ∀ k obs, A.beginEpisode (st k) obs = (st (k + 1), .ok (if k = 0 then 0 else 2)) := fun k obs => hsel k 0 obs
  have hstep : ∀ k r obs, A.step (st k) r obs = (st (k + 1), .ok (if k = 0 then 0 else 2)) := fun k r obs => hsel k 0 obs
  have hend : ∀ k r t, A.endEpisode (st k) r t = st k := fun _ _ _ => rfl
  have hf : ∀ (k : ℕ) (seed : ℤ), ∃ r, evalFlight (payByNumber b) A 1 1 false seed () (st k) = ((), st (k + 2), .ok r) ∧
      r.seed = seed ∧ r.cumulative = if k = 0 then 0 else 2 := by
    classical
    intro k seed
    refine ⟨{ seed := seed, cumulative := if k = 0 then 0 else 2, twr := if withinRadius b 0 then 1 else 0, outOfPower := false,
              envelopeBurst := false, zeropressure := false, finalStep := 1, path := [] }, ?_, rfl, rfl⟩
    have e1 : (1 : ℤ).toNat = 1 := rfl
    simp only [evalFlight, payByNumber, hbe, e1, evalLoop, hstep]
    by_cases hk : k = 0 <;> by_cases hw : withinRadius b 0 <;> simp [hend, hk, hw]
  obtain ⟨r0, e0, -, -⟩ := hf 0 0
  obtain ⟨r1, e1, s1, c1⟩ := hf 2 1
  obtain ⟨r2, e2, s2, c2⟩ := hf 0 1
  have hA0 : A.setMode (acmeEvalNew 0 fun _ => 0) false = st 0 := rfl
  refine ⟨r0, r1, r2, ?_, ?_, s1.trans s2.symm, by simpa using c1, by simpa using c2⟩
  · rw [evalAgent, if_neg (by norm_num), hA0]
    simp only [evalFlights, e0, e1]
    rfl
  · rw [hsh, evalAgent, if_neg (by norm_num), hA0]
    simp only [evalFlights, e2]
    rfl

end BLE
