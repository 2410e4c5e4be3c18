import Verif.Model.Perciatelli
import Verif.Props.Learning
import Verif.Props.Commands

/-!
# C119, C120: what the networks compute; pre-trained weights; agents that only act
-/

namespace BLE

open Finset

variable {K W Rd : Type}

/-- Activations of a feed-forward network, from the input upwards: unit `j` of layer `l + 1` is the positive part of the weighted
sum of the units of layer `l` plus a bias. `L l` holds the kernel and the bias of layer `l`. -/
noncomputable def Spec.hidden (L : ℕ → Tensor × Tensor) (d h : ℕ) (x : ℕ → ℝ) : ℕ → ℕ → ℝ
  | 0 => x
  | l + 1 => fun j =>
    max (∑ i ∈ range (if l = 0 then d else h), Spec.hidden L d h x l i * (L l).1.entry [i, j] + (L l).2.entry [j]) 0

/-- Output `j` of the network with `k` hidden layers: the weighted sum of the last hidden layer plus a bias, unrestricted. -/
noncomputable def Spec.output (L : ℕ → Tensor × Tensor) (d h k : ℕ) (x : ℕ → ℝ) (j : ℕ) : ℝ :=
  ∑ i ∈ range (if k = 0 then d else h), Spec.hidden L d h x k i * (L k).1.entry [i, j] + (L k).2.entry [j]

theorem hidden_shift (L : ℕ → Tensor × Tensor) (d h : ℕ) (x : ℕ → ℝ) (l : ℕ) :
    Spec.hidden (fun l => L (l + 1)) h h (Spec.hidden L d h x 1) l = Spec.hidden L d h x (l + 1) := by
  induction l with
  | zero => rfl
  | succ l ih =>
    funext j
    rw [Spec.hidden, ih]
    conv_rhs => rw [Spec.hidden]
    simp

theorem forward_stack (k : ℕ) : ∀ (d h n : ℕ) (L : ℕ → Tensor × Tensor) (x : ℕ → ℝ) (j : Fin n),
    mlpForward d h k n (stackParams d h k n L) (fun i => x i) j = Spec.output L d h k x j := by
  induction k with
  | zero =>
    intro d h n L x j
    simp only [mlpForward, dense, stackParams, Spec.output, Spec.hidden, if_true]
    rw [Fin.sum_univ_eq_sum_range (fun i => x i * (L 0).1.entry [i, (j : ℕ)])]
  | succ k ih =>
    intro d h n L x j
    have e : (fun j : Fin h => max (dense (fun i => stackParams d h (k + 1) n L (.inl i)) (fun i : Fin d => x i) j) 0) =
        fun j : Fin h => Spec.hidden L d h x 1 j := by
      funext j
      simp only [dense, stackParams, Spec.hidden, if_true]
      rw [Fin.sum_univ_eq_sum_range (fun i => x i * (L 0).1.entry [i, (j : ℕ)])]
    rw [mlpForward, e]
    have := ih h h n (fun l => L (l + 1)) (Spec.hidden L d h x 1) j
    have e2 : (fun i => stackParams d h (k + 1) n L (.inr i)) = stackParams h h k n fun l => L (l + 1) := rfl
    rw [e2, this]
    unfold Spec.output
    rw [hidden_shift]
    simp

theorem stack_surjective (k : ℕ) : ∀ (d h n : ℕ) (p : MlpIx d h k n → ℝ), ∃ L, stackParams d h k n L = p := by
  induction k with
  | zero =>
    intro d h n p
    refine ⟨fun _ => ⟨⟨[d, n], fun ix => if hi : ix.getD 0 0 < d ∧ ix.getD 1 0 < n then
        p ((some ⟨ix.getD 0 0, hi.1⟩, ⟨ix.getD 1 0, hi.2⟩) : Option (Fin d) × Fin n) else 0⟩,
      ⟨[n], fun ix => if hj : ix.getD 0 0 < n then p ((none, ⟨ix.getD 0 0, hj⟩) : Option (Fin d) × Fin n) else 0⟩⟩, ?_⟩
    funext ix
    obtain ⟨i, j⟩ : Option (Fin d) × Fin n := ix
    cases i <;> simp [stackParams]
  | succ k ih =>
    intro d h n p
    obtain ⟨L, hL⟩ := ih h h n fun i => p (.inr i)
    refine ⟨fun l => match l with
      | 0 => ⟨⟨[d, h], fun ix => if hi : ix.getD 0 0 < d ∧ ix.getD 1 0 < h then
          p (.inl (some ⟨ix.getD 0 0, hi.1⟩, ⟨ix.getD 1 0, hi.2⟩)) else 0⟩,
        ⟨[h], fun ix => if hj : ix.getD 0 0 < h then p (.inl (none, ⟨ix.getD 0 0, hj⟩)) else 0⟩⟩
      | l + 1 => L l, ?_⟩
    funext ix
    obtain ix | ix : (Option (Fin d) × Fin h) ⊕ MlpIx h h k n := ix
    · obtain ⟨i, j⟩ := ix
      cases i <;> simp [stackParams]
    · exact congrFun hL ix

/-- C119. What the networks compute: with any parameters, `MLPNetwork` and the quantiles of `QuantileNetwork` are the outputs of
the feed-forward network whose layers are the rows of the parameter dictionary, and the value of an action is the mean of its
own quantiles. -/
theorem C119_forward (d h : ℕ) (layers : ℤ) (n : ℕ) :
    (∀ p : MlpIx d h (hiddenLayers layers) n → ℝ, ∃ L, stackParams d h _ n L = p) ∧
    (∀ L obs (a : Fin n), mlpNetwork d h layers n (stackParams d h _ n L) obs a =
      Spec.output L d h (layers - 1).toNat (fun i => obs.getD i 0) a) ∧
    (∀ (m : ℕ) L obs (a : Fin n), quantileValues d h layers n m (stackParams d h _ (n * m) L) obs a =
      (∑ t ∈ range m, Spec.output L d h (layers - 1).toNat (fun i => obs.getD i 0) (a * m + t)) / m) := by
  refine ⟨stack_surjective _ d h n, fun L obs a => forward_stack _ d h n L (fun i => obs.getD i 0) a, fun m L obs a => ?_⟩
  unfold quantileValues quantileLogits
  congr 1
  rw [← Fin.sum_univ_eq_sum_range (fun t => Spec.output L d h (layers - 1).toNat (fun i => obs.getD i 0) (a * m + t))]
  refine Finset.sum_congr rfl fun t _ => ?_
  exact forward_stack _ d h (n * m) L (fun i => obs.getD i 0) _

/-- C119. The value of an action lies between its smallest and its largest quantile. -/
theorem C119_between (d h : ℕ) (layers : ℤ) (n m : ℕ) (hm : 0 < m) (p : MlpIx d h (hiddenLayers layers) (n * m) → ℝ)
    (obs : List ℝ) (a : Fin n) (lo hi : ℝ) (hq : ∀ t, lo ≤ quantileLogits d h layers n m p obs a t ∧
      quantileLogits d h layers n m p obs a t ≤ hi) :
    lo ≤ quantileValues d h layers n m p obs a ∧ quantileValues d h layers n m p obs a ≤ hi := by
  have hm' : (0 : ℝ) < m := by exact_mod_cast hm
  unfold quantileValues
  rw [le_div_iff₀ hm', div_le_iff₀ hm']
  have h1 := Finset.card_nsmul_le_sum univ (fun t => quantileLogits d h layers n m p obs a t) lo fun t _ => (hq t).1
  have h2 := Finset.sum_le_card_nsmul univ (fun t => quantileLogits d h layers n m p obs a t) hi fun t _ => (hq t).2
  simp only [card_univ, Fintype.card_fin, nsmul_eq_mul] at h1 h2
  constructor <;> linarith

theorem hidden_congr (L L' : ℕ → Tensor × Tensor) (d h : ℕ) (x : ℕ → ℝ) (l : ℕ) (hL : ∀ i < l, L i = L' i) :
    Spec.hidden L d h x l = Spec.hidden L' d h x l := by
  induction l with
  | zero => rfl
  | succ l ih =>
    funext j
    rw [Spec.hidden, Spec.hidden, ih fun i hi => hL i (by omega), hL l (by omega)]

/-- The vector with `f j` added to entry `j`. -/
noncomputable def Spec.raise (b : Tensor) (f : ℕ → ℝ) : Tensor := ⟨b.shape, fun ix => b.entry ix + f (ix.getD 0 0)⟩

theorem output_raise (L : ℕ → Tensor × Tensor) (d h K m n : ℕ) (hm : 0 < m) (x : ℕ → ℝ) (a b : Fin n) (c : ℝ) (t : ℕ)
    (ht : t < m) : Spec.output (fun l => if l = K then ((L l).1, Spec.raise (L l).2 (fun j => if j / m = a then c else 0))
      else L l) d h K x (b * m + t) = Spec.output L d h K x (b * m + t) + if b = a then c else 0 := by
  unfold Spec.output
  rw [hidden_congr _ L d h _ K fun i hi => if_neg (by omega)]
  have e : ((b : ℕ) * m + t) / m = b := by
    rw [mul_comm, Nat.mul_add_div hm, Nat.div_eq_of_lt ht, add_zero]
  simp only [if_true, Spec.raise, List.getD_cons_zero, e, Fin.ext_iff]
  ring

/-- C119. Adding a constant to the last bias of the quantiles of one action adds it to the value of that action and changes
no other value. -/
theorem C119_bias (d h : ℕ) (layers : ℤ) (n m : ℕ) (hm : 0 < m) (L : ℕ → Tensor × Tensor) (obs : List ℝ) (a b : Fin n) (c : ℝ) :
    let K := (layers - 1).toNat
    let L' := fun l => if l = K then ((L l).1, Spec.raise (L l).2 (fun j => if j / m = a then c else 0)) else L l
    quantileValues d h layers n m (stackParams d h _ (n * m) L') obs b =
      quantileValues d h layers n m (stackParams d h _ (n * m) L) obs b + if b = a then c else 0 := by
  intro K L'
  have hm' : (m : ℝ) ≠ 0 := by exact_mod_cast hm.ne'
  rw [(C119_forward d h layers n).2.2, (C119_forward d h layers n).2.2,
    Finset.sum_congr rfl fun t ht => output_raise L d h K m n hm _ a b c t (Finset.mem_range.1 ht),
    Finset.sum_add_distrib, Finset.sum_const, card_range, nsmul_eq_mul, add_div, mul_div_cancel_left₀ _ hm']

/-- C119. Hidden units only pass on positive signals: if for two observations no unit of the first hidden layer is excited,
the network cannot tell them apart. -/
theorem C119_dead (d h : ℕ) (layers : ℤ) (hl : 2 ≤ layers) (n : ℕ) (L : ℕ → Tensor × Tensor) (obs obs' : List ℝ)
    (hd : ∀ o ∈ [obs, obs'], ∀ j, ∑ i ∈ range d, o.getD i 0 * (L 0).1.entry [i, j] + (L 0).2.entry [j] ≤ 0) :
    mlpNetwork d h layers n (stackParams d h _ n L) obs = mlpNetwork d h layers n (stackParams d h _ n L) obs' := by
  have h0 : ∀ o ∈ [obs, obs'], ∀ l, Spec.hidden L d h (fun i => o.getD i 0) (l + 1) =
      Spec.hidden (fun l => L (l + 1)) h h (fun _ => 0) l := by
    intro o ho l
    rw [← hidden_shift]
    congr 1
    funext j
    simp only [Spec.hidden, if_true]
    exact max_eq_right (hd o ho j)
  funext a
  rw [(C119_forward d h layers n).2.1, (C119_forward d h layers n).2.1]
  obtain ⟨l, e⟩ : ∃ l, (layers - 1).toNat = l + 1 := ⟨(layers - 2).toNat, by omega⟩
  rw [e]
  unfold Spec.output
  rw [h0 obs (by simp), h0 obs' (by simp)]

/-! ## The pre-trained weights -/

/-- The nodes of the graph the weights are taken from. -/
def Spec.weightNodes : List (String × String) :=
  [("Online/fully_connected/weights", "Online/fully_connected/biases"),
   ("Online/fully_connected_1/weights", "Online/fully_connected_1/biases"),
   ("Online/fully_connected_2/weights", "Online/fully_connected_2/biases"),
   ("Online/fully_connected_3/weights", "Online/fully_connected_3/biases"),
   ("Online/fully_connected_4/weights", "Online/fully_connected_4/biases"),
   ("Online/fully_connected_5/weights", "Online/fully_connected_5/biases"),
   ("Online/fully_connected_6/weights", "Online/fully_connected_6/biases"),
   ("Online/fully_connected_7/weights", "Online/fully_connected_7/biases")]

theorem weightNodes_scopes : (List.range 8).map (fun k => (layerScope k ++ "/weights", layerScope k ++ "/biases")) =
    Spec.weightNodes := by decide +kernel

theorem weightNodes_pass : ∀ p ∈ Spec.weightNodes, ∀ n ∈ [p.1, p.2],
    hasSub "Online" n = true ∧ ((hasSub "weights" n || hasSub "biases" n) && !hasSub "read" n) = true := by decide +kernel

theorem paramLookup_node {T : Type} (nodes : List String) (value : String → T) (p : String × String) (hp : p ∈ Spec.weightNodes)
    (n : String) (hn : n ∈ [p.1, p.2]) :
    paramLookup nodes value n = if n ∈ nodes then .ok (value n) else .error .key := by
  unfold paramLookup paramNames
  obtain ⟨h1, h2⟩ := weightNodes_pass p hp n hn
  simp only [List.mem_filter, h1, h2, and_true]

/-- C119. Loading the pre-trained weights either gives exactly the sixteen arrays the graph holds under their names, layer by
layer in order, or fails with a KeyError because one of the names is missing; other nodes of the graph, wherever they stand,
have no influence. -/
theorem C119_weights {T : Type} (nodes : List String) (value : String → T) :
    loadWeights nodes value =
      if ∀ p ∈ Spec.weightNodes, p.1 ∈ nodes ∧ p.2 ∈ nodes then .ok (Spec.weightNodes.map fun p => (value p.1, value p.2))
      else .error .key := by
  have key : ∀ ks : List ℕ, (∀ k ∈ ks, (layerScope k ++ "/weights", layerScope k ++ "/biases") ∈ Spec.weightNodes) →
      (ks.mapM fun k => (do
        let w ← paramLookup nodes value (layerScope k ++ "/weights")
        let b ← paramLookup nodes value (layerScope k ++ "/biases")
        return (w, b) : Except Err (T × T))) =
      if ∀ p ∈ ks.map (fun k => (layerScope k ++ "/weights", layerScope k ++ "/biases")), p.1 ∈ nodes ∧ p.2 ∈ nodes then
        .ok ((ks.map fun k => (layerScope k ++ "/weights", layerScope k ++ "/biases")).map fun p => (value p.1, value p.2))
      else .error .key := by
    intro ks
    induction ks with
    | nil => intro _; simp [pure, Except.pure]
    | cons k ks ih =>
      intro hk
      have hk0 := hk k (by simp)
      rw [List.mapM_cons, ih fun k' hk' => hk k' (by simp [hk']),
        paramLookup_node nodes value _ hk0 _ (by simp), paramLookup_node nodes value _ hk0 _ (by simp)]
      simp only [List.map_cons, List.mem_cons, forall_eq_or_imp]
      by_cases h1 : layerScope k ++ "/weights" ∈ nodes
      · by_cases h2 : layerScope k ++ "/biases" ∈ nodes
        · rw [if_pos h1, if_pos h2]
          simp only [h1, h2, and_self, true_and]
          split_ifs <;> rfl
        · rw [if_pos h1, if_neg h2, if_neg (show ¬((_ ∧ _) ∧ _) from fun hc => h2 hc.1.2)]; rfl
      · rw [if_neg h1, if_neg (show ¬((_ ∧ _) ∧ _) from fun hc => h1 hc.1.1)]; rfl
  unfold loadWeights
  rw [key (List.range 8) fun k hk => by
    rw [← weightNodes_scopes]
    exact List.mem_map.2 ⟨k, hk, rfl⟩, weightNodes_scopes]

/-- C119. An agent that starts from the pre-trained weights computes the feed-forward network whose eight layers are the nodes
of the graph: its value of an action is the mean of the 51 outputs of that action. It is defined exactly if the arrays have
the sizes of the network. -/
theorem C119_finetune (nodes : List String) (value : String → Tensor) (ps : List (Tensor × Tensor))
    (h : loadWeights nodes value = .ok ps) (n : ℕ) (obs : List ℝ) :
    let L := fun l => (Spec.weightNodes.map fun p => (value p.1, value p.2)).getD l ⟨⟨[], fun _ => 0⟩, ⟨[], fun _ => 0⟩⟩
    ((∃ q, finetuneValues ps n obs = .ok q) ↔ ∀ l < 8, (L l).1.shape = [if l = 0 then obs.length else 600,
      if l = 7 then n * 51 else 600] ∧ (L l).2.shape = [if l = 7 then n * 51 else 600]) ∧
    ∀ q, finetuneValues ps n obs = .ok q → ∀ a : Fin n,
      q a = (∑ t ∈ range 51, Spec.output L obs.length 600 7 (fun i => obs.getD i 0) (a * 51 + t)) / 51 := by
  intro L
  rw [C119_weights] at h
  split_ifs at h with hn
  cases h
  constructor
  · unfold finetuneValues
    constructor
    · rintro ⟨q, hq⟩ l hl
      simp only at hq
      split_ifs at hq with hc
      rw [List.all_eq_true] at hc
      have := hc l (List.mem_range.2 hl)
      simpa [fitsLayer, L] using this
    · intro hs
      refine ⟨_, if_pos ?_⟩
      rw [List.all_eq_true]
      intro l hl
      simpa [fitsLayer, L] using hs l (List.mem_range.1 hl)
  · intro q hq a
    unfold finetuneValues at hq
    simp only at hq
    split_ifs at hq
    cases hq
    have := (C119_forward obs.length 600 8 n).2.2 51 L obs a
    rw [show ((8 : ℤ) - 1).toNat = 7 by rfl] at this
    exact_mod_cast this

/-! ## Agents that only act -/

/-- C120. Perciatelli44 can be built for three actions and 1,099 features only, its actions are always among the three, of
maximal value and the lowest such; it ignores rewards and modes and remembers nothing. -/
theorem C120_perciatelli (run : List ℝ → Fin 3 → ℝ) :
    (∀ n shape, perciatelliNew n shape = .ok () ↔ n = 3 ∧ shape = [1099]) ∧
    (∀ s obs, obs.length = 1099 → ∃ b : Fin 3, (perciatelliAgent run).beginEpisode s obs = (s, .ok (b : ℕ)) ∧
      (∀ j, run obs j ≤ run obs b) ∧ (∀ j < b, run obs j < run obs b) ∧
      ∀ r, (perciatelliAgent run).step s r obs = (s, .ok (b : ℕ))) ∧
    Spec.Frozen (perciatelliAgent run) (fun _ _ => True) := by
  refine ⟨fun n shape => ?_, fun s obs ho => ?_, ⟨fun _ _ _ => trivial, fun _ _ _ _ _ => trivial, fun _ _ _ _ => ⟨rfl, trivial⟩,
    fun _ _ _ _ _ => ⟨rfl, trivial⟩, fun _ _ _ _ _ => trivial⟩⟩
  · unfold perciatelliNew
    split_ifs with h1 h2 <;> simp_all
  · obtain ⟨b, hb, h1, h2⟩ := greedy_spec (run obs) (by norm_num)
    refine ⟨b, ?_, h1, h2, fun r => ?_⟩ <;> simp [perciatelliAgent, ho, hb]

/-- C120. Hence Perciatelli44 can be evaluated in shards: whatever process evaluates which part of a suite, the results are those
of the unsharded evaluation. -/
theorem C120_sharding (c : EnvCfg K W Rd) (hC : Spec.ForgetsForecast c.world.C) (run : List ℝ → Fin 3 → ℝ) (suite : Suite)
    (period : ℤ) (paths : Bool) (v : Env K W Rd) (rs : List EvalResult)
    (h : (evalAgent (balloonEnv c) (perciatelliAgent run) suite period paths v ()).2.2 = .ok rs)
    (n : ℕ) (hn : 1 ≤ n) (vs : ℕ → Env K W Rd) (hv : ∀ i, (vs i).radius = v.radius) :
    ∃ rss : ℕ → List EvalResult, (∀ i < n, (evalAgent (balloonEnv c) (perciatelliAgent run)
      { suite with seeds := shard suite.seeds i n } period paths (vs i) ()).2.2 = .ok (rss i)) ∧
      (List.range n).flatMap rss = rs :=
  C91_sharding c hC (C120_perciatelli run).2.2 suite period paths v () trivial rs h n hn vs (fun _ => ()) hv fun _ => trivial

/-- C120. The random agent only takes actions that exist, if the generator keeps its promise; but it draws from the global
generator of the process, which no seed of a suite resets: its answers are independent of the past only for a generator that
always repeats the same draw. -/
theorem C120_random {G : Type} (randint : G → ℕ → G × ℕ) (n : ℕ) :
    ((∀ g, (randint g n).2 < n) → ∀ g r obs, ∃ a : ℕ, a < n ∧ ((randomAgent randint n).beginEpisode g obs).2 = .ok (a : ℤ) ∧
      ((randomAgent randint n).step g r obs).2 = .ok (a : ℤ)) ∧
    ∀ (R : G → G → Prop), Spec.Frozen (randomAgent randint n) R → ∀ g, R g g →
      ∀ k, (randint ((fun g => (randint g n).1)^[k] g) n).2 = (randint g n).2 := by
  refine ⟨fun hr g r obs => ⟨_, hr g, rfl, rfl⟩, fun R hR g hg k => ?_⟩
  have hk : R g ((fun g => (randint g n).1)^[k] g) := by
    induction k with
    | zero => exact hg
    | succ k ih =>
      rw [Function.iterate_succ_apply']
      exact (hR.begin_ g _ [] ih).2
  have := (hR.begin_ g _ [] hk).1
  simp only [randomAgent, Except.ok.injEq, Nat.cast_inj] at this
  exact this.symm

/-- C120. Whatever it observes and whatever rewards it gets, the random agent's actions are the successive draws from the generator,
one per action: the first one at the beginning of the episode, then one for every step. -/
theorem C120_draws {G : Type} (randint : G → ℕ → G × ℕ) (n : ℕ) (g : G) (first : List ℝ) (seen : List (ℝ × List ℝ)) (r : ℝ)
    (obs : List ℝ) :
    let after (k : ℕ) := (fun g => (randint g n).1)^[k] g
    let A := randomAgent randint n
    (A.beginEpisode g first).2 = .ok ((randint g n).2 : ℤ) ∧
    (A.step (seen.foldl (fun g x => (A.step g x.1 x.2).1) (A.beginEpisode g first).1) r obs).2 =
      .ok ((randint (after (seen.length + 1)) n).2 : ℤ) ∧
    (A.step (seen.foldl (fun g x => (A.step g x.1 x.2).1) (A.beginEpisode g first).1) r obs).1 = after (seen.length + 2) := by
  have h : ∀ (seen : List (ℝ × List ℝ)) (g : G), seen.foldl (fun g x => ((randomAgent randint n).step g x.1 x.2).1) g =
      (fun g => (randint g n).1)^[seen.length] g := by
    intro seen
    induction seen with
    | nil => intro g; rfl
    | cons a t ih => intro g; rw [List.foldl_cons, ih]; rfl
  intro after A
  have e : seen.foldl (fun g x => (A.step g x.1 x.2).1) (A.beginEpisode g first).1 = after (seen.length + 1) := by
    rw [h]; rfl
  refine ⟨rfl, ?_, ?_⟩
  · rw [e]; rfl
  · rw [e]
    exact (Function.iterate_succ_apply' (fun g => (randint g n).1) (seen.length + 1) g).symm

/-- Two hidden units reading one input with weights 1 and -1, and an output adding them: the absolute value. -/
example : mlpNetwork 1 2 2 1 (stackParams 1 2 1 1 fun l => if l = 0 then
      ⟨⟨[1, 2], fun ix => if ix = [0, 0] then 1 else -1⟩, ⟨[2], fun _ => 0⟩⟩ else
      ⟨⟨[2, 1], fun _ => 1⟩, ⟨[1], fun _ => 0⟩⟩) [-3] 0 = 3 := by
  have := (C119_forward 1 2 2 1).2.1 (fun l => if l = 0 then
      ⟨⟨[1, 2], fun ix => if ix = [0, 0] then 1 else -1⟩, ⟨[2], fun _ => 0⟩⟩ else
      ⟨⟨[2, 1], fun _ => 1⟩, ⟨[1], fun _ => 0⟩⟩) [-3] 0
  refine this.trans ?_
  norm_num [Spec.output, Spec.hidden, Finset.sum_range_succ]

/-- A graph with the sixteen arrays among other nodes; the copies called `read` are not used. -/
example : loadWeights ("Online/fully_connected/weights/read" :: "observation" :: "Target/fully_connected/weights" ::
    Spec.weightNodes.flatMap fun p => [p.1, p.2]) (fun n => n.length) =
    .ok [(30, 29), (32, 31), (32, 31), (32, 31), (32, 31), (32, 31), (32, 31), (32, 31)] := by
  rw [C119_weights, if_pos (by decide +kernel)]
  decide +kernel

/-- A generator that alternates between two actions: the random agent then depends on what was evaluated before. -/
example (R : Bool → Bool → Prop) (h : Spec.Frozen (randomAgent (fun g _ => (!g, if g then 1 else 0)) 3) R) : ¬ R true true :=
  fun hr => by simpa using (C120_random _ 3).2 R h true hr 1

/-- Perciatelli44 with values 1, 5, 5 descends no further than the first maximum. -/
example : ((perciatelliAgent fun _ => ![1, 5, 5]).step () 0 (List.replicate 1099 0)).2 = .ok 1 := by
  obtain ⟨b, -, h1, h2, h3⟩ := (C120_perciatelli fun _ => ![1, 5, 5]).2.1 () (List.replicate 1099 0) (List.length_replicate ..)
  rw [h3]
  have : b = 1 := by
    fin_cases b
    · have := h1 1; norm_num at this
    · rfl
    · have := h2 1 (by decide); norm_num at this
  subst this
  rfl

end BLE
