import Verif.Props.Features
import Verif.Model.Agents

/-!
# Agents: C58–C61
-/

namespace BLE

variable {K S : Type}

/-! ## C58 — exploration schedule -/

/-- The `k`-th step (counted from 1) of an episode falls into a two-hour exploration phase of the
four-hours/two-hours cycle at three minutes per step: 80 steps of policy, 40 of exploration. -/
def Spec.exploring (k : ℕ) : Prop := 80 ≤ k % 120

instance (k : ℕ) : Decidable (Spec.exploring k) := by unfold Spec.exploring; infer_instance

/-- The exploratory agent after the given steps, the first of which has number `k`: it is stepped exactly in
the exploration phases. -/
def Spec.explorerAfter (A : Agent S) (on : Bool) : ℕ → List (ℝ × List ℝ × ℤ) → S → S
  | _, [], s => s
  | k, x :: xs, s =>
    Spec.explorerAfter A on (k + 1) xs (if on = true ∧ Spec.exploring k then (A.step s x.1 x.2.1).1 else s)

/-- The wrapper after the given steps. -/
noncomputable def Spec.marcoAfter (J : Jax K) (A : Agent S) (xs : List (ℝ × List ℝ × ℤ)) (m : Marco K S) : Marco K S :=
  xs.foldl (fun m x => ((marcoPolo J A).step m x.1 x.2.1 x.2.2).1) m

/-- The phase and the clock after `k` steps. -/
def MarcoAt (k : ℕ) (m : Marco K S) : Prop :=
  m.episode = true → (m.phase = true ↔ Spec.exploring k) ∧
    m.elapsed = (if k % 120 < 80 then (k % 120 : ℕ) else (k % 120 : ℕ) - 80 : ℤ) * (180 * usPerSec)

theorem update_agent (m : Marco K S) : m.update.agent = m.agent ∧ m.update.episode = m.episode ∧ m.update.prob = m.prob ∧
    m.update.rng = m.rng := by
  unfold Marco.update
  simp only
  split_ifs <;> simp

theorem update_off (m : Marco K S) (h : m.episode = false) : m.update.phase = m.phase := by
  unfold Marco.update
  simp [h]

theorem update_at (k : ℕ) (m : Marco K S) (h : MarcoAt k m) : MarcoAt (k + 1) m.update := by
  intro he
  rw [(update_agent m).2.1] at he
  obtain ⟨h1, h2⟩ := h he
  have hlt : k % 120 < 120 := Nat.mod_lt _ (by norm_num)
  unfold Marco.update
  simp only [he, not_true_eq_false, if_false]
  unfold Marco.expired
  simp only
  unfold Spec.exploring at *
  by_cases hp : m.phase = true
  · have hk := h1.1 hp
    rw [if_neg (by omega)] at h2
    by_cases h119 : k % 120 = 119
    · have hk1 : (k + 1) % 120 = 0 := by omega
      rw [h119] at h2
      have : m.elapsed + 180 * usPerSec ≥ 2 * 3600 * usPerSec := by rw [h2]; norm_num [usPerSec]
      simp only [hp, this, and_self, if_true]
      simp [hk1]
    · have hk1 : (k + 1) % 120 = k % 120 + 1 := by omega
      have : ¬ (m.elapsed + 180 * usPerSec ≥ 2 * 3600 * usPerSec) := by
        rw [h2]; unfold usPerSec; push Not; push_cast; omega
      simp only [hp, this, and_false, if_false, not_true_eq_false, false_and, Bool.false_eq_true]
      rw [hk1]
      refine ⟨by simp only [true_iff]; omega, ?_⟩
      rw [h2, if_neg (by omega)]
      push_cast
      ring
  · have hk : ¬ 80 ≤ k % 120 := fun hc => hp (h1.2 hc)
    rw [if_pos (by omega)] at h2
    by_cases h79 : k % 120 = 79
    · have hk1 : (k + 1) % 120 = 80 := by omega
      rw [h79] at h2
      have : m.elapsed + 180 * usPerSec ≥ 4 * 3600 * usPerSec := by rw [h2]; norm_num [usPerSec]
      simp only [hp, this, not_false_eq_true, and_self, if_true, false_and, if_false, Bool.false_eq_true]
      simp [hk1, hp]
    · have hk1 : (k + 1) % 120 = k % 120 + 1 := by omega
      have : ¬ (m.elapsed + 180 * usPerSec ≥ 4 * 3600 * usPerSec) := by
        rw [h2]; unfold usPerSec; push Not; push_cast; omega
      simp only [hp, this, and_false, if_false, false_and, Bool.false_eq_true]
      rw [hk1]
      refine ⟨by simp only [false_iff]; omega, ?_⟩
      rw [h2, if_pos (by omega)]
      push_cast
      ring

theorem marco_step_frame (J : Jax K) (A : Agent S) (m : Marco K S) (r : ℝ) (o : List ℝ) (a : ℤ) :
    ((marcoPolo J A).step m r o a).1 = { m.update with
      agent := if m.update.phase = true then (A.step m.agent r o).1 else m.agent } := by
  unfold marcoPolo
  simp only
  split_ifs with h
  · rw [(update_agent m).1]
  · rw [← (update_agent m).1]

theorem marcoAfter_inv (J : Jax K) (A : Agent S) (xs : List (ℝ × List ℝ × ℤ)) (k : ℕ) (m : Marco K S)
    (h : MarcoAt k m) (hoff : m.episode = false → m.phase = false) :
    MarcoAt (k + xs.length) (Spec.marcoAfter J A xs m) ∧ (Spec.marcoAfter J A xs m).episode = m.episode ∧
    ((Spec.marcoAfter J A xs m).episode = false → (Spec.marcoAfter J A xs m).phase = false) ∧
    (Spec.marcoAfter J A xs m).agent = Spec.explorerAfter A m.episode (k + 1) xs m.agent := by
  induction xs generalizing k m with
  | nil => exact ⟨h, rfl, hoff, rfl⟩
  | cons x xs ih =>
    have hu := update_at k m h
    have e := marco_step_frame J A m x.1 x.2.1 x.2.2
    have hm' : MarcoAt (k + 1) ((marcoPolo J A).step m x.1 x.2.1 x.2.2).1 := by
      rw [e]; exact hu
    have hep : ((marcoPolo J A).step m x.1 x.2.1 x.2.2).1.episode = m.episode := by
      rw [e]; exact (update_agent m).2.1
    have hoff' : ((marcoPolo J A).step m x.1 x.2.1 x.2.2).1.episode = false →
        ((marcoPolo J A).step m x.1 x.2.1 x.2.2).1.phase = false := by
      intro hc
      rw [hep] at hc
      rw [e]
      show m.update.phase = false
      rw [update_off m hc, hoff hc]
    obtain ⟨i1, i2, i3, i4⟩ := ih (k + 1) _ hm' hoff'
    refine ⟨?_, ?_, i3, ?_⟩
    · rw [List.length_cons, show k + (xs.length + 1) = k + 1 + xs.length by ring]
      exact i1
    · rw [← hep]; exact i2
    · rw [hep] at i4
      show (Spec.marcoAfter J A xs _).agent = _
      rw [i4, Spec.explorerAfter]
      congr 1
      rw [e]
      simp only
      by_cases he : m.episode = true
      · have := (hu (by rw [(update_agent m).2.1]; exact he)).1
        by_cases hx : Spec.exploring (k + 1)
        · rw [if_pos (this.2 hx), if_pos ⟨he, hx⟩]
        · rw [if_neg (fun hc => hx (this.1 hc)), if_neg (fun hc => hx hc.2)]
      · have he' : m.episode = false := by simpa using he
        rw [if_neg (by rw [update_off m he', hoff he']; simp), if_neg (fun hc => he hc.1)]

/-- C58. Begin an episode with a policy action, then make any number of steps. The first action is the
policy's. At the `k`-th step the wrapper asks the exploratory agent iff the episode is exploratory and
`k % 120 ≥ 80`; otherwise it returns the policy's action. The exploratory agent has been begun with the
first observation and stepped in exactly the earlier exploration steps. The episode is exploratory iff the
draw is at most the configured probability. -/
theorem C58_schedule (J : Jax K) (A : Agent S) (m m0 : Marco K S) (obs : List ℝ) (a a0 : ℤ)
    (hb : (marcoPolo J A).beginEpisode m obs a = (m0, .ok a0)) (xs : List (ℝ × List ℝ × ℤ)) (r : ℝ) (o : List ℝ)
    (b : ℤ) :
    a0 = a ∧ (m0.episode = true ↔ J.uniform (J.split m.rng 2 0) ≤ m.prob) ∧
    ((marcoPolo J A).step (Spec.marcoAfter J A xs m0) r o b).2 =
      (if m0.episode = true ∧ Spec.exploring (xs.length + 1) then
        (A.step (Spec.explorerAfter A m0.episode 1 xs (A.beginEpisode m.agent obs).1) r o).2
      else .ok b) := by
  have hb' := hb
  unfold marcoPolo at hb'
  simp only at hb'
  rcases hq : (A.beginEpisode m.agent obs).2 with e | q
  · rw [hq] at hb'; cases hb'
  rw [hq] at hb'
  simp only [Prod.mk.injEq, Except.ok.injEq] at hb'
  obtain ⟨h1, h2⟩ := hb'
  have hag : m0.agent = (A.beginEpisode m.agent obs).1 := by rw [← h1]
  refine ⟨h2.symm, by rw [← h1]; simp, ?_⟩
  have hat : MarcoAt 0 m0 := by
    intro _
    rw [← h1]
    simp [Spec.exploring]
  obtain ⟨i1, i2, i3, i4⟩ := marcoAfter_inv J A xs 0 m0 hat (fun _ => by rw [← h1])
  rw [hag] at i4
  generalize Spec.marcoAfter J A xs m0 = M at *
  have hu := update_at _ M i1
  rw [Nat.zero_add] at hu i4
  unfold marcoPolo
  simp only
  by_cases he : m0.episode = true
  · have := (hu (by rw [(update_agent M).2.1, i2]; exact he)).1
    by_cases hx : Spec.exploring (xs.length + 1)
    · rw [if_pos (this.2 hx), if_pos ⟨he, hx⟩, (update_agent M).1, i4]
    · rw [if_neg (fun hc => hx (this.1 hc)), if_neg (fun hc => hx hc.2)]
  · have he' : m0.episode = false := by simpa using he
    have hph : M.update.phase = false := by
      rw [update_off M (by rw [i2, he']), i3 (by rw [i2, he'])]
    rw [if_neg (by rw [hph]; simp), if_neg (fun hc => he hc.1)]

/-- C58, the two ends of the probability scale: draws lie in `[0, 1)`. -/
theorem C58_probability (J : Jax K) (A : Agent S) (hJ : ∀ k, 0 ≤ J.uniform k ∧ J.uniform k < 1) (m m0 : Marco K S)
    (obs : List ℝ) (a a0 : ℤ) (hb : (marcoPolo J A).beginEpisode m obs a = (m0, .ok a0)) :
    (1 ≤ m.prob → m0.episode = true) ∧ (m.prob < 0 → m0.episode = false) := by
  obtain ⟨_, h, _⟩ := C58_schedule J A m m0 obs a a0 hb [] 0 [] 0
  refine ⟨fun h1 => h.2 ((hJ _).2.le.trans h1), fun h1 => ?_⟩
  by_contra hc
  have := h.1 (by simpa using hc)
  linarith [(hJ (J.split m.rng 2 0)).1]

/-- An agent that always answers 7, counting its steps. -/
def sevenAgent : Agent ℕ where
  beginEpisode _ _ := (0, .ok 7)
  step s _ _ := (s + 1, .ok 7)
  endEpisode s _ _ := s

/-- A symbolic generator whose draws are all 1/2. -/
noncomputable def halfJax : Jax (List ℕ) where
  prngKey _ := []
  split k _ i := i :: k
  uniform _ := 1 / 2
  uniform4 _ _ := 1 / 2
  beta _ := 1 / 2
  choice _ _ := 0
  upwelling _ := 250

/-- In an exploratory episode the 80th step explores and the 79th does not. -/
example (xs ys : List (ℝ × List ℝ × ℤ)) (hx : xs.length = 79) (hy : ys.length = 78) :
    let m0 := ((marcoPolo halfJax sevenAgent).beginEpisode ⟨0, 1, false, false, 0, []⟩ [] 1).1
    ((marcoPolo halfJax sevenAgent).step (Spec.marcoAfter halfJax sevenAgent xs m0) 0 [] 1).2 = .ok 7 ∧
    ((marcoPolo halfJax sevenAgent).step (Spec.marcoAfter halfJax sevenAgent ys m0) 0 [] 1).2 = .ok 1 := by
  have e : ∀ zs : List (ℝ × List ℝ × ℤ), _ := fun zs => C58_schedule halfJax sevenAgent ⟨0, 1, false, false, 0, []⟩
    ((marcoPolo halfJax sevenAgent).beginEpisode ⟨0, 1, false, false, 0, []⟩ [] 1).1 [] 1 1 rfl zs 0 [] 1
  have h1 : ((marcoPolo halfJax sevenAgent).beginEpisode ⟨0, 1, false, false, 0, []⟩ [] 1).1.episode = true := by
    simp only [marcoPolo, sevenAgent, halfJax]
    norm_num
  refine ⟨(e xs).2.2.trans ?_, (e ys).2.2.trans ?_⟩
  · rw [if_pos ⟨h1, by rw [hx]; decide⟩]; rfl
  · rw [if_neg (fun hc => absurd hc.2 (by rw [hy]; decide))]

/-! ## C59 — random walk -/

/-- C59. For every observation of the right length the agent answers; with `P` the pressure encoded in the
first entry it answers UP iff `P` is more than 100 Pa above the target (higher pressure is lower altitude),
DOWN iff more than 100 Pa below, STAY otherwise. Any other length is an `AssertionError`. -/
theorem C59_select (s : RandomWalk K) (obs : List ℝ) :
    (obs.length = 1099 → ∃ c, s.select obs = .ok c ∧
      (c = .up ↔ 5000 + obs.getD 0 0 * 9000 > s.target + 100) ∧
      (c = .down ↔ 5000 + obs.getD 0 0 * 9000 < s.target - 100) ∧
      (c = .stay ↔ |5000 + obs.getD 0 0 * 9000 - s.target| ≤ 100)) ∧
    (obs.length ≠ 1099 → s.select obs = .error .assertion) := by
  constructor
  · intro hl
    obtain ⟨N, e, n1, n2, n3, -⟩ := named_ok obs hl
    unfold RandomWalk.select
    rw [if_neg (by simpa using hl), e]
    simp only
    have hp : N.pressure = 5000 + obs.getD 0 0 * 9000 := n3
    rw [← hp]
    split_ifs with a b
    · refine ⟨_, rfl, by simp; linarith, by simp; linarith, ?_⟩
      simp only [reduceCtorEq, false_iff, not_le]
      rw [lt_abs]; left; linarith
    · refine ⟨_, rfl, by simp; linarith, by simp; linarith, ?_⟩
      simp only [reduceCtorEq, false_iff, not_le]
      rw [lt_abs]; right; linarith
    · refine ⟨_, rfl, by simp; linarith, by simp; linarith, ?_⟩
      simp only [true_iff]
      rw [abs_le]; constructor <;> linarith
  · intro hl
    unfold RandomWalk.select
    rw [if_pos hl]

/-- C59 on real observations: what the agent compares with its target is the balloon's pressure, clamped to
`[5000, 14000]` Pa. -/
theorem C59_steers (R : Regressor) (sun : Sun) (F : FeatState) (b : BState) (hb : F.last = some b) (obs : List ℝ)
    (h : F.features R sun = .ok obs) (s : RandomWalk K) :
    ∃ c, s.select obs = .ok c ∧
      (c = .up ↔ Spec.clampPressure b.pressure > s.target + 100) ∧
      (c = .down ↔ Spec.clampPressure b.pressure < s.target - 100) := by
  obtain ⟨N, e, hp, -⟩ := C28_roundtrip_partial R sun F b hb obs h
  have hl : obs.length = 1099 := by
    obtain ⟨_, _, _, _, _, _, _, _, _, hl, _⟩ := C26_centred R sun F obs h
    exact hl
  obtain ⟨N', e', n1, n2, n3, -⟩ := named_ok obs hl
  rw [e] at e'
  cases e'
  obtain ⟨c, hc, c1, c2, _⟩ := (C59_select s obs).1 hl
  have : 5000 + obs.getD 0 0 * 9000 = Spec.clampPressure b.pressure := by rw [← hp, n3]
  rw [this] at c1 c2
  exact ⟨c, hc, c1, c2⟩

/-- The key with which a random-walk agent made from key `k` enters its `n`-th draw: one split per draw. -/
def Spec.walkKey (J : Jax K) (k : K) : ℕ → K
  | 0 => k
  | n + 1 => J.split (Spec.walkKey J k n) 2 0

/-- A call of the agent: beginning an episode, or a step. -/
noncomputable def Spec.walkCall (J : Jax K) (normal : K → ℝ) (s : RandomWalk K) : List ℝ ⊕ ℝ × List ℝ → RandomWalk K
  | .inl obs => ((randomWalkAgent J normal).beginEpisode s obs).1
  | .inr x => ((randomWalkAgent J normal).step s x.1 x.2).1

theorem walk_key (J : Jax K) (normal : K → ℝ) (cs : List (List ℝ ⊕ ℝ × List ℝ)) : ∀ s : RandomWalk K,
    (cs.foldl (Spec.walkCall J normal) s).rng = Spec.walkKey J s.rng cs.length := by
  induction cs using List.reverseRecOn with
  | nil => intro s; rfl
  | append_singleton cs c ih =>
    intro s
    rw [List.foldl_append, List.length_append]
    simp only [List.foldl_cons, List.foldl_nil, List.length_singleton, Spec.walkKey, ← ih s]
    rcases c with c | c <;> rfl

/-- C59. Every draw uses a key of its own, also across episodes: the agent made from a seed draws its first target with
the second half of the split of the seed's key and, after `n` calls, the next one with the second half of the split
of the key that has been split `n + 1` times. Beginning an episode sets the target to a pressure between 65 and 114 hPa, independent of the
previous target. -/
theorem C59_targets (J : Jax K) (normal : K → ℝ) (seed : ℤ) (cs : List (List ℝ ⊕ ℝ × List ℝ)) (obs : List ℝ)
    (hu : ∀ k, 0 ≤ J.uniform k ∧ J.uniform k ≤ 1) :
    let s := cs.foldl (Spec.walkCall J normal) (RandomWalk.new J seed)
    let key := fun n => J.split (Spec.walkKey J (J.prngKey seed) n) 2 1
    (RandomWalk.new J seed).target = 6500 + 4900 * J.uniform (key 0) ∧ (RandomWalk.new J seed).elapsed = 0 ∧
    s.rng = Spec.walkKey J (J.prngKey seed) (cs.length + 1) ∧
    (Spec.walkCall J normal s (.inl obs)).target = 6500 + 4900 * J.uniform (key (cs.length + 1)) ∧
    6500 ≤ (Spec.walkCall J normal s (.inl obs)).target ∧ (Spec.walkCall J normal s (.inl obs)).target ≤ 11400 := by
  intro s key
  have h0 : s.rng = Spec.walkKey J (J.prngKey seed) (cs.length + 1) := by
    have := walk_key J normal cs (RandomWalk.new J seed)
    have e : ∀ n, Spec.walkKey J (RandomWalk.new J seed).rng n = Spec.walkKey J (J.prngKey seed) (n + 1) := by
      intro n
      induction n with
      | zero => rfl
      | succ n ih => simp only [Spec.walkKey] at ih ⊢; rw [ih]
    rw [← e]
    exact this
  have h1 : (Spec.walkCall J normal s (.inl obs)).target = 6500 + 4900 * J.uniform (key (cs.length + 1)) := by
    show uniform 6500 11400 (J.uniform (J.split s.rng 2 1)) = _
    rw [h0]
    unfold uniform
    ring
  refine ⟨?_, rfl, h0, h1, ?_, ?_⟩
  · show uniform 6500 11400 (J.uniform (J.split (J.prngKey seed) 2 1)) = 6500 + 4900 * J.uniform (J.split (J.prngKey seed) 2 1)
    unfold uniform
    ring
  · rw [h1]; linarith [(hu (key (cs.length + 1))).1]
  · rw [h1]; linarith [(hu (key (cs.length + 1))).2]

/-! ## C60 — size of the random-walk increments -/

/-- The agent after beginning an episode and the given steps. -/
noncomputable def Spec.walkAfter (J : Jax K) (normal : K → ℝ) (s : RandomWalk K) (obs : List ℝ)
    (xs : List (ℝ × List ℝ)) : RandomWalk K :=
  xs.foldl (fun s x => ((randomWalkAgent J normal).step s x.1 x.2).1) ((randomWalkAgent J normal).beginEpisode s obs).1

theorem walk_elapsed (J : Jax K) (normal : K → ℝ) (s : RandomWalk K) (obs : List ℝ) (xs : List (ℝ × List ℝ)) :
    (Spec.walkAfter J normal s obs xs).elapsed = xs.length * (180 * usPerSec) := by
  unfold Spec.walkAfter
  have h0 : ((randomWalkAgent J normal).beginEpisode s obs).1.elapsed = 0 := rfl
  have : ∀ (xs : List (ℝ × List ℝ)) (t : RandomWalk K),
      (xs.foldl (fun s x => ((randomWalkAgent J normal).step s x.1 x.2).1) t).elapsed =
        t.elapsed + xs.length * (180 * usPerSec) := by
    intro xs
    induction xs with
    | nil => intro t; simp
    | cons x xs ih =>
      intro t
      rw [List.foldl_cons, ih]
      show t.elapsed + 180 * usPerSec + _ = _
      push_cast [List.length_cons]
      ring
  rw [this, h0, zero_add]

/-- C60, what holds: the increment at the `k`-th step is the draw times 0.1666 Pa/s times the time since the
episode began, `180 k` seconds. For `k = 1` this is the time since the last update. Missing from the full
statement: for later steps the elapsed time should be 180 s, but it is never reset after an update. -/
theorem C60_increment_partial (J : Jax K) (normal : K → ℝ) (s : RandomWalk K) (obs : List ℝ) (xs : List (ℝ × List ℝ))
    (r : ℝ) (o : List ℝ) :
    (Spec.walkAfter J normal s obs (xs ++ [(r, o)])).target - (Spec.walkAfter J normal s obs xs).target =
      normal (J.split (Spec.walkAfter J normal s obs xs).rng 2 1) * 0.1666 * (180 * (xs.length + 1)) ∧
    (xs = [] → (Spec.walkAfter J normal s obs (xs ++ [(r, o)])).target - (Spec.walkAfter J normal s obs xs).target =
      normal (J.split (Spec.walkAfter J normal s obs xs).rng 2 1) * 0.1666 * 180) := by
  have e : (Spec.walkAfter J normal s obs (xs ++ [(r, o)])).target = (Spec.walkAfter J normal s obs xs).target +
      totalSeconds ((Spec.walkAfter J normal s obs xs).elapsed + 180 * usPerSec) * 0.1666 *
        normal (J.split (Spec.walkAfter J normal s obs xs).rng 2 1) := by
    unfold Spec.walkAfter
    rw [List.foldl_append]
    rfl
  have hel : totalSeconds ((Spec.walkAfter J normal s obs xs).elapsed + 180 * usPerSec) = 180 * (xs.length + 1) := by
    rw [walk_elapsed]
    unfold totalSeconds usPerSec
    push_cast
    ring
  rw [e, hel]
  refine ⟨by ring, ?_⟩
  rintro rfl
  simp
  ring

/-- C60 is false from the second step on: unless the draw is 0, the increment is not the draw times 0.1666 Pa/s
times the three minutes since the target was last updated. -/
theorem C60_not_since_last_update (J : Jax K) (normal : K → ℝ) (s : RandomWalk K) (obs : List ℝ)
    (xs : List (ℝ × List ℝ)) (r : ℝ) (o : List ℝ) (hx : xs ≠ [])
    (hn : normal (J.split (Spec.walkAfter J normal s obs xs).rng 2 1) ≠ 0) :
    (Spec.walkAfter J normal s obs (xs ++ [(r, o)])).target - (Spec.walkAfter J normal s obs xs).target ≠
      normal (J.split (Spec.walkAfter J normal s obs xs).rng 2 1) * 0.1666 * 180 := by
  rw [(C60_increment_partial J normal s obs xs r o).1]
  intro h
  have hl : (0 : ℝ) < xs.length := by
    have := List.length_pos_of_ne_nil hx
    exact_mod_cast this
  have h2 : normal (J.split (Spec.walkAfter J normal s obs xs).rng 2 1) * (xs.length : ℝ) = 0 := by linarith
  rcases mul_eq_zero.1 h2 with h3 | h3
  · exact hn h3
  · linarith

/-- The second increment is twice as large as claimed. -/
example : (Spec.walkAfter halfJax (fun _ => 1) ⟨[], 0, 9000⟩ [] [(0, []), (0, [])]).target -
    (Spec.walkAfter halfJax (fun _ => 1) ⟨[], 0, 9000⟩ [] [(0, [])]).target = 0.1666 * 360 := by
  have := (C60_increment_partial halfJax (fun _ => 1) ⟨[], 0, 9000⟩ [] [(0, [])] 0 []).1
  simp only [List.cons_append, List.nil_append, List.length_cons, List.length_nil] at this
  rw [this]
  norm_num

/-- A first target of 89.5 hPa, and again after two episodes. -/
example : (RandomWalk.new halfJax 3).target = 8950 ∧
    (([.inl [], .inr (0, []), .inl []] : List (List ℝ ⊕ ℝ × List ℝ)).foldl (Spec.walkCall halfJax fun _ => 1)
      (RandomWalk.new halfJax 3)).target = 8950 := by
  constructor
  · show uniform 6500 11400 (1 / 2) = 8950
    norm_num [uniform]
  · show uniform 6500 11400 (1 / 2) = 8950
    norm_num [uniform]

/-! ## C61 — StationSeeker -/

/-- The three entries of column position `j`: uncertainty, bearing, magnitude. -/
def Spec.unc (f : List ℝ) (j : ℕ) : ℝ := f.getD (16 + 3 * j) 0
/-- Bearing entry. -/
def Spec.bearing (f : List ℝ) (j : ℕ) : ℝ := f.getD (16 + 3 * j + 1) 0
/-- Magnitude entry. -/
def Spec.mag (f : List ℝ) (j : ℕ) : ℝ := f.getD (16 + 3 * j + 2) 0

/-- Position `j` of the column is marked reachable: it does not hold the "unreachable" triple (0, 1, 1). -/
def Spec.Reachable (f : List ℝ) (j : ℕ) : Prop := j < 361 ∧ ¬ (Spec.unc f j = 0 ∧ Spec.bearing f j = 1 ∧ Spec.mag f j = 1)

/-- A well-formed observation: right length, distance entry in `[0,1)`, and at reachable positions
uncertainty and bearing in `[0,1]` and magnitude in `[0,1)`. -/
structure Spec.WellFormed (f : List ℝ) : Prop where
  length : f.length = 1099
  distance : 0 ≤ f.getD 7 0 ∧ f.getD 7 0 < 1
  winds : ∀ j, Spec.Reachable f j → 0 ≤ Spec.unc f j ∧ Spec.unc f j ≤ 1 ∧ 0 ≤ Spec.bearing f j ∧ Spec.bearing f j ≤ 1 ∧
    0 ≤ Spec.mag f j ∧ Spec.mag f j < 1

/-- Distance to the station in km encoded in the observation. -/
noncomputable def Spec.km (f : List ℝ) : ℝ := 250 * f.getD 7 0 / (1 - f.getD 7 0)

/-- Weight of the bearing: 0.6 up to 250 km, 0.45 beyond 500 km, linear in between. -/
noncomputable def Spec.bearingWeight (d : ℝ) : ℝ :=
  if d ≤ 250 then 0.6 else if 500 ≤ d then 0.45 else 0.6 - 0.15 * (d - 250) / 250

/-- The score of position `j` in closed form. -/
noncomputable def Spec.score (f : List ℝ) (j : ℕ) : ℝ :=
  let far := 1 - Real.exp (-(Spec.km f / 35))
  let w := far * Real.exp (-(Spec.bearingWeight (Spec.km f) * (Real.pi * Spec.bearing f j))) +
    (1 - far) * Real.exp (-(0.07 * (30 * Spec.mag f j / (1 - Spec.mag f j))))
  (1.01 - Spec.unc f j) * w + Spec.unc f j / 2 + 0.05 * Real.exp (-(|(j : ℝ) - 180| / 1000))

theorem bearingWeight_eq (d : ℝ) : (0.6 : ℝ) + clip ((d - 250) / (500 - 250)) 0 1 * (0.45 - 0.6) = Spec.bearingWeight d := by
  unfold Spec.bearingWeight clip
  split_ifs with h1 h2
  · have : (d - 250) / (500 - 250) ≤ 0 := div_nonpos_of_nonpos_of_nonneg (by linarith) (by norm_num)
    rw [max_eq_right this]
    norm_num
  · have : 1 ≤ (d - 250) / (500 - 250) := by rw [le_div_iff₀ (by norm_num)]; linarith
    rw [max_eq_left (by linarith), min_eq_right this]
    norm_num
  · push Not at h1 h2
    have h3 : 0 ≤ (d - 250) / (500 - 250) := div_nonneg (by linarith) (by norm_num)
    have h4 : (d - 250) / (500 - 250) ≤ 1 := by rw [div_le_one (by norm_num)]; linarith
    rw [max_eq_left h3, min_eq_left h4]
    ring

theorem bearingWeight_pos (d : ℝ) : 0 < Spec.bearingWeight d := by
  unfold Spec.bearingWeight
  split_ifs with h1 h2
  · norm_num
  · norm_num
  · push Not at h1 h2
    linarith

theorem windAt_ok {f : List ℝ} {N : Named} (hl : f.length = 1099) (hN : Named.ofList f = .ok N) (j : ℕ) (hj : j < 361) :
    N.windAt j = .ok ⟨Spec.unc f j, Spec.bearing f j, Spec.mag f j⟩ := by
  have := (C30_in_range_partial f hl N hN j).1 (by positivity) (by exact_mod_cast hj)
  simpa [Spec.unc, Spec.bearing, Spec.mag] using this

theorem levelValid_ok {f : List ℝ} {N : Named} (hl : f.length = 1099) (hN : Named.ofList f = .ok N) (j : ℕ) (hj : j < 361) :
    ∃ b, N.levelValid j = .ok b ∧ (b = true ↔ Spec.Reachable f j) := by
  classical
  refine ⟨decide (WindFeature.valid ⟨Spec.unc f j, Spec.bearing f j, Spec.mag f j⟩), ?_, ?_⟩
  · unfold Named.levelValid
    rw [windAt_ok hl hN j hj]
    simp only [Except.map, Except.ok.injEq, decide_eq_decide]
  rw [decide_eq_true_iff]
  unfold WindFeature.valid Spec.Reachable
  simp only [hj, true_and]
  tauto

theorem altitudeScore_ok {f : List ℝ} {N : Named} (hf : Spec.WellFormed f) (hN : Named.ofList f = .ok N) (j : ℕ)
    (hj : Spec.Reachable f j) : altitudeScore N j = .ok (Spec.score f j) := by
  obtain ⟨N', e, n1, n2, -, -, -, -, -, -, -, n8, -⟩ := named_ok f hf.length
  rw [hN] at e
  cases e
  obtain ⟨w1, w2, w3, w4, w5, w6⟩ := hf.winds j hj
  have hw := windAt_ok hf.length hN j hj.1
  have hreal : realWind ⟨Spec.unc f j, Spec.bearing f j, Spec.mag f j⟩ =
      .ok ⟨Spec.unc f j, Real.pi * Spec.bearing f j, 30 * Spec.mag f j / (1 - Spec.mag f j)⟩ := by
    unfold realWind undoRescale undoSquash pyDiv
    rw [if_neg (by linarith [Real.pi_pos]), if_neg (by norm_num), if_neg (by push Not; intro; linarith),
      if_neg (by linarith)]
    simp only [bind, Except.bind, pure, Except.pure]
    rw [show (0 : ℝ) + Spec.bearing f j * (Real.pi - 0) = Real.pi * Spec.bearing f j by ring,
      show Spec.mag f j * 30 = 30 * Spec.mag f j by ring]
  have hd : undoSquash N.distance 250 = .ok (Spec.km f) := by
    unfold undoSquash pyDiv Spec.km
    rw [n8, if_neg (by norm_num), if_neg (by push Not; intro; linarith [hf.distance.1]),
      if_neg (by linarith [hf.distance.2]), mul_comm]
  have hc : N.center = .ok 180 := by
    unfold Named.center
    rw [n2]
    norm_num
  unfold altitudeScore windScore
  rw [hw, hc]
  simp only [bind, Except.bind]
  rw [hreal, hd]
  simp only [pure, Except.pure]
  rw [bearingWeight_eq]
  unfold Spec.score
  simp only
  congr 1
  rw [show -Spec.km f / 35 = -(Spec.km f / 35) by ring,
    show -Spec.bearingWeight (Spec.km f) * (Real.pi * Spec.bearing f j) =
      -(Spec.bearingWeight (Spec.km f) * (Real.pi * Spec.bearing f j)) by ring,
    show -0.07 * (30 * Spec.mag f j / (1 - Spec.mag f j)) = -(0.07 * (30 * Spec.mag f j / (1 - Spec.mag f j))) by ring]
  have : ((180 : ℕ) : ℝ) = 180 := by norm_num
  rw [this]
  have h2 : (-0.001 : ℝ) * |(((j : ℕ) : ℤ) : ℝ) - 180| = -(|(j : ℝ) - 180| / 1000) := by push_cast; ring
  rw [h2]
  ring

theorem score_range {f : List ℝ} (hf : Spec.WellFormed f) (j : ℕ) (hj : Spec.Reachable f j) :
    0 < Spec.score f j ∧ Spec.score f j ≤ 1.06 := by
  obtain ⟨w1, w2, w3, w4, w5, w6⟩ := hf.winds j hj
  have hk : 0 ≤ Spec.km f := div_nonneg (by linarith [hf.distance.1]) (by linarith [hf.distance.2])
  unfold Spec.score
  simp only
  have e1 : Real.exp (-(Spec.km f / 35)) ≤ 1 := Real.exp_le_one_iff.2 (by linarith [div_nonneg hk (by norm_num : (0:ℝ) ≤ 35)])
  have e1' := Real.exp_pos (-(Spec.km f / 35))
  have e2 : Real.exp (-(Spec.bearingWeight (Spec.km f) * (Real.pi * Spec.bearing f j))) ≤ 1 := by
    rw [Real.exp_le_one_iff]
    have := mul_nonneg (bearingWeight_pos (Spec.km f)).le (mul_nonneg Real.pi_pos.le w3)
    linarith
  have e2' := Real.exp_pos (-(Spec.bearingWeight (Spec.km f) * (Real.pi * Spec.bearing f j)))
  have e3 : Real.exp (-(0.07 * (30 * Spec.mag f j / (1 - Spec.mag f j)))) ≤ 1 := by
    rw [Real.exp_le_one_iff]
    have : 0 ≤ 30 * Spec.mag f j / (1 - Spec.mag f j) := div_nonneg (by linarith) (by linarith)
    linarith
  have e3' := Real.exp_pos (-(0.07 * (30 * Spec.mag f j / (1 - Spec.mag f j))))
  have e4 : Real.exp (-(|(j : ℝ) - 180| / 1000)) ≤ 1 := by
    rw [Real.exp_le_one_iff]
    have := abs_nonneg ((j : ℝ) - 180)
    linarith [div_nonneg this (by norm_num : (0:ℝ) ≤ 1000)]
  have e4' := Real.exp_pos (-(|(j : ℝ) - 180| / 1000))
  generalize Real.exp (-(Spec.km f / 35)) = a at *
  generalize Real.exp (-(Spec.bearingWeight (Spec.km f) * (Real.pi * Spec.bearing f j))) = b at *
  generalize Real.exp (-(0.07 * (30 * Spec.mag f j / (1 - Spec.mag f j)))) = c at *
  generalize Real.exp (-(|(j : ℝ) - 180| / 1000)) = d at *
  generalize Spec.unc f j = u at *
  have hw0 : 0 ≤ (1 - a) * b + (1 - (1 - a)) * c := by
    have := mul_nonneg (sub_nonneg.2 e1) e2'.le
    have := mul_pos e1' e3'
    linarith
  have hw1 : (1 - a) * b + (1 - (1 - a)) * c ≤ 1 := by nlinarith
  constructor
  · have := mul_nonneg (by linarith : 0 ≤ 1.01 - u) hw0
    linarith
  · have := mul_le_mul_of_nonneg_left hw1 (by linarith : 0 ≤ 1.01 - u)
    linarith

/-- The best of the first `n` positions: reachable, strictly better than all earlier reachable ones and at
least as good as the later ones. -/
def BestAmong (f : List ℝ) (n l : ℕ) : Prop :=
  l < n ∧ Spec.Reachable f l ∧ ∀ j, j < n → Spec.Reachable f j →
    Spec.score f j ≤ Spec.score f l ∧ (j < l → Spec.score f j < Spec.score f l)

/-- What the loop knows after the first `n` positions. -/
structure SeekInv (f : List ℝ) (n : ℕ) (k : Seek) : Prop where
  none_case : k.best = none → k.score = 0 ∧ ∀ j, j < n → ¬ Spec.Reachable f j
  some_case : ∀ l, k.best = some l → k.score = Spec.score f l ∧ BestAmong f n l
  len : k.scores.length = 361
  table : ∀ j, j < 361 → (j < n → Spec.Reachable f j → k.scores[j]? = some (Spec.score f j)) ∧
    (¬ (j < n ∧ Spec.Reachable f j) → k.scores[j]? = some 0)

theorem visit_inv {f : List ℝ} {N : Named} (hf : Spec.WellFormed f) (hN : Named.ofList f = .ok N) (n : ℕ) (hn : n < 361)
    (k : Seek) (h : SeekInv f n k) : ∃ k', Seek.visit N k n = .ok k' ∧ SeekInv f (n + 1) k' := by
  obtain ⟨b, hb, hr⟩ := levelValid_ok hf.length hN n hn
  unfold Seek.visit
  rw [hb]
  cases b with
  | false =>
    have hnr : ¬ Spec.Reachable f n := fun hc => by simpa using hr.2 hc
    refine ⟨k, rfl, ?_, ?_, h.len, ?_⟩
    · intro hk
      obtain ⟨a, b⟩ := h.none_case hk
      refine ⟨a, fun j hj => ?_⟩
      rcases Nat.lt_succ_iff_lt_or_eq.1 hj with hj | rfl
      · exact b j hj
      · exact hnr
    · intro l hl
      obtain ⟨a, b, c, d⟩ := h.some_case l hl
      refine ⟨a, by omega, c, fun j hj hjr => ?_⟩
      rcases Nat.lt_succ_iff_lt_or_eq.1 hj with hj | rfl
      · exact d j hj hjr
      · exact absurd hjr hnr
    · intro j hj
      obtain ⟨t1, t2⟩ := h.table j hj
      refine ⟨fun h1 h2 => ?_, fun h1 => ?_⟩
      · rcases Nat.lt_succ_iff_lt_or_eq.1 h1 with h1 | rfl
        · exact t1 h1 h2
        · exact absurd h2 hnr
      · exact t2 (fun hc => h1 ⟨by omega, hc.2⟩)
  | true =>
    have hre : Spec.Reachable f n := hr.1 rfl
    obtain ⟨r1, r2⟩ := score_range hf n hre
    simp only [altitudeScore_ok hf hN n hre]
    rw [if_neg (by rw [not_not]; exact ⟨r1.le, by linarith⟩)]
    refine ⟨_, rfl, ?_⟩
    have htab : ∀ j, j < 361 → (j < n + 1 → Spec.Reachable f j → (k.scores.set n (Spec.score f n))[j]? = some (Spec.score f j)) ∧
        (¬ (j < n + 1 ∧ Spec.Reachable f j) → (k.scores.set n (Spec.score f n))[j]? = some 0) := by
      intro j hj
      obtain ⟨t1, t2⟩ := h.table j hj
      rw [List.getElem?_set]
      by_cases hjn : n = j
      · subst hjn
        rw [if_pos rfl, if_pos (by rw [h.len]; exact hj)]
        exact ⟨fun _ _ => rfl, fun hc => absurd ⟨by omega, hre⟩ hc⟩
      · rw [if_neg hjn]
        exact ⟨fun h1 h2 => t1 (by omega) h2, fun h1 => t2 (fun hc => h1 ⟨by omega, hc.2⟩)⟩
    split_ifs with hgt
    · refine ⟨by simp, ?_, by simpa using h.len, htab⟩
      intro l hl
      simp only [Option.some.injEq] at hl
      subst hl
      refine ⟨rfl, by omega, hre, fun j hj hjr => ?_⟩
      rcases Nat.lt_succ_iff_lt_or_eq.1 hj with hj' | rfl
      · have : Spec.score f j < Spec.score f n := by
          rcases hbest : k.best with _ | l
          · exact absurd hjr ((h.none_case hbest).2 j hj')
          · obtain ⟨a, b, c, d⟩ := h.some_case l hbest
            rw [a] at hgt
            exact lt_of_le_of_lt (d j hj' hjr).1 hgt
        exact ⟨this.le, fun _ => this⟩
      · exact ⟨le_rfl, fun hc => absurd hc (lt_irrefl _)⟩
    · push Not at hgt
      refine ⟨?_, ?_, by simpa using h.len, htab⟩
      · intro hk
        rw [(h.none_case hk).1] at hgt
        linarith
      · intro l hl
        obtain ⟨a, b, c, d⟩ := h.some_case l hl
        refine ⟨a, by omega, c, fun j hj hjr => ?_⟩
        rcases Nat.lt_succ_iff_lt_or_eq.1 hj with hj' | rfl
        · exact d j hj' hjr
        · exact ⟨by rw [← a]; exact hgt, fun hc => by omega⟩

theorem fold_inv {f : List ℝ} {N : Named} (hf : Spec.WellFormed f) (hN : Named.ofList f = .ok N) (k0 : Seek)
    (h0 : SeekInv f 0 k0) : ∀ n, n ≤ 361 → ∃ k, (List.range n).foldlM (Seek.visit N) k0 = .ok k ∧ SeekInv f n k := by
  intro n
  induction n with
  | zero => exact fun _ => ⟨k0, rfl, h0⟩
  | succ n ih =>
    intro hn
    obtain ⟨k, hk, hi⟩ := ih (by omega)
    obtain ⟨k', hk', hi'⟩ := visit_inv hf hN n (by omega) k hi
    refine ⟨k', ?_, hi'⟩
    rw [List.range_succ, List.foldlM_append, hk]
    simp only [bind, Except.bind, List.foldlM_cons, List.foldlM_nil, pure, Except.pure, hk']

theorem search_inv {f : List ℝ} {N : Named} (hf : Spec.WellFormed f) (hN : Named.ofList f = .ok N) :
    ∃ k, (List.range N.numLevels).foldlM (Seek.visit N)
      { best := none, score := 0, scores := List.replicate N.numLevels 0 } = .ok k ∧ SeekInv f 361 k := by
  obtain ⟨N', e, n1, n2, -⟩ := named_ok f hf.length
  rw [hN] at e
  cases e
  rw [n2]
  refine fold_inv hf hN _ { none_case := fun _ => ⟨rfl, fun j hj => absurd hj (Nat.not_lt_zero _)⟩
                            some_case := fun l hl => (by simp at hl), len := List.length_replicate, table := ?_ } 361 le_rfl
  intro j hj
  refine ⟨fun h => by omega, fun _ => ?_⟩
  rw [List.getElem?_replicate, if_pos hj]

/-- C61. For every well-formed observation with a reachable level no assertion fires; the selected level is
reachable, maximises the score among the reachable ones and is the first to do so; all scores lie in
`(0, 1.06]`; the action is UP / STAY / DOWN (2 / 1 / 0) as the level is above / at / below the balloon's
(a smaller index is a lower pressure). -/
theorem C61_best (f : List ℝ) (hf : Spec.WellFormed f) (j0 : ℕ) (hj0 : Spec.Reachable f j0) :
    ∃ N l scores, Named.ofList f = .ok N ∧ findBest N = .ok (l, scores) ∧ Spec.Reachable f l ∧
      (∀ j, Spec.Reachable f j → 0 < Spec.score f j ∧ Spec.score f j ≤ 1.06 ∧ Spec.score f j ≤ Spec.score f l ∧
        (j < l → Spec.score f j < Spec.score f l) ∧ scores[j]? = some (Spec.score f j)) ∧
      ∃ a, stationSeek f = .ok a ∧ (a = 2 ↔ l < 180) ∧ (a = 1 ↔ l = 180) ∧ (a = 0 ↔ 180 < l) := by
  obtain ⟨N, hN, n1, n2, -⟩ := named_ok f hf.length
  obtain ⟨k, hk, hi⟩ := search_inv hf hN
  rcases hb : k.best with _ | l
  · exact absurd hj0 ((hi.none_case hb).2 j0 hj0.1)
  obtain ⟨s1, s2, s3, s4⟩ := hi.some_case l hb
  have hfind : findBest N = .ok (l, k.scores) := by
    unfold findBest
    rw [hk]
    simp only [hb]
  refine ⟨N, l, k.scores, hN, hfind, s3, fun j hj => ?_, ?_⟩
  · obtain ⟨r1, r2⟩ := score_range hf j hj
    obtain ⟨t1, t2⟩ := s4 j hj.1 hj
    exact ⟨r1, r2, t1, t2, (hi.table j hj.1).1 hj.1 hj⟩
  · have hc : N.center = .ok 180 := by unfold Named.center; rw [n2]; norm_num
    unfold stationSeek
    rw [hN]
    simp only [hfind, hc]
    refine ⟨_, rfl, ?_⟩
    split_ifs with h1 h2
    · exact ⟨by simp [h1], by simp; omega, by simp; omega⟩
    · exact ⟨by simp; omega, by simp; omega, by simp [h2]⟩
    · exact ⟨by simp; omega, by simp; omega, by simp; omega⟩

/-- C61, as the agent: at the beginning of an episode and at every step it answers as `C61_best` says for the observation it has
just been given, whatever its reward. -/
theorem C61_agent (f : List ℝ) (hf : Spec.WellFormed f) (j0 : ℕ) (hj0 : Spec.Reachable f j0) (r : ℝ) :
    ∃ l a, Spec.Reachable f l ∧ (∀ j, Spec.Reachable f j → Spec.score f j ≤ Spec.score f l ∧
        (j < l → Spec.score f j < Spec.score f l)) ∧
      (a = 2 ↔ l < 180) ∧ (a = 1 ↔ l = 180) ∧ (a = 0 ↔ 180 < l) ∧
      (stationSeeker.beginEpisode () f).2 = .ok a ∧ (stationSeeker.step () r f).2 = .ok a := by
  obtain ⟨N, l, scores, -, -, hl, hb, a, ha, h1, h2, h3⟩ := C61_best f hf j0 hj0
  exact ⟨l, a, hl, fun j hj => ⟨(hb j hj).2.2.1, (hb j hj).2.2.2.1⟩, h1, h2, h3, ha, ha⟩

/-- C61, the remaining case: if no level is reachable the agent fails with an `AssertionError`, and with
nothing else. -/
theorem C61_no_level (f : List ℝ) (hf : Spec.WellFormed f) (hno : ∀ j, ¬ Spec.Reachable f j) :
    stationSeek f = .error .assertion := by
  obtain ⟨N, hN, n1, n2, -⟩ := named_ok f hf.length
  obtain ⟨k, hk, hi⟩ := search_inv hf hN
  rcases hb : k.best with _ | l
  · unfold stationSeek findBest
    rw [hN]
    simp only [hk, hb]
  · exact absurd (hi.some_case l hb).2.2.1 (hno l)

/-- Observations made by the feature constructor are well-formed. -/
theorem features_wellFormed (two : Bool) (sun : Sun) (F : FeatState) (s : BState) (hs : F.last = some s)
    (hp : 0 < s.pressure) (hb : 0 ≤ s.charge) (hc : s.charge ≤ s.cap) (f : List ℝ)
    (h : F.features (gpr two) sun = .ok f) : Spec.WellFormed f := by
  obtain ⟨hl, hr⟩ := C27_in_space two sun F s hs hp hb hc f h
  have hget : ∀ i, i < 1099 → f[i]? = some (f.getD i 0) := by
    intro i hi
    simp [List.getD, List.getElem?_eq_getElem (by rw [hl]; exact hi : i < f.length)]
  obtain ⟨s', means, devs, r, level, a1, a2, a3, a4, -, hcol⟩ := C26_centred (gpr two) sun F f h
  have hsq : ∀ m : ℝ, 0 ≤ m → m / (m + 30) < 1 := fun m hm => by
    rw [div_lt_one (by linarith)]; linarith
  refine ⟨hl, ?_, fun j hj => ?_⟩
  · have h7 := hr 7 _ (hget 7 (by norm_num))
    have h7' : f.getD 7 0 ≤ 1 := h7.2 1 (by norm_num [obsHigh])
    refine ⟨by simpa [obsLow] using h7.1, lt_of_le_of_ne h7' fun h1 => ?_⟩
    obtain ⟨N, e, -, -, -, -, hd, -⟩ := C28_roundtrip_partial (gpr two) sun F s hs f h
    obtain ⟨N', e', -, -, -, -, -, -, -, -, -, n8, -⟩ := named_ok f hl
    rw [e] at e'
    cases e'
    rw [n8, h1] at hd
    unfold undoSquash pyDiv at hd
    rw [if_neg (by norm_num), if_neg (by norm_num), if_pos (by norm_num)] at hd
    cases hd
  · obtain ⟨h361, hne⟩ := hj
    have b0 := hr (16 + 3 * j) _ (hget _ (by omega))
    have b1 := hr (16 + 3 * j + 1) _ (hget _ (by omega))
    have b2 := hr (16 + 3 * j + 2) _ (hget _ (by omega))
    have lo : ∀ i, 16 ≤ i → obsLow i = 0 := fun i hi => by
      unfold obsLow; rw [if_neg (by omega), if_neg (by omega)]
    have hi' : ∀ i, 16 ≤ i → obsHigh i = some 1 := fun i hi => by
      unfold obsHigh; rw [if_neg (by omega)]
    rw [lo _ (by omega)] at b0 b1 b2
    refine ⟨b0.1, b0.2 1 (hi' _ (by omega)), b1.1, b1.2 1 (hi' _ (by omega)), b2.1, ?_⟩
    obtain ⟨c1, c2⟩ := hcol j h361
    by_cases hk : ∃ k : ℕ, (k : ℤ) = level + j - 180 ∧ k ≤ 180 ∧ r.lo ≤ 5000 + 50 * (k : ℝ) ∧ 5000 + 50 * (k : ℝ) ≤ r.hi
    · obtain ⟨k, k1, k2, k3, k4⟩ := hk
      obtain ⟨d, w, -, -, -, -, hm⟩ := c1 k k1 k2 k3 k4
      have : Spec.mag f j = windMagnitude w / (windMagnitude w + 30) := by
        unfold Spec.mag
        rw [List.getD, hm]; rfl
      rw [this]
      exact hsq _ (Real.sqrt_nonneg _)
    · obtain ⟨u0, u1, u2⟩ := c2 hk
      refine absurd ⟨?_, ?_, ?_⟩ hne
      · unfold Spec.unc; rw [List.getD, u0]; rfl
      · unfold Spec.bearing; rw [List.getD, u1]; rfl
      · unfold Spec.mag; rw [List.getD, u2]; rfl

/-- C61 on real observations: if some pressure level of the grid lies in the reachable range, StationSeeker
answers a valid action, and it is UP (DOWN) only if the level it goes to is at a lower (higher) pressure than
the grid level nearest to the balloon. -/
theorem C61_flying (two : Bool) (sun : Sun) (F : FeatState) (s : BState) (hs : F.last = some s)
    (hp : 0 < s.pressure) (hb : 0 ≤ s.charge) (hc : s.charge ≤ s.cap) (f : List ℝ)
    (h : F.features (gpr two) sun = .ok f) (r : PressureRange) (hr : pressureRange sun F.α s = .ok r) (k : ℕ)
    (hk : k ≤ 180) (hk1 : r.lo ≤ 5000 + 50 * (k : ℝ)) (hk2 : 5000 + 50 * (k : ℝ) ≤ r.hi) :
    ∃ a level, ∃ best : ℕ, stationSeek f = .ok a ∧ nearestLevel s.pressure = .ok level ∧
      best ≤ 180 ∧ r.lo ≤ 5000 + 50 * (best : ℝ) ∧ 5000 + 50 * (best : ℝ) ≤ r.hi ∧
      (a = 2 ↔ (best : ℤ) < level) ∧ (a = 1 ↔ (best : ℤ) = level) ∧ (a = 0 ↔ level < best) := by
  have hwf := features_wellFormed two sun F s hs hp hb hc f h
  obtain ⟨s', r', level, N, a1, a2, a3, hN, hval⟩ := C29_valid_iff_reachable (gpr two) sun F f h
  rw [hs] at a1
  cases a1
  rw [hr] at a2
  cases a2
  obtain ⟨l', hl', l0, l1, -⟩ := C31_nearest s.pressure
  have : l' = level := by rw [a3] at hl'; exact (Except.ok.inj hl').symm
  subst this
  have hiff : ∀ j, j < 361 → (Spec.Reachable f j ↔ ∃ k : ℕ, (k : ℤ) = l' + j - 180 ∧ k ≤ 180 ∧
      r.lo ≤ 5000 + 50 * (k : ℝ) ∧ 5000 + 50 * (k : ℝ) ≤ r.hi) := by
    intro j hj
    obtain ⟨b, hb1, hb2⟩ := hval j hj
    obtain ⟨b', hb1', hb2'⟩ := levelValid_ok hwf.length hN j hj
    rw [hb1] at hb1'
    cases hb1'
    exact hb2'.symm.trans hb2
  have hj0 : Spec.Reachable f ((k : ℤ) - l' + 180).toNat :=
    (hiff _ (by omega)).2 ⟨k, by omega, hk, hk1, hk2⟩
  obtain ⟨N', l, scores, -, -, hre, -, a, ha, u1, u2, u3⟩ := C61_best f hwf _ hj0
  obtain ⟨best, q1, q2, q3, q4⟩ := (hiff l hre.1).1 hre
  refine ⟨a, l', best, ha, a3, q2, q3, q4, ?_, ?_, ?_⟩
  · rw [u1]; omega
  · rw [u2]; omega
  · rw [u3]; omega

/-- A well-formed observation: two reachable levels, the balloon's own with a slow wind straight away from the
station and the one below with a fast wind straight towards it; 250 km from the station. -/
noncomputable def demoObs : List ℝ := (List.range 1099).map fun i =>
  if i = 7 then 1 / 2 else if i < 16 then 0
  else if i = 16 + 3 * 180 ∨ i = 16 + 3 * 181 then 0
  else if i = 16 + 3 * 180 + 1 then 1 else if i = 16 + 3 * 181 + 1 then 0
  else if i = 16 + 3 * 180 + 2 ∨ i = 16 + 3 * 181 + 2 then 1 / 2
  else if i % 3 = 1 then 0 else 1

theorem demoObs_get (i : ℕ) (hi : i < 1099) : demoObs.getD i 0 = 
  if i = 7 then 1 / 2 else if i < 16 then 0
  else if i = 16 + 3 * 180 ∨ i = 16 + 3 * 181 then 0
  else if i = 16 + 3 * 180 + 1 then 1 else if i = 16 + 3 * 181 + 1 then 0
  else if i = 16 + 3 * 180 + 2 ∨ i = 16 + 3 * 181 + 2 then 1 / 2
  else if i % 3 = 1 then 0 else (1 : ℝ) := by
  unfold demoObs
  rw [List.getD, List.getElem?_map, List.getElem?_range hi]
  rfl

theorem demoObs_reachable (j : ℕ) : Spec.Reachable demoObs j ↔ j = 180 ∨ j = 181 := by
  unfold Spec.Reachable Spec.unc Spec.bearing Spec.mag
  constructor
  · rintro ⟨h1, h2⟩
    by_contra hc
    push Not at hc
    apply h2
    rw [demoObs_get _ (by omega), demoObs_get _ (by omega), demoObs_get _ (by omega)]
    refine ⟨?_, ?_, ?_⟩
    · rw [if_neg (by omega), if_neg (by omega), if_neg (by omega), if_neg (by omega), if_neg (by omega),
        if_neg (by omega), if_pos (by omega)]
    · rw [if_neg (by omega), if_neg (by omega), if_neg (by omega), if_neg (by omega), if_neg (by omega),
        if_neg (by omega), if_neg (by omega)]
    · rw [if_neg (by omega), if_neg (by omega), if_neg (by omega), if_neg (by omega), if_neg (by omega),
        if_neg (by omega), if_neg (by omega)]
  · rintro (rfl | rfl)
    · refine ⟨by norm_num, ?_⟩
      rw [demoObs_get _ (by norm_num), demoObs_get _ (by norm_num), demoObs_get _ (by norm_num)]
      norm_num
    · refine ⟨by norm_num, ?_⟩
      rw [demoObs_get _ (by norm_num), demoObs_get _ (by norm_num), demoObs_get _ (by norm_num)]
      norm_num

theorem demoObs_wellFormed : Spec.WellFormed demoObs := by
  refine ⟨by simp [demoObs], ?_, fun j hj => ?_⟩
  · rw [demoObs_get 7 (by norm_num)]; norm_num
  · unfold Spec.unc Spec.bearing Spec.mag
    rcases (demoObs_reachable j).1 hj with rfl | rfl
    · rw [demoObs_get _ (by norm_num), demoObs_get _ (by norm_num), demoObs_get _ (by norm_num)]
      norm_num
    · rw [demoObs_get _ (by norm_num), demoObs_get _ (by norm_num), demoObs_get _ (by norm_num)]
      norm_num

/-- On it StationSeeker answers. -/
example : ∃ a, stationSeek demoObs = .ok a ∧ (a = 0 ∨ a = 1) := by
  obtain ⟨N, l, sc, -, -, hre, -, a, ha, h2, h1, h0⟩ :=
    C61_best demoObs demoObs_wellFormed 180 ((demoObs_reachable 180).2 (Or.inl rfl))
  refine ⟨a, ha, ?_⟩
  rcases (demoObs_reachable l).1 hre with rfl | rfl
  · exact Or.inr (h1.2 rfl)
  · exact Or.inl (h0.2 (by norm_num))

/-! ## C89, C90 — learning agents -/

/-- A successful episode so far: observation at the start, then rewards and observations, and the actions
returned. -/
inductive Spec.Episode (A : Agent S) (s : S) (o : List ℝ) : List (ℝ × List ℝ) → S → List ℤ → Prop
  | start {s' : S} {a : ℤ} : A.beginEpisode s o = (s', .ok a) → Spec.Episode A s o [] s' [a]
  | next {xs : List (ℝ × List ℝ)} {s1 s2 : S} {as : List ℤ} {r : ℝ} {o' : List ℝ} {a : ℤ} :
      Spec.Episode A s o xs s1 as → A.step s1 r o' = (s2, .ok a) → Spec.Episode A s o (xs ++ [(r, o')]) s2 (as ++ [a])

theorem episode_length {A : Agent S} {s s' : S} {o : List ℝ} {xs : List (ℝ × List ℝ)} {as : List ℤ}
    (h : Spec.Episode A s o xs s' as) : as.length = xs.length + 1 := by
  induction h with
  | start _ => rfl
  | next _ _ ih => simp [ih]

/-- The observations of an episode in order. -/
def Spec.obsOf (o : List ℝ) (xs : List (ℝ × List ℝ)) (i : ℕ) : List ℝ := (o :: xs.map (·.2)).getD i []

/-- C89. In training mode the `i`-th step makes exactly one update, from the transition (previous observation,
action returned for it, reward, observation, action returned now), with the parameters produced by the previous
update; every action is the greedy one for the parameters before that update. -/
theorem C89_updates {P O : Type} (act : P → List ℝ → ℤ) (learn : P → O → List ℝ → ℤ → ℝ → List ℝ → ℤ → P × O)
    (s s' : Mlp P O) (ht : s.train = true) (o : List ℝ) (xs : List (ℝ × List ℝ)) (as : List ℤ)
    (h : Spec.Episode (mlpAgent act learn) s o xs s' as) :
    ∃ θ : ℕ → P × O, θ 0 = (s.params, s.opt) ∧ θ xs.length = (s'.params, s'.opt) ∧
      as.getD 0 0 = act s.params o ∧
      ∀ i, i < xs.length →
        θ (i + 1) = learn (θ i).1 (θ i).2 (Spec.obsOf o xs i) (as.getD i 0) (xs.getD i (0, [])).1
          (Spec.obsOf o xs (i + 1)) (as.getD (i + 1) 0) ∧
        as.getD (i + 1) 0 = act (θ i).1 (Spec.obsOf o xs (i + 1)) := by
  suffices hs : (∃ θ : ℕ → P × O, θ 0 = (s.params, s.opt) ∧ θ xs.length = (s'.params, s'.opt) ∧
      as.getD 0 0 = act s.params o ∧
      ∀ i, i < xs.length →
        θ (i + 1) = learn (θ i).1 (θ i).2 (Spec.obsOf o xs i) (as.getD i 0) (xs.getD i (0, [])).1
          (Spec.obsOf o xs (i + 1)) (as.getD (i + 1) 0) ∧
        as.getD (i + 1) 0 = act (θ i).1 (Spec.obsOf o xs (i + 1))) ∧ s'.train = true ∧
      s'.last = some (Spec.obsOf o xs xs.length, as.getD xs.length 0) from hs.1
  induction h with
  | @start s1 a hb =>
    simp only [mlpAgent, Prod.mk.injEq, Except.ok.injEq] at hb
    obtain ⟨rfl, rfl⟩ := hb
    refine ⟨⟨fun _ => (s.params, s.opt), rfl, rfl, rfl, fun i hi => absurd hi (Nat.not_lt_zero _)⟩, ht, rfl⟩
  | @next xs s1 s2 as r o' a he hstep ih =>
    obtain ⟨⟨θ, h0, hn, ha0, hi⟩, htr, hlast⟩ := ih
    have hlen := episode_length he
    simp only [mlpAgent, htr, if_true, hlast, Prod.mk.injEq, Except.ok.injEq] at hstep
    obtain ⟨rfl, rfl⟩ := hstep
    have g1 : ∀ j, j < as.length → (as ++ [act s1.params o']).getD j 0 = as.getD j 0 := fun j hj => by
      simp [List.getD, List.getElem?_append_left hj]
    have g2 : (as ++ [act s1.params o']).getD as.length 0 = act s1.params o' := by simp [List.getD]
    have g3 : ∀ j, j < xs.length + 1 → Spec.obsOf o (xs ++ [(r, o')]) j = Spec.obsOf o xs j := fun j hj => by
      unfold Spec.obsOf
      rw [List.map_append, ← List.cons_append]
      simp only [List.getD]
      rw [List.getElem?_append_left (by simpa using hj)]
    have g4 : Spec.obsOf o (xs ++ [(r, o')]) (xs.length + 1) = o' := by
      simp [Spec.obsOf, List.getD]
    have g5 : ∀ j, j < xs.length → (xs ++ [(r, o')]).getD j (0, []) = xs.getD j (0, []) := fun j hj => by
      simp [List.getD, List.getElem?_append_left hj]
    have g6 : (xs ++ [(r, o')]).getD xs.length (0, []) = (r, o') := by simp [List.getD]
    refine ⟨⟨fun i => if i ≤ xs.length then θ i else
      learn s1.params s1.opt (Spec.obsOf o xs xs.length) (as.getD xs.length 0) r o' (act s1.params o'), ?_, ?_, ?_, ?_⟩, rfl, ?_⟩
    · simpa using h0
    · simp
    · rw [g1 0 (by omega)]; exact ha0
    · intro i hil
      rw [List.length_append, List.length_singleton] at hil
      rcases Nat.lt_succ_iff_lt_or_eq.1 hil with hil | rfl
      · obtain ⟨u1, u2⟩ := hi i hil
        simp only [if_pos (show i ≤ xs.length by omega), if_pos (show i + 1 ≤ xs.length by omega)]
        rw [g1 i (by omega), g1 (i + 1) (by omega), g3 i (by omega), g3 (i + 1) (by omega), g5 i hil]
        exact ⟨u1, u2⟩
      · simp only [le_refl, if_true, if_neg (show ¬ xs.length + 1 ≤ xs.length by omega), hn]
        rw [g1 _ (by omega), g3 _ (by omega), g4, g6, ← hlen, g2]
        exact ⟨rfl, rfl⟩
    · rw [List.length_append, List.length_singleton, g4, ← hlen, g2]

/-- C89. In evaluation mode nothing is learned and every action is the greedy one for the fixed parameters. -/
theorem C89_eval_frozen {P O : Type} (act : P → List ℝ → ℤ) (learn : P → O → List ℝ → ℤ → ℝ → List ℝ → ℤ → P × O)
    (s s' : Mlp P O) (o : List ℝ) (xs : List (ℝ × List ℝ)) (as : List ℤ)
    (h : Spec.Episode (mlpAgent act learn) (s.setMode false) o xs s' as) :
    s'.params = s.params ∧ s'.opt = s.opt ∧ as = (o :: xs.map (·.2)).map (act s.params) := by
  suffices hs : (s'.params = s.params ∧ s'.opt = s.opt ∧ as = (o :: xs.map (·.2)).map (act s.params)) ∧ s'.train = false
    from hs.1
  induction h with
  | start hb =>
    simp only [mlpAgent, Prod.mk.injEq, Except.ok.injEq] at hb
    obtain ⟨rfl, rfl⟩ := hb
    exact ⟨⟨rfl, rfl, rfl⟩, rfl⟩
  | next he hstep ih =>
    obtain ⟨⟨h1, h2, h3⟩, h4⟩ := ih
    simp only [mlpAgent, h4, Bool.false_eq_true, if_false, Prod.mk.injEq, Except.ok.injEq] at hstep
    obtain ⟨rfl, rfl⟩ := hstep
    refine ⟨⟨h1, h2, ?_⟩, rfl⟩
    rw [h3, h1]
    simp

/-- C89. The reward given at the end of an episode is not used: the agent is the same whatever it is. -/
theorem C89_last_reward_unused {P O : Type} (act : P → List ℝ → ℤ)
    (learn : P → O → List ℝ → ℤ → ℝ → List ℝ → ℤ → P × O) (s : Mlp P O) (r r' : ℝ) (t t' : Bool) :
    (mlpAgent act learn).endEpisode s r t = (mlpAgent act learn).endEpisode s r' t' := rfl

/-- An episode of two steps with an agent whose parameter counts its updates. -/
example : Spec.Episode (mlpAgent (fun (p : ℕ) _ => (p : ℤ)) (fun p o _ _ _ _ _ => (p + 1, o)))
    (⟨0, (), true, none⟩ : Mlp ℕ Unit) [0] [(1, [1]), (1, [2])] ⟨2, (), true, some ([2], 1)⟩ [0, 0, 1] :=
  .next (.next (.start rfl) rfl) rfl

/-- C90. Without an exploration wrapper the agent flies what the Dopamine agent decides, in training as in evaluation. -/
theorem C90_no_exploration {D : Type} (cb : D → List ℝ → D × Except Err ℤ) (cs : D → ℤ → ℝ → List ℝ → D × Except Err ℤ)
    (ce : D → ℤ → ℝ → Bool → D) (s : Quantile D Unit) (r : ℝ) (o : List ℝ) :
    ((quantileAgent cb cs ce noExploration).beginEpisode s o).2 = (cb s.core o).2 ∧
    ((quantileAgent cb cs ce noExploration).step s r o).2 = (cs s.core s.action r o).2 := by
  constructor
  · rcases h : (cb s.core o).2 with e | a
    · simp only [quantileAgent, h]
    · by_cases he : s.eval = true <;> simp [quantileAgent, noExploration, h, he]
  · rcases h : (cs s.core s.action r o).2 with e | a
    · simp only [quantileAgent, h]
    · by_cases he : s.eval = true <;> simp [quantileAgent, noExploration, h, he]

/-- C90. Whatever the exploration wrapper does, the action that the Dopamine agent stores with the `i`-th
reward is the action that was returned to the environment before it; and the wrapper is not consulted in
evaluation mode. -/
theorem C90_stored_actions {D X : Type} (cb : D → List ℝ → D × Except Err ℤ)
    (cs : D → ℤ → ℝ → List ℝ → D × Except Err ℤ) (ce : D → ℤ → ℝ → Bool → D) (E : Explorer X)
    (s s' : Quantile D X) (o : List ℝ) (xs : List (ℝ × List ℝ)) (as : List ℤ)
    (h : Spec.Episode (quantileAgent cb cs ce E) s o xs s' as) (r : ℝ) (t : Bool) :
    s'.core = (as.zip xs).foldl (fun c x => (cs c x.1 x.2.1 x.2.2).1) (cb s.core o).1 ∧
    as.getLast? = some s'.action ∧ s'.eval = s.eval ∧
    ((quantileAgent cb cs ce E).endEpisode s' r t).core = ce s'.core (as.getLastD 0) r t ∧
    (s.eval = true → s'.explorer = s.explorer) := by
  suffices hs : s'.core = (as.zip xs).foldl (fun c x => (cs c x.1 x.2.1 x.2.2).1) (cb s.core o).1 ∧
    as.getLast? = some s'.action ∧ s'.eval = s.eval ∧ (s.eval = true → s'.explorer = s.explorer) by
    obtain ⟨h1, h2, h3, h4⟩ := hs
    refine ⟨h1, h2, h3, ?_, h4⟩
    have : as.getLastD 0 = s'.action := by
      rw [List.getLastD_eq_getLast?, h2]
      rfl
    rw [this]
    rfl
  induction h with
  | @start s1 a hb =>
    simp only [quantileAgent] at hb
    rcases hc : (cb s.core o).2 with e | b
    · rw [hc] at hb; cases hb
    rw [hc] at hb
    simp only at hb
    split_ifs at hb with he
    · simp only [Prod.mk.injEq, Except.ok.injEq] at hb
      obtain ⟨rfl, rfl⟩ := hb
      exact ⟨rfl, rfl, rfl, fun _ => rfl⟩
    · rcases hx : (E.beginEpisode s.explorer o b).2 with e | c
      · rw [hx] at hb; cases hb
      · rw [hx] at hb
        simp only [Prod.mk.injEq, Except.ok.injEq] at hb
        obtain ⟨rfl, rfl⟩ := hb
        exact ⟨rfl, rfl, rfl, fun hc => absurd hc he⟩
  | @next xs s1 s2 as r o' a hep hstep ih =>
    obtain ⟨h1, h2, h3, h4⟩ := ih
    have hlen := episode_length hep
    have hz : ((as ++ [a]).zip (xs ++ [(r, o')])) = as.zip xs ++ [(s1.action, (r, o'))] := by
      obtain ⟨ys, hys⟩ := List.getLast?_eq_some_iff.1 h2
      rw [hys] at hlen ⊢
      have hyl : ys.length = xs.length := by simpa using hlen
      have e1 : (ys ++ [s1.action]).zip xs = ys.zip xs := by
        have := List.zip_append (l₁ := ys) (l₂ := xs) (r₁ := [s1.action]) (r₂ := []) hyl
        simpa using this
      rw [e1, List.append_assoc, List.zip_append hyl]
      rfl
    rw [hz, List.foldl_append, ← h1]
    simp only [quantileAgent] at hstep
    rcases hc : (cs s1.core s1.action r o').2 with e | b
    · rw [hc] at hstep; cases hstep
    rw [hc] at hstep
    simp only at hstep
    split_ifs at hstep with he
    · simp only [Prod.mk.injEq, Except.ok.injEq] at hstep
      obtain ⟨rfl, rfl⟩ := hstep
      exact ⟨rfl, by simp, h3, h4⟩
    · rcases hx : (E.step s1.explorer r o' b).2 with e | c
      · rw [hx] at hstep; cases hstep
      · rw [hx] at hstep
        simp only [Prod.mk.injEq, Except.ok.injEq] at hstep
        obtain ⟨rfl, rfl⟩ := hstep
        exact ⟨rfl, by simp, h3, fun hc => absurd (h3.trans hc) he⟩

/-- A Dopamine stand-in that logs the actions it is given, wrapped by an explorer that always answers 2. -/
example : Spec.Episode (quantileAgent (fun d _ => (d, .ok 0)) (fun d a _ _ => (d ++ [a], .ok 1)) (fun d _ _ _ => d)
    (⟨fun x _ _ => (x, .ok 2), fun x _ _ _ => (x, .ok 2)⟩ : Explorer Unit))
    (⟨[], (), 0, false⟩ : Quantile (List ℤ) Unit) [] [(0, []), (0, [])] ⟨[2, 2], (), 2, false⟩ [2, 2, 2] :=
  .next (.next (.start rfl) rfl) rfl

end BLE
