import Mathlib.Tactic.Linarith
import Mathlib.Tactic.Ring
import Mathlib.Tactic.FieldSimp
import Mathlib.Algebra.Order.BigOperators.Group.List
import Verif.Model.Dopamine

/-!
# C108, C109: training steps of the Dopamine agents (`agents/dqn_agent.py`, `agents/quantile_agent.py`)
-/

namespace BLE

variable {P O B : Type}

/-- Training step number `t` changes the online parameters. -/
def Spec.Learns (c : TrainCfg) (t addCount : ℤ) : Prop := c.minReplayHistory < addCount ∧ c.updatePeriod ∣ t
/-- Training step number `t` copies the online to the target parameters. -/
def Spec.Syncs (c : TrainCfg) (t addCount : ℤ) : Prop := c.minReplayHistory < addCount ∧ c.targetUpdatePeriod ∣ t

open Classical in
theorem trainStep_eq (c : TrainCfg) (hu : c.updatePeriod ≠ 0) (ht : c.targetUpdatePeriod ≠ 0)
    (learn : P → P → O → B → P × O) (s : Learner P O) (n : ℤ) (b : B) :
    s.trainStep c learn n b = .ok
      { online := if Spec.Learns c s.trainingSteps n then (learn s.online s.target s.opt b).1 else s.online
        target := if Spec.Syncs c s.trainingSteps n then
            (if Spec.Learns c s.trainingSteps n then (learn s.online s.target s.opt b).1 else s.online) else s.target
        opt := if Spec.Learns c s.trainingSteps n then (learn s.online s.target s.opt b).2 else s.opt
        trainingSteps := s.trainingSteps + 1 } := by
  unfold Learner.trainStep Spec.Learns Spec.Syncs pyMod
  simp only [if_neg hu, if_neg ht]
  have d1 : s.trainingSteps.fmod c.updatePeriod = 0 ↔ c.updatePeriod ∣ s.trainingSteps :=
    ⟨Int.dvd_of_fmod_eq_zero, Int.fmod_eq_zero_of_dvd⟩
  have d2 : s.trainingSteps.fmod c.targetUpdatePeriod = 0 ↔ c.targetUpdatePeriod ∣ s.trainingSteps :=
    ⟨Int.dvd_of_fmod_eq_zero, Int.fmod_eq_zero_of_dvd⟩
  by_cases h1 : c.minReplayHistory < n <;> by_cases h2 : c.updatePeriod ∣ s.trainingSteps <;>
    by_cases h3 : c.targetUpdatePeriod ∣ s.trainingSteps <;>
    simp [h1, h2, h3, d1, d2, bind, pure, Except.bind, Except.pure]

theorem trainSteps_append (c : TrainCfg) (learn : P → P → O → B → P × O) (s : Learner P O) (xs ys : List (ℤ × B)) :
    s.trainSteps c learn (xs ++ ys) = (s.trainSteps c learn xs).bind fun m => m.trainSteps c learn ys := by
  induction xs generalizing s with
  | nil => rfl
  | cons x xs ih =>
    simp only [List.cons_append, Learner.trainSteps, bind]
    cases h : s.trainStep c learn x.1 x.2 with
    | error e => rfl
    | ok m => simp only [Except.bind]; rw [ih]; rfl

theorem trainSteps_snoc (c : TrainCfg) (learn : P → P → O → B → P × O) (s : Learner P O) (xs : List (ℤ × B)) (x : ℤ × B) :
    s.trainSteps c learn (xs ++ [x]) = (s.trainSteps c learn xs).bind fun m => m.trainStep c learn x.1 x.2 := by
  rw [trainSteps_append]
  congr 1; funext m
  simp only [Learner.trainSteps, bind]
  cases m.trainStep c learn x.1 x.2 <;> rfl

/-- C108. With non-zero periods training never fails, whatever has been stored; the counter counts every step, also
while the replay buffer is filling. -/
theorem C108_total (c : TrainCfg) (hu : c.updatePeriod ≠ 0) (ht : c.targetUpdatePeriod ≠ 0)
    (learn : P → P → O → B → P × O) (s : Learner P O) (xs : List (ℤ × B)) :
    ∃ s', s.trainSteps c learn xs = .ok s' ∧ s'.trainingSteps = s.trainingSteps + xs.length := by
  induction xs using List.reverseRecOn with
  | nil => exact ⟨s, rfl, by simp⟩
  | append_singleton xs x ih =>
    obtain ⟨m, hm, e⟩ := ih
    rw [trainSteps_snoc, hm]
    simp only [Except.bind]
    rw [trainStep_eq c hu ht]
    exact ⟨_, rfl, by simp [e]; ring⟩

/-- C108. The target network is a snapshot: either no step so far was due for a copy and it is still the initial one,
or it is the online network as it was right after the last step that was due. -/
theorem C108_snapshot (c : TrainCfg) (hu : c.updatePeriod ≠ 0) (ht : c.targetUpdatePeriod ≠ 0)
    (learn : P → P → O → B → P × O) (s s' : Learner P O) (xs : List (ℤ × B)) (h : s.trainSteps c learn xs = .ok s') :
    ((∀ (i : ℕ) n b, xs[i]? = some (n, b) → ¬ Spec.Syncs c (s.trainingSteps + i) n) ∧ s'.target = s.target) ∨
    ∃ (k : ℕ) (n : ℤ) (b : B) (m : Learner P O), xs[k]? = some (n, b) ∧ Spec.Syncs c (s.trainingSteps + k) n ∧
      (∀ (i : ℕ) n b, k < i → xs[i]? = some (n, b) → ¬ Spec.Syncs c (s.trainingSteps + i) n) ∧
      s.trainSteps c learn (xs.take (k + 1)) = .ok m ∧ s'.target = m.online := by
  classical
  induction xs using List.reverseRecOn generalizing s' with
  | nil => left; cases h; simp
  | append_singleton xs x ih =>
    obtain ⟨m, hm, e⟩ := C108_total c hu ht learn s xs
    have hs' := h
    rw [trainSteps_snoc, hm] at h
    simp only [Except.bind] at h
    rw [trainStep_eq c hu ht] at h
    have h := Except.ok.inj h
    by_cases hsync : Spec.Syncs c m.trainingSteps x.1
    · right
      refine ⟨xs.length, x.1, x.2, s', by simp, by rwa [e] at hsync, ?_, ?_, ?_⟩
      · intro i n b hi hget
        rw [List.getElem?_eq_none (by simp; omega)] at hget
        cases hget
      · rw [List.take_of_length_le (by simp)]; exact hs'
      · rw [← h]; simp only [if_pos hsync]
    · have htgt : s'.target = m.target := by rw [← h]; simp only [if_neg hsync]
      rw [e] at hsync
      rcases ih m hm with ⟨h1, h2⟩ | ⟨k, n, b, m', g1, g2, g3, g4, g5⟩
      · left
        refine ⟨?_, by rw [htgt, h2]⟩
        intro i n b hget
        rcases Nat.lt_or_ge i xs.length with hi | hi
        · rw [List.getElem?_append_left hi] at hget; exact h1 i n b hget
        · rw [List.getElem?_append_right hi] at hget
          have hi0 : i - xs.length = 0 := by
            by_contra hne
            rw [List.getElem?_eq_none (by simp; omega)] at hget; cases hget
          rw [hi0] at hget
          have : x = (n, b) := by simpa using hget
          have hxi : i = xs.length := by omega
          rw [hxi]
          rw [this] at hsync; exact hsync
      · right
        have hk : k < xs.length := by
          by_contra hne
          rw [List.getElem?_eq_none (by omega)] at g1; cases g1
        refine ⟨k, n, b, m', by rw [List.getElem?_append_left hk]; exact g1, g2, ?_, ?_, by rw [htgt, g5]⟩
        · intro i n b hi hget
          rcases Nat.lt_or_ge i xs.length with hi' | hi'
          · rw [List.getElem?_append_left hi'] at hget; exact g3 i n b hi hget
          · rw [List.getElem?_append_right hi'] at hget
            have hi0 : i - xs.length = 0 := by
              by_contra hne
              rw [List.getElem?_eq_none (by simp; omega)] at hget; cases hget
            rw [hi0] at hget
            have : x = (n, b) := by simpa using hget
            have hxi : i = xs.length := by omega
            rw [hxi]
            rw [this] at hsync; exact hsync
        · rw [List.take_append_of_le_length (by omega)]; exact g4

/-- C108. Once the replay buffer has been full enough for a whole period, the target network is never older than that:
it is the online network of fewer than `target_update_period` steps ago. -/
theorem C108_fresh (c : TrainCfg) (hu : c.updatePeriod ≠ 0) (ht : 0 < c.targetUpdatePeriod)
    (learn : P → P → O → B → P × O) (s s' : Learner P O) (xs zs : List (ℤ × B)) (hz : c.targetUpdatePeriod ≤ zs.length)
    (hfull : ∀ z ∈ zs, c.minReplayHistory < z.1) (h : s.trainSteps c learn (xs ++ zs) = .ok s') :
    ∃ us vs m, xs ++ zs = us ++ vs ∧ (vs.length : ℤ) < c.targetUpdatePeriod ∧ s.trainSteps c learn us = .ok m ∧
      s'.target = m.online := by
  -- a step that is due among the last `target_update_period` ones
  set T := s.trainingSteps + (xs ++ zs).length with hT
  set d := (T - 1) % c.targetUpdatePeriod with hd
  have hd0 : 0 ≤ d := Int.emod_nonneg _ ht.ne'
  have hd1 : d < c.targetUpdatePeriod := Int.emod_lt_of_pos _ ht
  have hlen : (xs ++ zs).length = xs.length + zs.length := List.length_append
  let j : ℕ := (xs ++ zs).length - 1 - d.toNat
  have hj : (j : ℤ) = (xs ++ zs).length - 1 - d := by simp only [j]; omega
  have hjx : xs.length ≤ j := by omega
  have hjl : j < (xs ++ zs).length := by omega
  have hdvd : c.targetUpdatePeriod ∣ s.trainingSteps + j := by
    have : s.trainingSteps + j = (T - 1) - d := by rw [hj, hT]; ring
    rw [this, hd]
    exact Int.dvd_self_sub_emod
  have hdue : Spec.Syncs c (s.trainingSteps + j) ((xs ++ zs)[j]).1 := by
    refine ⟨hfull _ ?_, hdvd⟩
    rw [List.getElem_append_right hjx]
    exact List.getElem_mem _
  rcases C108_snapshot c hu ht.ne' learn s s' _ h with ⟨h1, -⟩ | ⟨k, n, b, m, g1, g2, g3, g4, g5⟩
  · exact absurd hdue (h1 j _ _ (by rw [List.getElem?_eq_getElem hjl]))
  · have hkj : j ≤ k := by
      by_contra hc
      exact g3 j _ _ (by omega) (by rw [List.getElem?_eq_getElem hjl]) hdue
    refine ⟨(xs ++ zs).take (k + 1), (xs ++ zs).drop (k + 1), m, (List.take_append_drop _ _).symm, ?_, g4, g5⟩
    rw [List.length_drop]
    omega

/-- C108. Optimiser steps are made exactly at the multiples of `update_period` at which the buffer holds more than
`min_replay_history` items (counted by an optimiser that counts). -/
theorem C108_count (c : TrainCfg) (hu : c.updatePeriod ≠ 0) (ht : c.targetUpdatePeriod ≠ 0)
    (learn : P → P → B → P) (s s' : Learner P ℕ) (xs : List (ℤ × B))
    (h : s.trainSteps c (fun p q o b => (learn p q b, o + 1)) xs = .ok s') :
    ∃ K : Finset ℕ, (∀ k, k ∈ K ↔ ∃ n b, xs[k]? = some (n, b) ∧ Spec.Learns c (s.trainingSteps + k) n) ∧
      s'.opt = s.opt + K.card ∧ (K = ∅ → s'.online = s.online) := by
  classical
  induction xs using List.reverseRecOn generalizing s' with
  | nil => cases h; exact ⟨∅, by simp⟩
  | append_singleton xs x ih =>
    obtain ⟨m, hm, e⟩ := C108_total c hu ht (fun p q o b => (learn p q b, o + 1)) s xs
    obtain ⟨K, k1, k2, k3⟩ := ih m hm
    rw [trainSteps_snoc, hm] at h
    simp only [Except.bind] at h
    rw [trainStep_eq c hu ht] at h
    have h := Except.ok.inj h
    have hlt : ∀ k ∈ K, k < xs.length := by
      intro k hk
      obtain ⟨n, b, g, -⟩ := (k1 k).1 hk
      by_contra hc
      rw [List.getElem?_eq_none (by omega)] at g; cases g
    have hold : ∀ k, k ≠ xs.length → ((∃ n b, (xs ++ [x])[k]? = some (n, b) ∧ Spec.Learns c (s.trainingSteps + k) n) ↔ k ∈ K) := by
      intro k hk
      rw [k1]
      rcases Nat.lt_or_ge k xs.length with hi | hi
      · rw [List.getElem?_append_left hi]
      · rw [List.getElem?_eq_none (by simp; omega), List.getElem?_eq_none (by omega)]
    by_cases hl : Spec.Learns c m.trainingSteps x.1
    · refine ⟨insert xs.length K, ?_, ?_, ?_⟩
      · intro k
        rw [Finset.mem_insert]
        by_cases hk : k = xs.length
        · subst hk
          refine ⟨fun _ => ⟨x.1, x.2, by simp, by rw [← e]; exact hl⟩, fun _ => .inl rfl⟩
        · rw [hold k hk]; simp [hk]
      · rw [Finset.card_insert_of_notMem fun hk => lt_irrefl _ (hlt _ hk), ← h]
        simp only [if_pos hl]
        omega
      · intro hK
        exact absurd hK (Finset.insert_ne_empty _ _)
    · refine ⟨K, ?_, ?_, ?_⟩
      · intro k
        by_cases hk : k = xs.length
        · subst hk
          refine ⟨fun hk => absurd (hlt _ hk) (lt_irrefl _), ?_⟩
          rintro ⟨n, b, g, g'⟩
          have : x = (n, b) := by simpa using g
          rw [this, e] at hl
          exact absurd g' hl
        · rw [hold k hk]
      · rw [← h]; simp only [if_neg hl]; exact k2
      · intro hK; rw [← h]; simp only [if_neg hl]; exact k3 hK

theorem card_multiples_of_four (N : ℕ) : ((Finset.range N).filter fun k => 4 ∣ k).card = (N + 3) / 4 := by
  induction N with
  | zero => rfl
  | succ N ih =>
    rw [Finset.range_add_one, Finset.filter_insert]
    split_ifs with h
    · rw [Finset.card_insert_of_notMem (by simp), ih]; omega
    · rw [ih]; omega

/-- C108 with the configuration shipped in `dqn.gin`, `quantile.gin` and `finetune_perciatelli.gin`. Training never fails; up to
the 500th stored item nothing is learnt; an agent trained for N steps with more items stored has made N / 4 optimiser steps,
rounded up; and after a hundred such steps its target network is the online network of fewer than 100 steps ago. -/
theorem C108_stock (learn : P → P → O → B → P × O) (s : Learner P O) (xs : List (ℤ × B)) :
    ∃ s', s.trainSteps .stock learn xs = .ok s' ∧ s'.trainingSteps = s.trainingSteps + xs.length ∧
      ((∀ x ∈ xs, x.1 ≤ 500) → s'.online = s.online ∧ s'.target = s.target) ∧
      (∀ us zs, xs = us ++ zs → 100 ≤ zs.length → (∀ z ∈ zs, 500 < z.1) → ∃ vs ws m, xs = vs ++ ws ∧ ws.length < 100 ∧
        s.trainSteps .stock learn vs = .ok m ∧ s'.target = m.online) ∧
      ∀ (step : P → P → B → P) (c c' : Learner P ℕ), c.trainingSteps = 0 → c.opt = 0 → (∀ x ∈ xs, 500 < x.1) →
        c.trainSteps .stock (fun p q o b => (step p q b, o + 1)) xs = .ok c' → c'.opt = (xs.length + 3) / 4 := by
  have hu : TrainCfg.stock.updatePeriod ≠ 0 := by decide
  have ht : TrainCfg.stock.targetUpdatePeriod ≠ 0 := by decide
  obtain ⟨s', hs', e⟩ := C108_total .stock hu ht learn s xs
  refine ⟨s', hs', e, fun hx => ?_, fun us zs hz hl hf => ?_, fun step c c' h0 h1 hx hc => ?_⟩
  · have key : ∀ (xs : List (ℤ × B)) (s s' : Learner P O), (∀ x ∈ xs, x.1 ≤ 500) → s.trainSteps .stock learn xs = .ok s' →
        s'.online = s.online ∧ s'.target = s.target := by
      intro xs
      induction xs with
      | nil => intro s s' _ h; cases h; exact ⟨rfl, rfl⟩
      | cons x xs ih =>
        intro s s' hx h
        have hx0 : ¬ x.1 > TrainCfg.stock.minReplayHistory := not_lt.2 (hx x (by simp))
        have e1 : s.trainStep .stock learn x.1 x.2 = .ok { s with trainingSteps := s.trainingSteps + 1 } := by
          unfold Learner.trainStep
          rw [if_neg hx0]
          rfl
        rw [Learner.trainSteps, e1] at h
        have h : Learner.trainSteps .stock learn { s with trainingSteps := s.trainingSteps + 1 } xs = .ok s' := h
        have k := ih _ s' (fun y hy => hx y (by simp [hy])) h
        exact k
    exact key xs s s' hx hs'
  · subst hz
    obtain ⟨vs, ws, m, g1, g2, g3, g4⟩ := C108_fresh .stock hu (by decide) learn s s' us zs (by
      show (100 : ℤ) ≤ _; exact_mod_cast hl) hf hs'
    exact ⟨vs, ws, m, g1, by have : (ws.length : ℤ) < 100 := g2
                             exact_mod_cast this, g3, g4⟩
  · obtain ⟨K, k1, k2, -⟩ := C108_count .stock hu ht step c c' xs hc
    rw [k2, h1, zero_add, ← card_multiples_of_four]
    congr 1
    ext k
    rw [k1, Finset.mem_filter, Finset.mem_range, h0, zero_add]
    unfold Spec.Learns
    constructor
    · rintro ⟨n, b, g, -, hd⟩
      have hk : k < xs.length := by
        by_contra hk
        rw [List.getElem?_eq_none (by omega)] at g
        cases g
      refine ⟨hk, ?_⟩
      have : (4 : ℤ) ∣ k := hd
      exact_mod_cast this
    · rintro ⟨hk, hd⟩
      refine ⟨(xs[k]).1, (xs[k]).2, List.getElem?_eq_getElem hk, hx _ (List.getElem_mem hk), ?_⟩
      show (4 : ℤ) ∣ k
      exact_mod_cast hd

/-- C108. A zero period goes unnoticed while the buffer is filling and ends training with `ZeroDivisionError` at the
first step after. -/
theorem C108_zero_period (c : TrainCfg) (h0 : c.updatePeriod = 0 ∨ c.targetUpdatePeriod = 0)
    (learn : P → P → O → B → P × O) (s : Learner P O) (n : ℤ) (b : B) :
    s.trainStep c learn n b = if n ≤ c.minReplayHistory then .ok { s with trainingSteps := s.trainingSteps + 1 }
      else .error .zeroDivision := by
  unfold Learner.trainStep pyMod
  by_cases hn : n ≤ c.minReplayHistory
  · rw [if_neg (not_lt.2 hn), if_pos hn]; rfl
  · rw [if_pos (not_le.1 hn), if_neg hn]
    by_cases hu : c.updatePeriod = 0
    · rw [if_pos hu]; rfl
    · simp only [if_neg hu, if_pos (h0.resolve_left hu)]; rfl

/-- A learner that counts, periods 2 and 4, more than one item needed: from step 0 with 1, 1, 2, 2, 2, 2, 2 items in the
buffer, steps 2, 4 and 6 learn, and the target network is the one after step 4. -/
example : ∃ s, (⟨0, 7, (), 0⟩ : Learner ℕ Unit).trainSteps ⟨1, 2, 4⟩ (fun p _ o (_ : Unit) => (p + 1, o))
    ([1, 1, 2, 2, 2, 2, 2].map fun n => (n, ())) = .ok s ∧ s.online = 3 ∧ s.target = 2 := by
  refine ⟨⟨3, 2, (), 7⟩, ?_, rfl, rfl⟩
  rfl

/-! ## Prioritised replay -/

/-- C109. A stored priority is never below 1e-5, however well a transition is predicted, and grows strictly with the
loss. -/
theorem C109_priority (l l' : ℝ) (h : 0 ≤ l) (hlt : l < l') : 1e-5 ≤ newPriority l ∧ newPriority l < newPriority l' := by
  unfold newPriority
  constructor
  · rw [Real.le_sqrt' (by norm_num)]; norm_num; linarith
  · exact Real.sqrt_lt_sqrt (by norm_num; linarith) (by linarith)

theorem rawWeight_pos {q : ℝ} (h : 0 ≤ q) : 0 < rawWeight q := by
  unfold rawWeight
  have : 0 < Real.sqrt (q + 1e-10) := Real.sqrt_pos.2 (by norm_num; linarith)
  positivity

theorem rawWeight_anti {q q' : ℝ} (h : 0 ≤ q) (hlt : q < q') : rawWeight q' < rawWeight q := by
  unfold rawWeight
  exact one_div_lt_one_div_of_lt (Real.sqrt_pos.2 (by norm_num; linarith))
    (Real.sqrt_lt_sqrt (by norm_num; linarith) (by linarith))

theorem foldl_max_spec (xs : List ℝ) (a : ℝ) :
    (xs.foldl max a = a ∨ xs.foldl max a ∈ xs) ∧ a ≤ xs.foldl max a ∧ ∀ x ∈ xs, x ≤ xs.foldl max a := by
  induction xs generalizing a with
  | nil => simp
  | cons x xs ih =>
    obtain ⟨h1, h2, h3⟩ := ih (max a x)
    refine ⟨?_, le_trans (le_max_left _ _) h2, ?_⟩
    · rcases h1 with h1 | h1
      · rw [List.foldl_cons, h1]
        rcases max_choice a x with h | h
        · exact .inl h
        · exact .inr (by rw [h]; exact List.mem_cons_self)
      · exact .inr (List.mem_cons_of_mem _ h1)
    · intro y hy
      rcases List.mem_cons.1 hy with rfl | hy
      · exact le_trans (le_max_right _ _) h2
      · exact h3 y hy

/-- C109. The logged losses are the losses times weights in (0, 1]; the transition that was least likely to be sampled
has weight 1, a likelier one has a smaller weight; so the logged mean is at most the plain mean, and is zero only if all
losses are. -/
theorem C109_weights (x : ℝ × ℝ) (xs : List (ℝ × ℝ)) (hp : ∀ y ∈ x :: xs, 0 ≤ y.1) (hl : ∀ y ∈ x :: xs, 0 ≤ y.2) :
    ∃ w : ℝ → ℝ, weightedLosses x xs = ((x :: xs).map fun y => w y.1 * y.2) ∧
      (∀ y ∈ x :: xs, 0 < w y.1 ∧ w y.1 ≤ 1) ∧
      (∀ y ∈ x :: xs, (∀ z ∈ x :: xs, y.1 ≤ z.1) → w y.1 = 1) ∧
      (∀ y ∈ x :: xs, ∀ z ∈ x :: xs, y.1 < z.1 → w z.1 < w y.1) ∧
      0 ≤ meanOf (weightedLosses x xs) ∧ meanOf (weightedLosses x xs) ≤ meanOf ((x :: xs).map (·.2)) ∧
      (meanOf (weightedLosses x xs) = 0 → ∀ y ∈ x :: xs, y.2 = 0) := by
  set top := (xs.map fun y => rawWeight y.1).foldl max (rawWeight x.1) with htop
  obtain ⟨t1, t2, t3⟩ := foldl_max_spec (xs.map fun y => rawWeight y.1) (rawWeight x.1)
  rw [← htop] at t1 t2 t3
  have htop0 : 0 < top := lt_of_lt_of_le (rawWeight_pos (hp x List.mem_cons_self)) t2
  have hle : ∀ y ∈ x :: xs, rawWeight y.1 ≤ top := by
    intro y hy
    rcases List.mem_cons.1 hy with rfl | hy
    · exact t2
    · exact t3 _ (List.mem_map.2 ⟨y, hy, rfl⟩)
  have hw : ∀ y ∈ x :: xs, 0 < rawWeight y.1 / top ∧ rawWeight y.1 / top ≤ 1 := fun y hy =>
    ⟨div_pos (rawWeight_pos (hp y hy)) htop0, (div_le_one htop0).2 (hle y hy)⟩
  have hnn : ∀ v ∈ weightedLosses x xs, 0 ≤ v := by
    intro v hv
    obtain ⟨y, hy, rfl⟩ := List.mem_map.1 hv
    exact mul_nonneg (hw y hy).1.le (hl y hy)
  have hlen : (weightedLosses x xs).length = (x :: xs).length := List.length_map _
  have hpos : (0 : ℝ) < (x :: xs).length := by exact_mod_cast Nat.succ_pos _
  refine ⟨fun q => rawWeight q / top, rfl, hw, ?_, ?_, ?_, ?_, ?_⟩
  · intro y hy hmin
    have hattained : ∃ z ∈ x :: xs, rawWeight z.1 = top := by
      rcases t1 with h | h
      · exact ⟨x, List.mem_cons_self, h.symm⟩
      · obtain ⟨z, hz, e⟩ := List.mem_map.1 h
        exact ⟨z, List.mem_cons_of_mem _ hz, e⟩
    obtain ⟨z, hz, e⟩ := hattained
    have : rawWeight y.1 = top := by
      refine le_antisymm (hle y hy) ?_
      rw [← e]
      rcases (hmin z hz).lt_or_eq with h | h
      · exact (rawWeight_anti (hp y hy) h).le
      · rw [h]
    simp only [this, div_self htop0.ne']
  · intro y hy z _ h
    exact div_lt_div_of_pos_right (rawWeight_anti (hp y hy) h) htop0
  · exact div_nonneg (List.sum_nonneg hnn) (Nat.cast_nonneg _)
  · unfold meanOf
    rw [hlen, List.length_map]
    refine div_le_div_of_nonneg_right ?_ hpos.le
    refine List.sum_le_sum fun y hy => ?_
    exact mul_le_of_le_one_left (hl y hy) (hw y hy).2
  · intro h y hy
    unfold meanOf at h
    rw [hlen, div_eq_zero_iff] at h
    have hsum : (weightedLosses x xs).sum = 0 := h.resolve_right hpos.ne'
    have h1 : rawWeight y.1 / top * y.2 ≤ 0 := by
      rw [← hsum]
      exact List.single_le_sum hnn _ (List.mem_map.2 ⟨y, hy, rfl⟩)
    have h2 := (hw y hy).1
    have h3 := hl y hy
    nlinarith

/-- Two transitions sampled with probabilities 0.25 and 0.75. -/
example : ∃ w : ℝ → ℝ, weightedLosses (0.25, 2) [(0.75, 4)] = [w 0.25 * 2, w 0.75 * 4] ∧ w 0.25 = 1 ∧ w 0.75 < 1 := by
  obtain ⟨w, h1, -, h3, h4, -⟩ := C109_weights (0.25, 2) [(0.75, 4)] (by simp; norm_num) (by simp)
  refine ⟨w, by simpa using h1, ?_, ?_⟩
  · exact h3 (0.25, 2) (by simp) (by simp; norm_num)
  · have e := h3 (0.25, 2) (by simp) (by simp; norm_num)
    have := h4 (0.25, 2) (by simp) (0.75, 4) (by simp) (by norm_num)
    linarith

end BLE
