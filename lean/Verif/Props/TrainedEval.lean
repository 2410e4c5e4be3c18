import Verif.Props.Checkpoint
import Verif.Props.Commands

/-!
# C147 — what is evaluated is what was trained
-/

namespace BLE

variable {Γ V S C U : Type}

/-! ## What a training leaves in the checkpoint directory -/

/-- Saving iteration `i` leaves the checkpoints alone that are not older than the duration, and removes the older ones. -/
theorem save_others (int : Name → Option ℤ) (hint : Spec.PyInt int) (bundle : S → Option U) (unbundle : S → U → S)
    (duration : Option ℤ) {i : ℕ} {d : CkptDir U} (h : Spec.Tidy i d) {s : S} {b : U} (hb : bundle s = some b) {j : ℕ}
    (hj : j ≠ i) :
    ((∀ k, duration = some k → (i : ℤ) - k ≤ j) → ((dopamineSaver int bundle unbundle duration).save i s d).1.lookup (ckptName j) =
      d.lookup (ckptName j)) ∧
    ((∃ k, duration = some k ∧ (j : ℤ) < i - k) → j < 100000 →
      ((dopamineSaver int bundle unbundle duration).save i s d).1.lookup (ckptName j) = none) ∧
    (d.lookup (ckptName j) = none → ((dopamineSaver int bundle unbundle duration).save i s d).1.lookup (ckptName j) = none) := by
  have hne : ckptName j ≠ ckptName i := fun e => hj (ckptName_inj e)
  have hput : (d.put (ckptName i) (some b)).lookup (ckptName j) = d.lookup (ckptName j) := by
    unfold CkptDir.put
    have hb' : (ckptName j == ckptName i) = false := by simp [hne]
    rw [List.lookup_cons, hb']
    exact lookup_filter (fun f => by simp [hne])
  simp only [dopamineSaver, saveCkpt, hb, Int.toNat_natCast]
  cases duration with
  | none => exact ⟨fun _ => hput, fun h => by simp at h, fun h => by rw [hput, h]⟩
  | some k =>
    have ht := tidy_put h (some b)
    have hname : ∀ n ∈ (d.put (ckptName i) (some b)).map (·.1), isCkptName n = true → ∃ k, n = ckptName k := by
      intro n hn hc
      obtain ⟨x, hx, rfl⟩ := List.mem_map.1 hn
      obtain ⟨k, _, e⟩ := ht x hx ((ckptGlob_iff _).1 (isCkptName_glob hc))
      exact ⟨k, e⟩
    classical
    have hc := cleanUp_eq (U := U) int i k (fun n => decide (isCkptName n = true ∧ ∃ j, ckptIteration int n = .ok j ∧ j < i - k))
      ((d.put (ckptName i) (some b)).map (·.1))
      (fun n hn hc => by obtain ⟨k, rfl⟩ := hname n hn hc; exact ⟨_, (C67_names int hint k).1⟩) (fun n _ => by simp)
      (d.put (ckptName i) (some b))
    simp only [hc]
    refine ⟨fun hk => ?_, fun ⟨k', hk', hlt⟩ h5 => ?_, fun hn => ?_⟩
    · rw [lookup_filter, hput]
      intro f
      simp only [Bool.not_eq_true', Bool.and_eq_false_iff, decide_eq_false_iff_not, not_and, not_exists]
      right
      intro _ m hm
      rw [(C67_names int hint j).1] at hm
      cases hm
      have := hk k rfl
      omega
    · cases hk'
      rw [List.lookup_eq_none_iff]
      intro x hx
      rw [List.mem_filter] at hx
      obtain ⟨hx1, hx2⟩ := hx
      rw [bne_iff_ne]
      intro e
      rw [← e] at hx2
      have hc1 : ((d.put (ckptName i) (some b)).map (·.1)).contains (ckptName j) = true := by
        rw [List.contains_iff_mem, e]
        exact List.mem_map_of_mem hx1
      have : isCkptName (ckptName j) = true := (isCkptName_ckptName j).2 h5
      simp only [hc1, this, true_and, (C67_names int hint j).1, Bool.true_and, Bool.not_eq_true', decide_eq_false_iff_not] at hx2
      exact hx2 ⟨_, rfl, hlt⟩
    · rw [List.lookup_eq_none_iff]
      intro x hx
      rw [← hput, List.lookup_eq_none_iff] at hn
      exact hn x (List.mem_filter.1 hx).1

/-- The checkpoints after `n` further iterations. -/
theorem runIterations_left (G : GymEnv V) (A : Agent S) (on : Collectors C) (int : Name → Option ℤ) (hint : Spec.PyInt int)
    (bundle : S → Option U) (unbundle : S → U → S) (duration : Option ℤ) (hdur : ∀ k, duration = some k → 0 ≤ k)
    (hb : ∀ s, bundle s ≠ none) (maxLen period episodes : ℤ) (n : ℕ) :
    ∀ (i : ℕ) (x x' : Run V S C) (d d' : CkptDir U), Spec.Tidy i d →
    runIterations G A (dopamineSaver int bundle unbundle duration) on maxLen period episodes n i x d = (x', d', .ok ()) →
    (∀ j < i, (∀ k, duration = some k → (i + n : ℤ) - 1 - k ≤ j) → d'.lookup (ckptName j) = d.lookup (ckptName j)) ∧
    (∀ j < i, d.lookup (ckptName j) = none → d'.lookup (ckptName j) = none) ∧
    (∀ j < n, (∀ k, duration = some k → (n : ℤ) - 1 - k ≤ j) → ∃ b,
      bundle (runIterations G A (dopamineSaver int bundle unbundle duration) on maxLen period episodes (j + 1) i x d).1.agent = some b ∧
      d'.lookup (ckptName (i + j)) = some (some b)) ∧
    ∀ j < i + n, 0 < n → (∃ k, duration = some k ∧ (j : ℤ) < (i + n : ℤ) - 1 - k) → j < 100000 → d'.lookup (ckptName j) = none := by
  induction n with
  | zero =>
    intro i x x' d d' _ h
    simp only [runIterations, Prod.mk.injEq, and_true] at h
    obtain ⟨_, rfl⟩ := h
    exact ⟨fun _ _ _ => rfl, fun _ _ h => h, fun j hj => by omega, fun _ _ h => by omega⟩
  | succ n ih =>
    intro i x x' d d' hd h
    rw [runIterations] at h
    simp only at h
    rcases hr : runEpisodes G A on maxLen period episodes.toNat x with ⟨x1, _ | ⟨⟩⟩
    · rw [hr] at h; simp at h
    rw [hr] at h
    simp only at h
    obtain ⟨b, hbb⟩ := Option.ne_none_iff_exists'.1 (hb x1.agent)
    obtain ⟨d1, h1, h2, h3⟩ := save_tidy int hint bundle unbundle duration hdur hd hbb
    have hso := fun j hj => save_others int hint bundle unbundle duration hd hbb (j := j) hj
    rw [h1] at h
    simp only [h1] at hso
    simp only at h
    have e : ((i : ℤ) + 1) = ((i + 1 : ℕ) : ℤ) := by push_cast; rfl
    rw [e] at h
    obtain ⟨g1, g2, g3, g4⟩ := ih (i + 1) x1 x' d1 d' h2 h
    refine ⟨fun j hj hk => ?_, fun j hj hn => ?_, fun j hj hk => ?_, fun j hj _ hk h5 => ?_⟩
    · rw [g1 j (by omega) (fun k hk' => by have := hk k hk'; push_cast at this ⊢; omega)]
      exact (hso j (by omega)).1 (fun k hk' => by have := hk k hk'; push_cast at this ⊢; omega)
    · exact g2 j (by omega) ((hso j (by omega)).2.2 hn)
    · rcases j with _ | j
      · refine ⟨b, ?_, ?_⟩
        · simp only [runIterations, hr, h1]
          exact hbb
        · rw [Nat.add_zero, g1 i (by omega) (fun k hk' => by have := hk k hk'; push_cast at this ⊢; omega), h3]
      · obtain ⟨b', q1, q2⟩ := g3 j (by omega) (fun k hk' => by have := hk k hk'; push_cast at this ⊢; omega)
        refine ⟨b', ?_, ?_⟩
        · rw [runIterations]
          simp only [hr, h1]
          rw [e]
          exact q1
        · rw [show i + (j + 1) = i + 1 + j by omega]
          exact q2
    · rcases n with _ | n
      · obtain ⟨k, hk1, hk2⟩ := hk
        have := hdur k hk1
        refine g2 j (by push_cast at hk2; omega) ((hso j (by push_cast at hk2; omega)).2.1 ⟨k, hk1, ?_⟩ h5)
        push_cast at hk2
        omega
      · refine g4 j (by omega) (by omega) ?_ h5
        obtain ⟨k, hk1, hk2⟩ := hk
        exact ⟨k, hk1, by push_cast at hk2 ⊢; omega⟩

/-- A completed training is a prefix of no other: training for fewer iterations goes through the same states. -/
theorem runTraining_parts (G : GymEnv V) (A : Agent S) {D : Type} (Z : Saver S D) (on : Collectors C) (mk : ℤ → List C)
    (maxLen period episodes : ℤ) (v : V) (s s1 : S) (d : D) (i : ℕ) (hi : Z.reload d s = (s1, .ok ((i : ℤ) - 1)))
    (N : ℕ) (x : Run V S C) (d' : D)
    (h : runTraining G A Z on mk maxLen period episodes N v s d = (x, d', .ok ())) :
    ∃ y : Run V S C, (∃ z, runIterations G A Z on maxLen period episodes (N - i) i y d = (z, d', .ok ())) ∧
      ∀ n : ℕ, (runTraining G A Z on mk maxLen period episodes n v s d).1.agent =
        (runIterations G A Z on maxLen period episodes (n - i) i y d).1.agent := by
  have e : max ((i : ℤ) - 1 + 1) 0 = i := by omega
  have en : ∀ n : ℕ, ((n : ℤ) - i).toNat = n - i := by intro n; omega
  unfold runTraining at h ⊢
  simp only [hi, Run.send, e, en] at h ⊢
  rcases hp : dispatch on .preTraining (mk (i * episodes)) with ⟨cs, _ | ⟨⟩⟩
  · rw [hp] at h; simp at h
  rw [hp] at h
  simp only at h ⊢
  refine ⟨{ env := v, agent := A.setMode s1 true, cols := cs }, ?_, fun n => ?_⟩
  · rcases hr : runIterations G A Z on maxLen period episodes (N - i) i
      { env := v, agent := A.setMode s1 true, cols := cs } d with ⟨x2, d2, _ | ⟨⟩⟩
    · rw [hr] at h; simp at h
    · rw [hr] at h
      simp only [Prod.mk.injEq] at h
      exact ⟨x2, by rw [h.2.1]⟩
  · rcases hr : runIterations G A Z on maxLen period episodes (n - i) i
      { env := v, agent := A.setMode s1 true, cols := cs } d with ⟨x2, d2, _ | ⟨⟩⟩ <;> rfl

/-- C147. What the checkpoint `k` of a training contains: after a training of `N` iterations with any Dopamine agent, begun at
iteration `i` (0 in an empty directory), each checkpoint that is not older than the configured duration holds the agent a training
of only `k + 1` iterations would have ended with. So loading it restores that agent into a newly made one. -/
theorem C147_checkpoint (G : GymEnv V) (A : Agent S) (on : Collectors C) (int : Name → Option ℤ) (hint : Spec.PyInt int)
    (bundle : S → Option U) (unbundle : S → U → S) (duration : Option ℤ) (hdur : ∀ k, duration = some k → 0 ≤ k)
    (hb : ∀ s, bundle s ≠ none) (mk : ℤ → List C) (maxLen period episodes : ℤ) (v : V) (s s1 : S) (d : CkptDir U) (i : ℕ)
    (hd : Spec.Tidy i d) (hi : (dopamineSaver int bundle unbundle duration).reload d s = (s1, .ok ((i : ℤ) - 1)))
    (N : ℕ) (x : Run V S C) (d' : CkptDir U)
    (h : runTraining G A (dopamineSaver int bundle unbundle duration) on mk maxLen period episodes N v s d = (x, d', .ok ()))
    (k : ℕ) (h1 : i ≤ k) (h2 : k < N) (hk : ∀ t, duration = some t → (N : ℤ) - 1 - t ≤ k) :
    ∃ b, bundle (runTraining G A (dopamineSaver int bundle unbundle duration) on mk maxLen period episodes (k + 1 : ℕ) v s d).1.agent
        = some b ∧ ∀ new, dopamineLoad unbundle d' k new = .ok (unbundle new b) := by
  obtain ⟨y, ⟨z, hz⟩, hy⟩ := runTraining_parts G A _ on mk maxLen period episodes v s s1 d i hi N x d' h
  obtain ⟨-, -, h3, -⟩ := runIterations_left G A on int hint bundle unbundle duration hdur hb maxLen period episodes (N - i) i y z d d'
    hd hz
  obtain ⟨b, g1, g2⟩ := h3 (k - i) (by omega) (fun t ht => by have := hk t ht; omega)
  rw [hy (k + 1), show k + 1 - i = k - i + 1 by omega]
  refine ⟨b, g1, fun new => ?_⟩
  rw [show i + (k - i) = k by omega] at g2
  simp [dopamineLoad, loadCkpt, g2, Except.map]

/-! ## Evaluating it -/

theorem evalLoop_alike {A : Agent S} {R : S → S → Prop} (hA : Spec.Frozen A R) (G : GymEnv V) (period : ℤ) (paths : Bool)
    (n : ℕ) : ∀ (v : V) (s s' : S) (a : ℤ) (k : Acc), R s s' →
      (evalLoop G A period paths n v s a k).1 = (evalLoop G A period paths n v s' a k).1 ∧
      (evalLoop G A period paths n v s a k).2.2 = (evalLoop G A period paths n v s' a k).2.2 ∧
      R (evalLoop G A period paths n v s a k).2.1 (evalLoop G A period paths n v s' a k).2.1 := by
  induction n with
  | zero => intro v s s' a k h; exact ⟨rfl, rfl, h⟩
  | succ n ih =>
    intro v s s' a k h
    rw [evalLoop, evalLoop]
    simp only
    rcases hr : G.step a v with ⟨v1, _ | out⟩
    · exact ⟨rfl, rfl, h⟩
    simp only
    obtain ⟨e1, -⟩ := hA.step_ s s' out.reward out.obs h
    have e2 := hA.step2 s s' out.reward out.obs h
    rw [← e1]
    rcases hq : (A.step s out.reward out.obs).2 with _ | a'
    · exact ⟨rfl, rfl, e2⟩
    simp only
    rcases G.balloon v1 with _ | b
    · exact ⟨rfl, rfl, e2⟩
    simp only
    split
    · exact ⟨rfl, rfl, e2⟩
    · split
      · exact ⟨rfl, rfl, e2⟩
      · exact ih _ _ _ _ _ e2

theorem evalFlights_alike {A : Agent S} {R : S → S → Prop} (hA : Spec.Frozen A R) (G : GymEnv V) (maxLen period : ℤ)
    (paths : Bool) (seeds : List ℤ) : ∀ (v : V) (s s' : S), R s s' →
      (evalFlights G A maxLen period paths seeds v s).2.2 = (evalFlights G A maxLen period paths seeds v s').2.2 := by
  induction seeds with
  | nil => intro v s s' _; rfl
  | cons seed seeds ih =>
    intro v s s' h
    have key : (evalFlight G A maxLen period paths seed v s).1 = (evalFlight G A maxLen period paths seed v s').1 ∧
        (evalFlight G A maxLen period paths seed v s).2.2 = (evalFlight G A maxLen period paths seed v s').2.2 ∧
        R (evalFlight G A maxLen period paths seed v s).2.1 (evalFlight G A maxLen period paths seed v s').2.1 := by
      unfold evalFlight
      simp only
      rcases G.reset (G.seed seed v) with ⟨v1, _ | obs⟩
      · exact ⟨rfl, rfl, h⟩
      simp only
      have e1 := (hA.begin_ s s' obs h).1
      have e2 := hA.begin2 s s' obs h
      rw [← e1]
      rcases hq : (A.beginEpisode s obs).2 with _ | a
      · exact ⟨rfl, rfl, e2⟩
      simp only
      obtain ⟨l1, l2, l3⟩ := evalLoop_alike hA G period paths maxLen.toNat v1 _ _ a
        { total := 0, within := 0, path := [], count := 0, outOfPower := false, envelopeBurst := false
          zeropressure := false, last := none } e2
      rw [← l1, ← l2]
      split
      · exact ⟨rfl, rfl, l3⟩
      · split
        · exact ⟨rfl, rfl, l3⟩
        · split
          · exact ⟨rfl, rfl, l3⟩
          · rename_i reward done _
            have q1 := hA.end_ _ _ reward done (hA.trans_ _ _ _ l3 (hA.symm_ _ _ l3))
            have q2 := hA.end_ _ _ reward done l3
            exact ⟨rfl, rfl, hA.trans_ _ _ _ (hA.symm_ _ _ q1) q2⟩
    obtain ⟨k1, k2, k3⟩ := key
    rw [evalFlights, evalFlights]
    simp only
    rw [← k2]
    split
    · rfl
    · simp only
      rw [← k1, ih _ _ _ k3]

/-- The results of an evaluation are those of any agent that acts alike. -/
theorem evalAgent_alike {A : Agent S} {R : S → S → Prop} (hA : Spec.Frozen A R) (G : GymEnv V) (suite : Suite) (period : ℤ)
    (paths : Bool) (v : V) (s s' : S) (h : R (A.setMode s false) (A.setMode s' false)) :
    (evalAgent G A suite period paths v s).2.2 = (evalAgent G A suite period paths v s').2.2 := by
  unfold evalAgent
  split
  · rfl
  · exact evalFlights_alike hA G _ _ _ _ _ _ _ h

/-- The command's results in terms of the agent after `load_checkpoint`. -/
theorem evalResults_loaded (M : Machine Γ V S) (fl : EvalFlags) (dir : String) (k : ℕ) (hdir : fl.checkpointDir = some dir)
    (hidx : fl.checkpointIdx = some k) (g : Γ) (w : WindKind) (r : Bool) (c : AgentClass) (v : V) (new s : S)
    (hp : Spec.Prepared M { fl with checkpointIdx := none } g w r c v new) (hl : M.load g c dir k new = .ok s)
    (seeds : List ℤ) (hs : Spec.suiteSeeds fl.suite = some seeds) :
    evalResults M fl = (evalAgent (M.gym g w r) (M.agent g c) ⟨shard seeds fl.shardIdx fl.numShards, 960⟩ fl.renderPeriod true
      v s).2.2 := by
  have hp' : Spec.Prepared M fl g w r c v s := by
    obtain ⟨p1, p2, p3, p4, s0, q1, -, q3⟩ := hp
    have hn : new = s0 := q3 (.inr rfl)
    subst hn
    refine ⟨p1, p2, p3, p4, new, q1, fun d i hd hi => ?_, fun h => ?_⟩
    · rw [hdir] at hd; rw [hidx] at hi
      cases hd; cases hi
      exact hl
    · rw [hdir, hidx] at h
      simp at h
  have he := (evalSetup_iff M fl g w r c v s).2 hp'
  have hsu := suiteOf fl.suite
  unfold evalResults
  rw [he]
  simp only
  rcases hu : getEvalSuite importSuites.2 importSuites.1 fl.suite with ⟨h', e | su⟩
  · rw [hu] at hsu
    rw [hsu.2] at hs
    cases hs
  · rw [hu] at hsu
    obtain ⟨h1, h2⟩ := hsu
    rw [hs] at h2
    cases h2
    simp only
    rw [← h1]

/-- C147. Full statement: for every agent that learns and every iteration `k` of a completed training, evaluating checkpoint `k`
gives the results of the agent as it was at the end of iteration `k`. What holds: this, for the Dopamine agents and the checkpoints
that are not older than the configured duration. `F` says which agents act alike in evaluation; of the bundle it is only assumed that
an agent restored from it acts like the one it was made of. Missing: the older checkpoints (`C147_cleaned_up`) and the MLP agent
(`C147_mlp_untrained`). -/
theorem C147_trained_partial (M : Machine Γ V S) (fl : EvalFlags) (dir : String) (k : ℕ) (hdir : fl.checkpointDir = some dir)
    (hidx : fl.checkpointIdx = some k) (g : Γ) (w : WindKind) (r : Bool) (c : AgentClass) (v0 : V) (new : S)
    (hp : Spec.Prepared M { fl with checkpointIdx := none } g w r c v0 new)
    (seeds : List ℤ) (hs : Spec.suiteSeeds fl.suite = some seeds)
    (G : GymEnv V) (on : Collectors C) (int : Name → Option ℤ) (hint : Spec.PyInt int)
    (bundle : S → Option U) (unbundle : S → U → S) (duration : Option ℤ) (hdur : ∀ k, duration = some k → 0 ≤ k)
    (hb : ∀ s, bundle s ≠ none) (mk : ℤ → List C) (maxLen period episodes : ℤ) (v : V) (s s1 : S) (d : CkptDir U) (i : ℕ)
    (hd : Spec.Tidy i d) (hi : (dopamineSaver int bundle unbundle duration).reload d s = (s1, .ok ((i : ℤ) - 1)))
    (N : ℕ) (x : Run V S C) (d' : CkptDir U)
    (h : runTraining G (M.agent g c) (dopamineSaver int bundle unbundle duration) on mk maxLen period episodes N v s d =
      (x, d', .ok ()))
    (hload : M.load g c dir k new = dopamineLoad unbundle d' k new)
    (F : S → S → Prop) (hF : Spec.Frozen (M.agent g c) F)
    (hrest : ∀ t b, bundle t = some b → F ((M.agent g c).setMode (unbundle new b) false) ((M.agent g c).setMode t false))
    (h1 : i ≤ k) (h2 : k < N) (hk : ∀ t, duration = some t → (N : ℤ) - 1 - t ≤ k) :
    evalResults M fl = (evalAgent (M.gym g w r) (M.agent g c) ⟨shard seeds fl.shardIdx fl.numShards, 960⟩ fl.renderPeriod true v0
      (runTraining G (M.agent g c) (dopamineSaver int bundle unbundle duration) on mk maxLen period episodes (k + 1 : ℕ) v s
        d).1.agent).2.2 := by
  obtain ⟨b, hb1, hb2⟩ := C147_checkpoint G (M.agent g c) on int hint bundle unbundle duration hdur hb mk maxLen period episodes v s
    s1 d i hd hi N x d' h k h1 h2 hk
  rw [evalResults_loaded M fl dir k hdir hidx g w r c v0 new (unbundle new b) hp (by rw [hload, hb2]) seeds hs]
  exact evalAgent_alike hF _ _ _ _ _ _ _ (hrest _ _ hb1)

/-- C147. An older checkpoint has been removed, and asking for it is not noticed: the agent is evaluated as it was made, untrained
(the stock configurations keep the last six of what may be hundreds of iterations). -/
theorem C147_cleaned_up (M : Machine Γ V S) (fl : EvalFlags) (dir : String) (k : ℕ) (hdir : fl.checkpointDir = some dir)
    (hidx : fl.checkpointIdx = some k) (g : Γ) (w : WindKind) (r : Bool) (c : AgentClass) (v0 : V) (new : S)
    (hp : Spec.Prepared M { fl with checkpointIdx := none } g w r c v0 new)
    (seeds : List ℤ) (hs : Spec.suiteSeeds fl.suite = some seeds)
    (G : GymEnv V) (on : Collectors C) (int : Name → Option ℤ) (hint : Spec.PyInt int)
    (bundle : S → Option U) (unbundle : S → U → S) (duration : ℤ) (hdur : 0 ≤ duration)
    (hb : ∀ s, bundle s ≠ none) (mk : ℤ → List C) (maxLen period episodes : ℤ) (v : V) (s s1 : S) (d : CkptDir U) (i : ℕ)
    (hd : Spec.Tidy i d) (hi : (dopamineSaver int bundle unbundle (some duration)).reload d s = (s1, .ok ((i : ℤ) - 1)))
    (N : ℕ) (hN : i < N) (x : Run V S C) (d' : CkptDir U)
    (h : runTraining G (M.agent g c) (dopamineSaver int bundle unbundle (some duration)) on mk maxLen period episodes N v s d =
      (x, d', .ok ()))
    (hload : M.load g c dir k new = dopamineLoad unbundle d' k new)
    (hk : (k : ℤ) < (N : ℤ) - 1 - duration) (h5 : k < 100000) :
    evalResults M fl = evalResults M { fl with checkpointIdx := none } ∧
    evalResults M fl = (evalAgent (M.gym g w r) (M.agent g c) ⟨shard seeds fl.shardIdx fl.numShards, 960⟩ fl.renderPeriod true v0
      new).2.2 := by
  obtain ⟨y, ⟨z, hz⟩, -⟩ := runTraining_parts G (M.agent g c) _ on mk maxLen period episodes v s s1 d i hi N x d' h
  obtain ⟨-, -, -, h4⟩ := runIterations_left G (M.agent g c) on int hint bundle unbundle (some duration)
    (fun t ht => by cases ht; exact hdur) hb maxLen period episodes (N - i) i y z d d' hd hz
  have hnone := h4 k (by omega) (by omega) ⟨duration, rfl, by omega⟩ h5
  have hl : M.load g c dir k new = .ok new := by
    rw [hload]
    simp [dopamineLoad, loadCkpt, hnone, Except.map]
  have e := evalResults_loaded M fl dir k hdir hidx g w r c v0 new new hp hl seeds hs
  refine ⟨?_, e⟩
  rw [e]
  symm
  have := evalSetup_iff M { fl with checkpointIdx := none } g w r c v0 new
  have he := this.2 hp
  have hsu := suiteOf fl.suite
  unfold evalResults
  rw [he]
  simp only
  rcases hu : getEvalSuite importSuites.2 importSuites.1 fl.suite with ⟨h', e | su⟩
  · rw [hu] at hsu
    rw [hsu.2] at hs
    cases hs
  · rw [hu] at hsu
    obtain ⟨h1, h2⟩ := hsu
    rw [hs] at h2
    cases h2
    simp only
    rw [← h1]

/-- C147. `MLPAgent` does not override `load_checkpoint`: whatever was trained, and whatever the directory contains, evaluating
"checkpoint `k`" evaluates the agent as it was made, under the number `k`. -/
theorem C147_mlp_untrained (M : Machine Γ V S) (fl : EvalFlags) (dir : String) (k : ℕ) (hdir : fl.checkpointDir = some dir)
    (hidx : fl.checkpointIdx = some k) (g : Γ) (w : WindKind) (r : Bool) (c : AgentClass) (v0 : V) (new : S)
    (hp : Spec.Prepared M { fl with checkpointIdx := none } g w r c v0 new)
    (seeds : List ℤ) (hs : Spec.suiteSeeds fl.suite = some seeds) (hload : M.load g c dir k new = baseLoad new) :
    evalResults M fl = (evalAgent (M.gym g w r) (M.agent g c) ⟨shard seeds fl.shardIdx fl.numShards, 960⟩ fl.renderPeriod true v0
      new).2.2 :=
  evalResults_loaded M fl dir k hdir hidx g w r c v0 new new hp hload seeds hs

/-! ## A small world -/

/-- Every flight has two steps; the reward is the action. -/
noncomputable def pairEnv : GymEnv ℤ where
  seed _ _ := 2
  reset _ := (2, .ok [])
  step a v := (v - 1, .ok { obs := [], reward := a, terminal := v - 1 = 0
                            info := { outOfPower := v - 1 = 0, envelopeBurst := false, zeropressure := false, timeElapsed := 0 } })
  balloon v := .ok { demo with x := v, y := 0 }
  render v := v
  radius _ := 1

/-- An MLP agent whose parameter is the action it takes, and which adds 1 to it with each update. -/
def pairAgent : Agent (Mlp ℤ Unit) := mlpAgent (fun p _ => p) (fun p o _ _ _ _ _ => (p + 1, o))

/-- The machine: new agents take action 0; `load` reads the directory `d`. -/
noncomputable def pairMachine (load : ℕ → Mlp ℤ Unit → Except Err (Mlp ℤ Unit)) : Machine Unit ℤ (Mlp ℤ Unit) where
  acme := false
  parseGin _ _ := .ok ()
  makeEnv _ _ _ := .ok 0
  gym _ _ _ := pairEnv
  makeAgent _ _ _ := .ok ⟨0, (), true, none⟩
  agent _ _ := pairAgent
  load _ _ _ i s := load i s

def pairFlags (agent : String) (k : ℕ) : EvalFlags where
  agent := agent
  suite := "micro_eval"
  wind := "simple"
  ginFile := none
  bindings := []
  numShards := 1
  shardIdx := 0
  checkpointDir := some "results"
  checkpointIdx := some k
  nameOverride := none
  renderer := none
  renderPeriod := 10

theorem pair_prepared (load : ℕ → Mlp ℤ Unit → Except Err (Mlp ℤ Unit)) (name : String) (c : AgentClass) (own : Option String)
    (h : Spec.agentOf false name = some (c, own)) (k : ℕ) :
    Spec.Prepared (pairMachine load) { pairFlags name k with checkpointIdx := none } () .simple false c 0 ⟨0, (), true, none⟩ :=
  ⟨⟨own, h, rfl⟩, .inl ⟨rfl, rfl⟩, .inl ⟨rfl, rfl⟩, rfl, ⟨_, rfl, fun _ _ _ h => by simp at h, fun _ => rfl⟩⟩

/-- The result of the only flight, by the agent's parameter. -/
theorem pair_flight (s : Mlp ℤ Unit) : ∃ q, (evalAgent pairEnv pairAgent ⟨[0], 960⟩ 10 true 0 s).2.2 = .ok [q] ∧
    q.cumulative = 2 * s.params := by
  obtain ⟨n, e⟩ : ∃ n, Int.toNat 960 = n + 1 + 1 := ⟨958, rfl⟩
  unfold evalAgent
  rw [if_neg (by norm_num)]
  simp only [evalFlights, evalFlight, e, evalLoop, pairEnv, pairAgent, mlpAgent, Mlp.setMode]
  norm_num [Except.map]
  ring

/-- C147. So the statement fails for the MLP agent: here it is trained for one iteration of one episode, its parameter is then 1, and
evaluating "checkpoint 0" reports the return 0 of the new agent, where the trained agent has the return 2. -/
theorem C147_mlp_refuted : ∃ x q q',
    runTraining pairEnv pairAgent (baseSaver : Saver (Mlp ℤ Unit) Unit) Obj.on (fun _ => []) 10 1 1 1 0 ⟨0, (), true, none⟩ () =
      (x, (), .ok ()) ∧
    evalResults (pairMachine fun _ s => baseLoad s) (pairFlags "mlp" 0) = .ok [q] ∧ q.cumulative = 0 ∧
    (evalAgent pairEnv pairAgent ⟨[0], 960⟩ 10 true 0 x.agent).2.2 = .ok [q'] ∧ q'.cumulative = 2 := by
  have ht : ∃ x, runTraining pairEnv pairAgent (baseSaver : Saver (Mlp ℤ Unit) Unit) Obj.on (fun _ => []) 10 1 1 1 0
      ⟨0, (), true, none⟩ () = (x, (), .ok ()) ∧ x.agent.params = 1 := by
    have e10 : Int.toNat 10 = 8 + 1 + 1 := rfl
    have e1 : Int.toNat 1 = 0 + 1 := rfl
    refine ⟨⟨0, ⟨1, (), true, some ([], 0)⟩, []⟩, ?_, rfl⟩
    simp only [runTraining, baseSaver, Run.send, dispatch]
    norm_num [runIterations, runEpisodes, runEpisode, e1, e10, episodeLoop, pairEnv, pairAgent, mlpAgent, Mlp.setMode, Run.send,
      dispatch]
  obtain ⟨x, hx, hx1⟩ := ht
  obtain ⟨q, h1, h2⟩ := pair_flight ⟨0, (), true, none⟩
  obtain ⟨q', h3, h4⟩ := pair_flight x.agent
  refine ⟨x, q, q', hx, ?_, by simpa using h2, h3, by rw [h4, hx1]; norm_num⟩
  rw [C147_mlp_untrained _ (pairFlags "mlp" 0) "results" 0 rfl rfl () .simple false .mlp 0 ⟨0, (), true, none⟩
    (pair_prepared _ _ _ _ rfl 0) [0] rfl rfl]
  exact h1

/-- Checkpoints that hold the parameter, of which only the newest is kept. -/
def pairSaver : Saver (Mlp ℤ Unit) (CkptDir ℤ) := dopamineSaver decInt (fun s => some s.params) (fun s p => { s with params := p }) (some 0)

theorem pair_trained : ∃ x, runTraining pairEnv pairAgent pairSaver Obj.on (fun _ => []) 10 1 1 (2 : ℕ) 0 ⟨0, (), true, none⟩ [] =
      (x, [(ckptName 1, some 2)], .ok ()) ∧ x.agent.params = 2 := by
  have e10 : Int.toNat 10 = 8 + 1 + 1 := rfl
  have e1 : Int.toNat 1 = 0 + 1 := rfl
  have e2 : Int.toNat 2 = 0 + 1 + 1 := rfl
  have r0 : ∀ s, pairSaver.reload [] s = (s, .ok (-1)) := by
    intro s
    have : latestCkpt decInt ([] : CkptDir ℤ) = -1 := rfl
    simp [pairSaver, dopamineSaver, this]
  have n0 : isCkptName (ckptName 0) = true := by decide +kernel
  have n1 : isCkptName (ckptName 1) = true := by decide +kernel
  have i0 : ckptIteration decInt (ckptName 0) = .ok 0 := by decide +kernel
  have i1 : ckptIteration decInt (ckptName 1) = .ok 1 := by decide +kernel
  have ne : ¬ ckptName 0 = ckptName 1 := by decide +kernel
  have ne' : ¬ ckptName 1 = ckptName 0 := by decide +kernel
  have s0 : ∀ s : Mlp ℤ Unit, pairSaver.save 0 s [] = ([(ckptName 0, some s.params)], .ok ()) := by
    intro s
    simp [pairSaver, dopamineSaver, saveCkpt, CkptDir.put, cleanUp, n0, i0]
  have s1 : ∀ (s : Mlp ℤ Unit) (p : ℤ), pairSaver.save 1 s [(ckptName 0, some p)] = ([(ckptName 1, some s.params)], .ok ()) := by
    intro s p
    simp [pairSaver, dopamineSaver, saveCkpt, CkptDir.put, cleanUp, n0, i0, n1, i1, ne, ne', List.filter]
  refine ⟨⟨0, ⟨2, (), true, some ([], 1)⟩, []⟩, ?_, rfl⟩
  simp only [runTraining, r0, Run.send, dispatch]
  norm_num [runIterations, runEpisodes, runEpisode, e1, e2, e10, episodeLoop, pairEnv, pairAgent, mlpAgent, Mlp.setMode, Run.send,
    dispatch, s0, s1]

/-- The hypotheses of `C147_trained_partial` are satisfiable: two iterations; checkpoint 1 is that of the agent trained twice, which
has the return 4. Those of `C147_cleaned_up`: checkpoint 0 is gone, and asking for it evaluates the new agent. -/
example : (∃ q, evalResults (pairMachine (dopamineLoad (fun s p => { s with params := p }) [(ckptName 1, some (2 : ℤ))]))
      (pairFlags "dqn" 1) = .ok [q] ∧ q.cumulative = 4) ∧
    ∃ q, evalResults (pairMachine (dopamineLoad (fun s p => { s with params := p }) [(ckptName 1, some (2 : ℤ))]))
      (pairFlags "dqn" 0) = .ok [q] ∧ q.cumulative = 0 := by
  obtain ⟨x, hx, hx1⟩ := pair_trained
  have hF : Spec.Frozen pairAgent fun s s' => s.train = false ∧ s'.train = false ∧ s.params = s'.params := by
    refine ⟨fun s s' h => ⟨h.2.1, h.1, h.2.2.symm⟩, fun s s' s'' h h' => ⟨h.1, h'.2.1, h.2.2.trans h'.2.2⟩, ?_, ?_, ?_⟩
    · rintro s s' obs ⟨h1, h2, h3⟩
      simp [pairAgent, mlpAgent, h1, h2, h3]
    · rintro s s' r obs ⟨h1, h2, h3⟩
      simp [pairAgent, mlpAgent, h1, h2, h3]
    · rintro s s' r t h
      exact h
  have hd : Spec.Tidy 0 ([] : CkptDir ℤ) := fun _ h => by simp at h
  have r0 : pairSaver.reload [] (⟨0, (), true, none⟩ : Mlp ℤ Unit) = (⟨0, (), true, none⟩, .ok (((0 : ℕ) : ℤ) - 1)) := by
    have : latestCkpt decInt ([] : CkptDir ℤ) = -1 := rfl
    simp [pairSaver, dopamineSaver, this]
  constructor
  · rw [C147_trained_partial (pairMachine (dopamineLoad (fun s p => { s with params := p }) [(ckptName 1, some (2 : ℤ))]))
      (pairFlags "dqn" 1) "results" 1 rfl rfl () .simple false .dqn 0 ⟨0, (), true, none⟩ (pair_prepared _ _ _ _ rfl 1) [0] rfl
      pairEnv Obj.on decInt decInt_pyInt (fun s => some s.params) (fun s p => { s with params := p }) (some 0)
      (fun k hk => by cases hk; exact le_refl _) (fun s => by simp) (fun _ => []) 10 1 1 0 ⟨0, (), true, none⟩ _ [] 0 hd r0 2 x
      [(ckptName 1, some 2)] hx rfl _ hF (fun t b hb => ⟨rfl, rfl, (Option.some.inj hb).symm⟩) (by norm_num) (by norm_num)
      (fun t ht => by cases ht; norm_num)]
    obtain ⟨q, h1, h2⟩ := pair_flight x.agent
    have hx' := congrArg (fun r => r.1) hx
    refine ⟨q, ?_, by rw [h2, hx1]; norm_num⟩
    change (evalAgent pairEnv pairAgent ⟨[0], 960⟩ 10 true 0
      (runTraining pairEnv pairAgent pairSaver Obj.on (fun _ => []) 10 1 1 (2 : ℕ) 0 ⟨0, (), true, none⟩ []).1.agent).2.2 = _
    rw [hx]
    exact h1
  · rw [(C147_cleaned_up (pairMachine (dopamineLoad (fun s p => { s with params := p }) [(ckptName 1, some (2 : ℤ))]))
      (pairFlags "dqn" 0) "results" 0 rfl rfl () .simple false .dqn 0 ⟨0, (), true, none⟩ (pair_prepared _ _ _ _ rfl 0) [0] rfl
      pairEnv Obj.on decInt decInt_pyInt (fun s => some s.params) (fun s p => { s with params := p }) 0 le_rfl (fun s => by simp)
      (fun _ => []) 10 1 1 0 ⟨0, (), true, none⟩ _ [] 0 hd r0 2 (by norm_num) x [(ckptName 1, some 2)] hx rfl (by norm_num)
      (by norm_num)).2]
    obtain ⟨q, h1, h2⟩ := pair_flight ⟨0, (), true, none⟩
    exact ⟨q, h1, by simpa using h2⟩

end BLE
