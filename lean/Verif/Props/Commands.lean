import Verif.Model.Commands
import Verif.Props.Eval
import Verif.Props.Suites

/-!
# C116, C117 — the evaluation command
-/

namespace BLE

variable {Γ V S : Type}

/-! ## C116 -/

/-- What `--agent` means: the class and the gin file used unless another one is given. -/
def Spec.agentOf (acme : Bool) : String → Option (AgentClass × Option String)
  | "random" => some (.random, none)
  | "mlp" => some (.mlp, some "balloon_learning_environment/agents/configs/mlp.gin")
  | "dqn" => some (.dqn, some "balloon_learning_environment/agents/configs/dqn.gin")
  | "perciatelli44" => some (.perciatelli44, none)
  | "quantile" => some (.quantile, some "balloon_learning_environment/agents/configs/quantile.gin")
  | "finetune_perciatelli" => some (.quantile, some "balloon_learning_environment/agents/configs/finetune_perciatelli.gin")
  | "station_seeker" => some (.stationSeeker, none)
  | "random_walk" => some (.randomWalk, none)
  | "acme_eval_agent" => if acme then some (.acmeEval, none) else none
  | _ => none

/-- The objects of an evaluation are the ones its flags ask for. -/
structure Spec.Prepared (M : Machine Γ V S) (fl : EvalFlags) (g : Γ) (w : WindKind) (r : Bool) (k : AgentClass) (v : V)
    (s : S) : Prop where
  /-- the agent has a name that is known, and the gin file given, or else its own, has been read -/
  gin : ∃ own, Spec.agentOf M.acme fl.agent = some (k, own) ∧
    M.parseGin ((match fl.ginFile with | some f => some f | none => own).toList) fl.bindings = .ok g
  renderer : fl.renderer = none ∧ r = false ∨ fl.renderer = some "matplotlib" ∧ r = true
  wind : fl.wind = "simple" ∧ w = .simple ∨ fl.wind = "generative" ∧ w = .generative
  env : M.makeEnv g w r = .ok v
  /-- a checkpoint is loaded if directory and number are given -/
  agent : ∃ s0, M.makeAgent g k v = .ok s0 ∧
    (∀ d i, fl.checkpointDir = some d → fl.checkpointIdx = some i → M.load g k d i s0 = .ok s) ∧
    (fl.checkpointDir = none ∨ fl.checkpointIdx = none → s = s0)

theorem registry_lookup (acme : Bool) (name : String) : (registry acme).lookup name = Spec.agentOf acme name := by
  unfold Spec.agentOf
  split
  · rfl
  · rfl
  · rfl
  · rfl
  · rfl
  · rfl
  · rfl
  · rfl
  · cases acme <;> rfl
  · rename_i h1 h2 h3 h4 h5 h6 h7 h8 h9
    have b : ∀ s : String, (name = s → False) → (name == s) = false := fun s h => beq_false_of_ne h
    cases acme <;> simp only [registry, List.cons_append, List.nil_append, List.lookup, b _ h1, b _ h2, b _ h3, b _ h4, b _ h5, b _ h6, b _ h7, b _ h8,
      b _ h9, if_true, Bool.false_eq_true, if_false]

theorem suiteOf (name : String) :
    match getEvalSuite importSuites.2 importSuites.1 name with
    | (h, .ok s) => s.maxLen = 960 ∧ Spec.suiteSeeds name = some (h.val s.seeds)
    | (_, .error e) => e = .value ∧ Spec.suiteSeeds name = none := by
  have h := C112_lookup [] name
  simp only [List.foldl_nil] at h
  rcases hq : getEvalSuite importSuites.2 importSuites.1 name with ⟨h', _ | s⟩
  · rw [hq] at h; exact ⟨h.1, h.2.1⟩
  · rw [hq] at h; exact ⟨h.1, h.2.1⟩

theorem evalSetup_iff (M : Machine Γ V S) (fl : EvalFlags) (g : Γ) (w : WindKind) (r : Bool) (k : AgentClass) (v : V) (s : S) :
    evalSetup M fl = .ok (g, w, r, k, v, s) ↔ Spec.Prepared M fl g w r k v s := by
  unfold evalSetup
  constructor
  · intro h
    unfold bindGin agentGinFile defaultGin agentConstructor at h
    rw [registry_lookup] at h
    split at h
    · cases h
    rename_i g' hg
    split at h
    · cases h
    rename_i r' hr
    split at h
    · cases h
    rename_i w' hw
    split at h
    · cases h
    rename_i v' hv
    rcases ha : Spec.agentOf M.acme fl.agent with _ | ⟨k', own⟩
    · rw [ha] at h; cases h
    rw [ha] at h hg
    simp only at h
    split at h
    · cases h
    rename_i s' hs
    have hr' : fl.renderer = none ∧ r' = false ∨ fl.renderer = some "matplotlib" ∧ r' = true := by
      unfold rendererFlag at hr
      split at hr
      · rename_i h0; exact .inl ⟨h0, by simpa using hr.symm⟩
      · rename_i n h0
        split at hr
        · rename_i hn; exact .inr ⟨by rw [h0, hn], by simpa using hr.symm⟩
        · cases hr
    have hw' : fl.wind = "simple" ∧ w' = .simple ∨ fl.wind = "generative" ∧ w' = .generative := by
      unfold windFactory at hw
      split at hw
      · rename_i h0; exact .inl ⟨h0, by simpa using hw.symm⟩
      · split at hw
        · rename_i h0; exact .inr ⟨h0, by simpa using hw.symm⟩
        · cases hw
    have hg' : M.parseGin ((match fl.ginFile with | some f => some f | none => own).toList) fl.bindings = .ok g' := by
      cases hf : fl.ginFile <;> simpa [hf] using hg
    split at h
    · rename_i d i hd hi
      split at h
      · cases h
      rename_i s'' hl
      simp only [Except.ok.injEq, Prod.mk.injEq] at h
      obtain ⟨rfl, rfl, rfl, rfl, rfl, rfl⟩ := h
      exact ⟨⟨own, ha, hg'⟩, hr', hw', hv, s', hs, fun d' i' h1 h2 => by
        rw [hd] at h1; rw [hi] at h2; cases h1; cases h2; exact hl, fun h => by rw [hd, hi] at h; simp at h⟩
    · rename_i hn
      simp only [Except.ok.injEq, Prod.mk.injEq] at h
      obtain ⟨rfl, rfl, rfl, rfl, rfl, rfl⟩ := h
      exact ⟨⟨own, ha, hg'⟩, hr', hw', hv, s', hs, fun d' i' h1 h2 => (hn _ _ h1 h2).elim, fun _ => rfl⟩
  · rintro ⟨⟨own, ha, hg⟩, hr, hw, hv, s0, hs, hl, hn⟩
    have hr' : rendererFlag fl.renderer = .ok r := by
      rcases hr with ⟨h1, rfl⟩ | ⟨h1, rfl⟩ <;> rw [h1] <;> rfl
    have hw' : windFactory fl.wind = .ok w := by
      rcases hw with ⟨h1, rfl⟩ | ⟨h1, rfl⟩ <;> rw [h1] <;> rfl
    have e : bindGin M fl.agent fl.ginFile fl.bindings [] = .ok g := by
      unfold bindGin agentGinFile defaultGin
      rw [registry_lookup, ha]
      cases hf : fl.ginFile <;> simpa [hf] using hg
    have ek : agentConstructor M.acme fl.agent = .ok k := by
      unfold agentConstructor
      rw [registry_lookup, ha]
    rw [hr', hw', e, ek]
    simp only [hv, hs]
    rcases hd : fl.checkpointDir with _ | d
    · rw [hn (.inl hd)]
    rcases hi : fl.checkpointIdx with _ | i
    · rw [hn (.inr hi)]
    simp only [hl d i hd hi]

/-- C116. What a result is: an evaluation succeeds with results `rs` if and only if all names are known, the objects
its flags ask for could be made, and evaluating that agent in that environment on its shard of the named suite for 960
steps gives `rs`. -/
theorem C116_results (M : Machine Γ V S) (fl : EvalFlags) (rs : List EvalResult) :
    evalResults M fl = .ok rs ↔ ∃ g w r k v s seeds, Spec.Prepared M fl g w r k v s ∧ Spec.suiteSeeds fl.suite = some seeds ∧
      (evalAgent (M.gym g w r) (M.agent g k) ⟨shard seeds fl.shardIdx fl.numShards, 960⟩ fl.renderPeriod true v s).2.2
        = .ok rs := by
  unfold evalResults
  have hs := suiteOf fl.suite
  rcases hq : evalSetup M fl with e | ⟨g, w, r, k, v, s⟩
  · simp only [reduceCtorEq, false_iff]
    rintro ⟨g, w, r, k, v, s, seeds, h, -⟩
    rw [← evalSetup_iff, hq] at h
    cases h
  simp only
  rcases hu : getEvalSuite importSuites.2 importSuites.1 fl.suite with ⟨h', e | su⟩
  · rw [hu] at hs
    simp only [reduceCtorEq, false_iff]
    rintro ⟨g, w, r, k, v, s, seeds, -, h, -⟩
    rw [hs.2] at h; cases h
  · rw [hu] at hs
    simp only at hs ⊢
    rw [hs.1]
    constructor
    · intro h
      exact ⟨g, w, r, k, v, s, _, (evalSetup_iff ..).1 hq, hs.2, h⟩
    · rintro ⟨g', w', r', k', v', s', seeds, h1, h2, h3⟩
      rw [← evalSetup_iff, hq] at h1
      simp only [Except.ok.injEq, Prod.mk.injEq] at h1
      obtain ⟨rfl, rfl, rfl, rfl, rfl, rfl⟩ := h1
      rw [hs.2] at h2
      cases h2
      exact h3

/-- C116. An evaluation that raises leaves every file as it was; one that succeeds writes exactly one file, the one its
flags name, with one result for every seed of its shard of the suite, in order. -/
theorem C116_outcome (M : Machine Γ V S) (fl : EvalFlags) (o : Output) :
    match evalMain M fl o with
    | (o', .error _) => o' = o
    | (o', .ok ()) => (∀ d, d ≠ fl.suite → o' d = o d) ∧
        (∀ f, f.1 ≠ fl.file → (f ∈ o' fl.suite ↔ f ∈ o fl.suite)) ∧
        ∃ seeds rs, Spec.suiteSeeds fl.suite = some seeds ∧ evalResults M fl = .ok rs ∧
          (∀ c, (fl.file, c) ∈ o' fl.suite ↔ c = rs) ∧ rs.map (·.seed) = shard seeds fl.shardIdx fl.numShards := by
  unfold evalMain
  rcases hr : evalResults M fl with e | rs
  · rfl
  simp only
  refine ⟨fun d hd => by simp only [writeResult, if_neg hd], fun f hf => ?_, ?_⟩
  · simp only [writeResult, if_true, Dir.write, List.mem_cons, List.mem_filter, decide_eq_true_eq]
    constructor
    · rintro (rfl | h)
      · exact (hf rfl).elim
      · exact h.1
    · intro h; exact .inr ⟨h, by simpa using hf⟩
  · obtain ⟨g, w, r, k, v, s, seeds, -, h2, h3⟩ := (C116_results M fl rs).1 hr
    refine ⟨seeds, rs, h2, rfl, fun c => ?_, ?_⟩
    · simp only [writeResult, if_true, Dir.write, List.mem_cons, List.mem_filter, Prod.mk.injEq, true_and]
      simp
    · rcases hq : evalAgent (M.gym g w r) (M.agent g k) ⟨shard seeds fl.shardIdx fl.numShards, 960⟩ fl.renderPeriod true v s with
        ⟨v', s', q⟩
      rw [hq] at h3
      simp only at h3
      subst h3
      exact (C62_results _ _ _ _ _ _ _ _ _ _ hq).2.1

/-- C116. Without a gin file, an agent whose name is not known is reported as `ValueError` before anything is read or built: whatever
the gin parser, the environment and the agents' constructors do, and whatever the other flags are. -/
theorem C116_unknown_agent (M : Machine Γ V S) (fl : EvalFlags) (o : Output) (ha : Spec.agentOf M.acme fl.agent = none)
    (hf : fl.ginFile = none) : evalMain M fl o = (o, .error .value) := by
  have h : evalSetup M fl = .error .value := by
    simp only [evalSetup, bindGin, agentGinFile, hf, defaultGin, registry_lookup, ha]
  simp only [evalMain, evalResults, h]

/-- C116. A misspelt agent, wind field, renderer or suite is never evaluated: the command raises, whatever else the flags
say. -/
theorem C116_misspelt (M : Machine Γ V S) (fl : EvalFlags) (o : Output)
    (h : Spec.agentOf M.acme fl.agent = none ∨ fl.wind ∉ ["simple", "generative"] ∨
      (∃ n, fl.renderer = some n ∧ n ≠ "matplotlib") ∨ fl.suite ∉ availableSuites importSuites.2) :
    ∃ e, evalMain M fl o = (o, .error e) := by
  unfold evalMain
  rcases hr : evalResults M fl with e | rs
  · exact ⟨e, rfl⟩
  exfalso
  obtain ⟨g, w, r, k, v, s, seeds, p, h2, -⟩ := (C116_results M fl rs).1 hr
  rcases h with h | h | ⟨n, h, hn⟩ | h
  · obtain ⟨own, ha, -⟩ := p.gin
    rw [h] at ha; cases ha
  · apply h
    rcases p.wind with ⟨q, -⟩ | ⟨q, -⟩ <;> simp [q]
  · rcases p.renderer with ⟨q, -⟩ | ⟨q, -⟩ <;> rw [h] at q
    · cases q
    · exact hn (by simpa using q)
  · exact h ((C112_available.2 fl.suite).2 (by rw [h2]; rfl))

/-- C116. A shard number that is too large is not noticed: with several shards, the command then writes an empty list of
results. -/
theorem C116_excess_shard (M : Machine Γ V S) (fl : EvalFlags) (hn : 1 < fl.numShards) (hi : fl.numShards ≤ fl.shardIdx)
    (rs : List EvalResult) (h : evalResults M fl = .ok rs) : rs = [] := by
  obtain ⟨g, w, r, k, v, s, seeds, -, -, h3⟩ := (C116_results M fl rs).1 h
  have e : shard seeds fl.shardIdx fl.numShards = [] := by
    unfold shard
    rw [if_pos hn, List.drop_eq_nil_of_le, List.take_nil]
    unfold shardStart
    rw [Nat.le_div_iff_mul_le (by omega)]
    exact Nat.mul_le_mul_left _ hi
  rw [e] at h3
  unfold evalAgent at h3
  rw [if_neg (by norm_num)] at h3
  simpa [evalFlights] using h3.symm

/-- No suite has a seed twice, and all but one are sorted. -/
theorem suite_sorted (name : String) (seeds : List ℤ) (h : Spec.suiteSeeds name = some seeds) :
    seeds.Nodup ∧ (name ≠ "all_strata" → seeds.Pairwise (· < ·)) := by
  have cast : ∀ l : List ℕ, l.Pairwise (· < ·) → (l.map fun i : ℕ => (i : ℤ)).Pairwise (· < ·) := fun l hl =>
    List.pairwise_map.2 (hl.imp fun h => by exact_mod_cast h)
  have both : ∀ l : List ℕ, l.Pairwise (· < ·) → seeds = (l.map fun i : ℕ => (i : ℤ)) →
      seeds.Nodup ∧ (name ≠ "all_strata" → seeds.Pairwise (· < ·)) := by
    rintro l hl rfl
    exact ⟨(cast l hl).imp fun h => ne_of_lt h, fun _ => cast l hl⟩
  have rng : ∀ n, (List.range n).Pairwise (· < ·) := fun n => List.pairwise_lt_range
  obtain ⟨s1, s2, s3, s4, s5⟩ := sorted_all
  unfold Spec.suiteSeeds at h
  split at h <;> (try simp only [Option.some.injEq] at h)
  · exact both _ (rng 10000) h.symm
  · exact both _ (rng 1000) h.symm
  · exact both _ (rng 100) h.symm
  · exact both _ (rng 10) h.symm
  · subst h; simp
  · exact both _ (sortedLt_pairwise _ s1) h.symm
  · exact both _ (sortedLt_pairwise _ s2) h.symm
  · exact both _ (sortedLt_pairwise _ s3) h.symm
  · exact both _ (sortedLt_pairwise _ s4) h.symm
  · exact both _ (sortedLt_pairwise _ s5) h.symm
  · subst h
    refine ⟨?_, fun h => (h rfl).elim⟩
    have h3 := C112_strata.2.2.1
    simp only [strataSeeds, List.flatMap_cons, List.flatMap_nil, List.append_nil] at h3
    refine List.Nodup.map (fun a b hab => by exact_mod_cast hab) ?_
    simpa only [List.append_assoc] using h3
  · cases h

/-- Two machines with the same installation: the same packages and programs, whose constructors make equivalent objects
(`B` for environments, `R` for agents of class `k`), and which have the same checkpoints. -/
structure Spec.Twins (B : V → V → Prop) (R : Γ → S → S → Prop) (k : AgentClass) (M N : Machine Γ V S) : Prop where
  acme : N.acme = M.acme
  parse : N.parseGin = M.parseGin
  gym : N.gym = M.gym
  prog : N.agent = M.agent
  env : ∀ g w r v, M.makeEnv g w r = .ok v → ∃ v', N.makeEnv g w r = .ok v' ∧ B v v'
  make : ∀ g v v' s, B v v' → M.makeAgent g k v = .ok s → ∃ s', N.makeAgent g k v' = .ok s' ∧ R g s s'
  load : ∀ g d i s s' t, R g s s' → M.load g k d i s = .ok t → ∃ t', N.load g k d i s' = .ok t' ∧ R g t t'

/-- Twins prepare equivalent evaluations. -/
theorem Spec.Twins.prepared {B : V → V → Prop} {R : Γ → S → S → Prop} {k : AgentClass} {M N : Machine Γ V S}
    (h : Spec.Twins B R k M N) {fl : EvalFlags} {g : Γ} {w : WindKind} {r : Bool} {v : V} {s : S}
    (p : Spec.Prepared M fl g w r k v s) (i n : ℕ) :
    ∃ v' s', Spec.Prepared N { fl with numShards := n, shardIdx := i } g w r k v' s' ∧ B v v' ∧ R g s s' := by
  obtain ⟨v', hv, hb⟩ := h.env _ _ _ _ p.env
  obtain ⟨s0, hs0, hl, hn⟩ := p.agent
  obtain ⟨s1, hs1, hr⟩ := h.make _ _ _ _ hb hs0
  have hgin := p.gin
  rw [← h.acme, ← h.parse] at hgin
  rcases hd : fl.checkpointDir with _ | d
  · have e := hn (.inl hd)
    subst e
    exact ⟨v', s1, ⟨hgin, p.renderer, p.wind, hv, s1, hs1, fun d i h1 => by simp [hd] at h1, fun _ => rfl⟩, hb, hr⟩
  rcases hi : fl.checkpointIdx with _ | j
  · have e := hn (.inr hi)
    subst e
    exact ⟨v', s1, ⟨hgin, p.renderer, p.wind, hv, s1, hs1, fun d i _ h1 => by simp [hi] at h1, fun _ => rfl⟩, hb, hr⟩
  obtain ⟨t', ht, hr'⟩ := h.load _ _ _ _ _ _ hr (hl d j hd hi)
  refine ⟨v', t', ⟨hgin, p.renderer, p.wind, hv, s1, hs1, fun d' i' h1 h2 => ?_, fun h => ?_⟩, hb, hr'⟩
  · simp only [hd, hi, Option.some.injEq] at h1 h2
    subst h1 h2
    exact ht
  · simp [hd, hi] at h

theorem writeShards_output (fl : EvalFlags) (n : ℕ) (rss : ℕ → List EvalResult) (order : List ℕ) (o : Output) :
    (order.foldl (fun o i => writeResult { fl with numShards := n, shardIdx := i } (rss i) o) o) fl.suite =
      order.foldl (fun (d : Dir) i => d.write (resultFile (resultName (fl.nameOverride.map String.toList) fl.agent.toList
        fl.checkpointIdx) i n) (rss i)) (o fl.suite) := by
  induction order generalizing o with
  | nil => rfl
  | cons i order ih =>
    rw [List.foldl_cons, List.foldl_cons, ih]
    simp only [writeResult, if_true, EvalFlags.file]

/-- C116. The whole pipeline: if the unsharded evaluation of an agent that is frozen during evaluation succeeds with results
`rs` on one machine, then for any number of shards, each run once on a machine of its own with the same installation, in
any order, every one succeeds, and combining them afterwards in a directory that had no matching files gives the very results
`rs`, sorted by seed (which changes nothing unless the suite is `all_strata`), with the flight paths removed unless
asked for; no other file changes. -/
theorem C116_pipeline (M : Machine Γ V S) (fl : EvalFlags) (k : AgentClass) (own : Option String)
    (hk : Spec.agentOf M.acme fl.agent = some (k, own)) (B : V → V → Prop) (Q : Γ → WindKind → Bool → V → V → Prop)
    (F R : Γ → S → S → Prop) (hB : ∀ v, B v v) (hG : ∀ g w r, Spec.Repeats (M.gym g w r) B (Q g w r))
    (hA : ∀ g, Spec.Frozen (M.agent g k) (F g))
    (hR : ∀ g s s', R g s s' → F g ((M.agent g k).setMode s false) ((M.agent g k).setMode s' false))
    (h1 : fl.numShards = 1) (rs : List EvalResult) (hrs : evalResults M fl = .ok rs)
    (n : ℕ) (hn : 1 < n) (Ns : ℕ → Machine Γ V S) (hN : ∀ i < n, Spec.Twins B R k M (Ns i))
    (order : List ℕ) (horder : order.Perm (List.range n)) (o : Output) :
    let name := resultName (fl.nameOverride.map String.toList) fl.agent.toList fl.checkpointIdx
    (∀ f ∈ o fl.suite, ¬ ∃ mid, f.1 = name ++ '_' :: mid ++ ".json".toList) →
    let run := fun (o : Output) i => evalMain (Ns i) { fl with numShards := n, shardIdx := i } o
    let o' := order.foldl (fun o i => (run o i).1) o
    (∀ i < n, ∀ o, (run o i).2 = .ok ()) ∧
    ∀ flightPaths, ∃ out, (∀ c, (name ++ ".json".toList, c) ∈ combine name flightPaths (o' fl.suite) ↔ c = out) ∧
      out.Perm (rs.map fun r => if flightPaths then r else { r with path := [] }) ∧
      out.Pairwise (fun a b => a.seed < b.seed) ∧
      (fl.suite ≠ "all_strata" → out = rs.map fun r => if flightPaths then r else { r with path := [] }) ∧
      (∀ f, f.1 ≠ name ++ ".json".toList → (f ∈ combine name flightPaths (o' fl.suite) ↔ f ∈ o' fl.suite)) := by
  intro name hd run o'
  obtain ⟨g, w, r, k', v, s, seeds, p, hsuite, hev⟩ := (C116_results M fl rs).1 hrs
  have ek : k' = k := by
    obtain ⟨own', ha, -⟩ := p.gin
    rw [hk] at ha
    simp only [Option.some.injEq, Prod.mk.injEq] at ha
    exact ha.1.symm
  subst ek
  have hshard1 : shard seeds fl.shardIdx fl.numShards = seeds := by rw [h1]; simp [shard]
  rw [hshard1] at hev
  have hself : F g ((M.agent g k').setMode s false) ((M.agent g k').setMode s false) := by
    obtain ⟨v', s', -, -, hr⟩ := (hN 0 (by omega)).prepared p 0 n
    have := hR _ _ _ hr
    exact (hA g).trans_ _ _ _ this ((hA g).symm_ _ _ this)
  obtain ⟨f, hf, hall⟩ := C91_function_of_seed (hG g w r) hB (hA g) ⟨seeds, 960⟩ fl.renderPeriod true v s hself rs hev
  simp only at hf hall
  have hres : ∀ i < n, evalResults (Ns i) { fl with numShards := n, shardIdx := i } = .ok ((shard seeds i n).map f) := by
    intro i hi
    obtain ⟨v', s', p', hb, hr⟩ := (hN i hi).prepared p i n
    rw [C116_results]
    refine ⟨g, w, r, k', v', s', seeds, p', hsuite, ?_⟩
    rw [(hN i hi).gym, (hN i hi).prog]
    refine hall _ _ _ ?_ hb (hR _ _ _ hr)
    intro x hx
    rw [← C63_partition seeds n (by omega)]
    exact List.mem_flatMap.2 ⟨i, List.mem_range.2 hi, hx⟩
  have hrun : ∀ i < n, ∀ o, run o i = (writeResult { fl with numShards := n, shardIdx := i } ((shard seeds i n).map f) o, .ok ()) := by
    intro i hi o
    simp only [run, evalMain, hres i hi]
  refine ⟨fun i hi o => by rw [hrun i hi o], fun flightPaths => ?_⟩
  have ho' : o' fl.suite = order.foldl (fun (d : Dir) i => d.write (resultFile name i n) ((shard seeds i n).map f)) (o fl.suite) := by
    rw [← writeShards_output fl n (fun i => (shard seeds i n).map f)]
    have : ∀ (l : List ℕ), (∀ i ∈ l, i < n) → ∀ o, l.foldl (fun o i => (run o i).1) o =
        l.foldl (fun o i => writeResult { fl with numShards := n, shardIdx := i } ((shard seeds i n).map f) o) o := by
      intro l
      induction l with
      | nil => intro _ _; rfl
      | cons i l ih =>
        intro hl o
        rw [List.foldl_cons, List.foldl_cons, hrun i (hl i (by simp)), ih (fun j hj => hl j (by simp [hj]))]
    exact congrFun (this order (fun i hi => List.mem_range.1 (horder.mem_iff.1 hi)) o) fl.suite
  have hflat : (List.range n).flatMap (fun i => (shard seeds i n).map f) = rs := by
    rw [hf, ← List.map_flatMap, C63_partition seeds n (by omega)]
  obtain ⟨hnd, hsorted⟩ := suite_sorted fl.suite seeds hsuite
  have hseed : rs.map (·.seed) = seeds := by
    rcases hq : evalAgent (M.gym g w r) (M.agent g k') ⟨seeds, 960⟩ fl.renderPeriod true v s with ⟨v', s', q⟩
    rw [hq] at hev
    simp only at hev
    subst hev
    exact (C62_results _ _ _ _ _ _ _ _ _ _ hq).2.1
  have hperm : (combined name (o' fl.suite)).Perm rs := by
    rw [ho', ← hflat]
    unfold combined
    refine (List.mergeSort_perm _ _).trans (((write_shards name n hn _ order (horder.nodup_iff.2 List.nodup_range) _ hd).flatMap_right
      _).trans ?_)
    rw [List.flatMap_map]
    exact horder.flatMap_right _
  have hlt : (combined name (o' fl.suite)).Pairwise (fun a b => a.seed < b.seed) := by
    have hne : (combined name (o' fl.suite)).Pairwise (fun a b => a.seed ≠ b.seed) := by
      have : ((combined name (o' fl.suite)).map (·.seed)).Nodup := by
        rw [(hperm.map _).nodup_iff, hseed]; exact hnd
      exact List.pairwise_map.1 this
    exact ((C64_combined name (o' fl.suite)).2.and hne).imp fun h => lt_of_le_of_ne h.1 h.2
  have hstrip : (if flightPaths then combined name (o' fl.suite) else (combined name (o' fl.suite)).map fun r => { r with path := [] }) =
      (combined name (o' fl.suite)).map fun r => if flightPaths then r else { r with path := [] } := by
    cases flightPaths <;> simp
  refine ⟨(combined name (o' fl.suite)).map fun r => if flightPaths then r else { r with path := [] }, fun c => ?_, hperm.map _, ?_,
    fun hne => ?_, fun f' hf' => ?_⟩
  · unfold combine
    rw [hstrip]
    simp [Dir.write]
  · refine List.pairwise_map.2 (hlt.imp fun {a b} h => ?_)
    cases flightPaths <;> exact h
  · have : combined name (o' fl.suite) = rs := by
      refine List.Perm.eq_of_pairwise (le := fun a b : EvalResult => a.seed < b.seed) (fun a b _ _ h h' => ?_) hlt ?_ hperm
      · omega
      · have := hsorted hne
        rw [← hseed] at this
        exact List.pairwise_map.1 this
    rw [this]
  · unfold combine
    simp only [Dir.write, List.mem_cons, List.mem_filter, decide_eq_true_eq]
    constructor
    · rintro (rfl | h)
      · exact (hf' rfl).elim
      · exact h.1
    · intro h; exact .inr ⟨h, hf'⟩

/-- An environment whose flights last one step. -/
noncomputable def stubEnv : GymEnv Unit where
  seed _ v := v
  reset v := (v, .ok [])
  step _ v := (v, .ok { obs := [], reward := 1, terminal := true
                        info := { outOfPower := true, envelopeBurst := false, zeropressure := false, timeElapsed := 0 } })
  balloon _ := .ok { demo with x := 0, y := 0 }
  render v := v
  radius _ := 1

/-- A machine on which everything works, with that environment. -/
noncomputable def stubMachine : Machine Unit Unit Unit where
  acme := false
  parseGin _ _ := .ok ()
  makeEnv _ _ _ := .ok ()
  gym _ _ _ := stubEnv
  makeAgent _ _ _ := .ok ()
  agent _ _ := toyAgent
  load _ _ _ _ _ := .error .fileNotFound

/-- The flags of an evaluation of the station seeker. -/
def stubFlags : EvalFlags where
  agent := "station_seeker"
  suite := "tiny_eval"
  wind := "simple"
  ginFile := none
  bindings := []
  numShards := 1
  shardIdx := 0
  checkpointDir := none
  checkpointIdx := none
  nameOverride := none
  renderer := none
  renderPeriod := 10

theorem stub_prepared (fl : EvalFlags) (h : fl = { stubFlags with numShards := fl.numShards, shardIdx := fl.shardIdx }) :
    Spec.Prepared stubMachine fl () .simple false .stationSeeker () () := by
  rw [h]
  refine ⟨⟨none, rfl, rfl⟩, .inl ⟨rfl, rfl⟩, .inl ⟨rfl, rfl⟩, rfl, ⟨(), rfl, ⟨?_, fun _ => rfl⟩⟩⟩
  intro d i h
  simp [stubFlags] at h

theorem stub_succeeds : ∃ rs, evalResults stubMachine stubFlags = .ok rs ∧ rs.length = 10 := by
  have key : ∀ (seeds : List ℤ) v s, ∃ rs, (evalFlights stubEnv toyAgent 960 10 true seeds v s).2.2 = .ok rs ∧
      rs.length = seeds.length := by
    intro seeds
    induction seeds with
    | nil => intro v s; exact ⟨[], rfl, rfl⟩
    | cons x seeds ih =>
      intro v s
      obtain ⟨rs, h, hl⟩ := ih () ()
      have hf : ∃ r, (evalFlight stubEnv toyAgent 960 10 true x v s).2.2 = .ok r := by
        unfold evalFlight
        obtain ⟨n, e⟩ : ∃ n, Int.toNat 960 = n + 1 := ⟨959, rfl⟩
        rw [e]
        simp only [stubEnv, toyAgent, evalLoop]
        norm_num
      obtain ⟨r, hr⟩ := hf
      simp only [evalFlights, hr]
      rw [h]
      exact ⟨r :: rs, rfl, by simp [hl]⟩
  obtain ⟨rs, h, hl⟩ := key ((List.range 10).map fun i : ℕ => (i : ℤ)) () ()
  refine ⟨rs, ?_, by simpa using hl⟩
  rw [C116_results]
  refine ⟨(), .simple, false, .stationSeeker, (), (), _, stub_prepared _ rfl, rfl, ?_⟩
  have e : shard ((List.range 10).map fun i : ℕ => (i : ℤ)) stubFlags.shardIdx stubFlags.numShards =
      (List.range 10).map fun i : ℕ => (i : ℤ) := by simp [shard, stubFlags]
  rw [e]
  unfold evalAgent
  rw [if_neg (by norm_num)]
  exact h

/-- The hypotheses of the pipeline theorem are satisfiable: ten flights in three shards on three copies of the machine,
run in the order 2, 0, 1 into an empty directory, then combined. -/
example : ∃ rs, evalResults stubMachine stubFlags = .ok rs ∧ rs.length = 10 ∧
    ("station_seeker.json".toList, rs) ∈ combine "station_seeker".toList true
      (([2, 0, 1].foldl (fun o i => (evalMain stubMachine { stubFlags with numShards := 3, shardIdx := i } o).1) (fun _ => []))
        "tiny_eval") := by
  obtain ⟨rs, h, hl⟩ := stub_succeeds
  refine ⟨rs, h, hl, ?_⟩
  have hG : Spec.Repeats stubEnv (fun _ _ => True) (fun _ _ => True) := by
    constructor <;> simp [stubEnv]
  have hA : Spec.Frozen toyAgent (fun _ _ => True) := by
    constructor <;> simp [toyAgent]
  have hT : Spec.Twins (fun _ _ => True) (fun _ _ _ => True) .stationSeeker stubMachine stubMachine := by
    constructor <;> simp [stubMachine]
  obtain ⟨-, hc⟩ := C116_pipeline stubMachine stubFlags .stationSeeker none rfl (fun _ _ => True) (fun _ _ _ _ _ => True)
    (fun _ _ _ => True) (fun _ _ _ => True) (fun _ => trivial) (fun _ _ _ => hG) (fun _ => hA) (fun _ _ _ _ => trivial) rfl rs
    h 3 (by norm_num) (fun _ => stubMachine) (fun _ _ => hT) [2, 0, 1] (by decide) (fun _ => []) (by simp)
  obtain ⟨out, h1, -, -, h4, -⟩ := hc true
  have e := h4 (by simp [stubFlags])
  simp only [if_true, List.map_id'] at e
  subst e
  exact (h1 out).2 rfl

/-- A misspelt wind field with everything else in order. -/
example : evalMain stubMachine { stubFlags with wind := "Simple" } (fun _ => []) = (fun _ => [], .error .value) := by
  rfl

/-! ## C117 -/

theorem split_at_last {c : Char} {x y d e : List Char} (hd : c ∉ d) (he : c ∉ e) (h : x ++ c :: d = y ++ c :: e) :
    x = y ∧ d = e := by
  have h' := congrArg List.reverse h
  simp only [List.reverse_append, List.reverse_cons, List.append_assoc, List.singleton_append] at h'
  have key : ∀ (d e x y : List Char), c ∉ d → c ∉ e → d ++ c :: x = e ++ c :: y → d = e ∧ x = y := by
    intro d
    induction d with
    | nil =>
      intro e x y _ he h
      cases e with
      | nil => simpa using h
      | cons a e =>
        simp only [List.nil_append, List.cons_append, List.cons.injEq] at h
        exact (he (by simp [h.1])).elim
    | cons a d ih =>
      intro e x y hd he h
      cases e with
      | nil =>
        simp only [List.nil_append, List.cons_append, List.cons.injEq] at h
        exact (hd (by simp [h.1])).elim
      | cons b e =>
        simp only [List.cons_append, List.cons.injEq] at h
        obtain ⟨h1, h2⟩ := ih e x y (fun q => hd (by simp [q])) (fun q => he (by simp [q])) h.2
        exact ⟨by rw [h.1, h1], h2⟩
  obtain ⟨h1, h2⟩ := key _ _ _ _ (by simpa using hd) (by simpa using he) h'
  exact ⟨List.reverse_injective h2, List.reverse_injective h1⟩

theorem digits_only (k : ℕ) : ∀ c ∈ (toString k).toList, c.isDigit = true := by
  intro c hc
  rw [Nat.toString_eq_repr, Nat.toList_repr] at hc
  exact Nat.isDigit_of_mem_toDigits (by norm_num) (by norm_num) hc

theorem digits_ne_nil (k : ℕ) : (toString k).toList ≠ [] := by
  rw [Nat.toString_eq_repr, Nat.toList_repr]
  exact Nat.toDigits_ne_nil

theorem underscore_digits (k : ℕ) : '_' ∉ (toString k).toList := fun h => by
  have := digits_only k _ h
  revert this; decide

/-- No agent is called like another one followed by a number. -/
theorem agent_not_numbered (acme : Bool) (a : String) (h : (Spec.agentOf acme a).isSome) (x : List Char) (k : ℕ) :
    a.toList ≠ x ++ '_' :: (toString k).toList := by
  intro e
  have hlast : a.toList.getLast?.any Char.isDigit = true := by
    rw [e]
    obtain ⟨c, hc⟩ := Option.isSome_iff_exists.1 (List.getLast?_isSome.2 (digits_ne_nil k))
    rw [List.getLast?_append, List.getLast?_cons, hc]
    simpa using digits_only k c (List.mem_of_getLast? hc)
  have hu : '_' ∈ a.toList := by rw [e]; simp
  clear e
  unfold Spec.agentOf at h
  split at h <;> first | (revert hu; decide) | (revert hlast; decide) | simp at h

theorem resultName_inj (acme : Bool) (a b : String) (ha : (Spec.agentOf acme a).isSome) (hb : (Spec.agentOf acme b).isSome)
    (i j : Option ℕ) (h : resultName none a.toList i = resultName none b.toList j) : a = b ∧ i = j := by
  simp only [resultName] at h
  cases i with
  | none =>
    cases j with
    | none => exact ⟨String.toList_inj.1 h, rfl⟩
    | some j => exact (agent_not_numbered acme a ha _ _ h).elim
  | some i =>
    cases j with
    | none => exact (agent_not_numbered acme b hb _ _ h.symm).elim
    | some j =>
      obtain ⟨h1, h2⟩ := split_at_last (underscore_digits i) (underscore_digits j) h
      exact ⟨String.toList_inj.1 h1, by rw [toString_inj h2]⟩

/-- C117 (partial). Two evaluations under names of agents, both sharded or both not, write the same file only if they
have the same agent, the same checkpoint number and (if sharded) the same shard. Missing from the full property: one sharded
and one not (`C117_shard_or_checkpoint`), and that a result named after a checkpoint comes from it
(`C117_checkpoint_not_loaded`). -/
theorem C117_files_partial (acme : Bool) (f1 f2 : EvalFlags) (h1 : (Spec.agentOf acme f1.agent).isSome)
    (h2 : (Spec.agentOf acme f2.agent).isSome) (n1 : f1.nameOverride = none) (n2 : f2.nameOverride = none)
    (hs : 1 < f1.numShards ↔ 1 < f2.numShards) (h : f1.file = f2.file) :
    f1.agent = f2.agent ∧ f1.checkpointIdx = f2.checkpointIdx ∧ (1 < f1.numShards → f1.shardIdx = f2.shardIdx) := by
  unfold EvalFlags.file resultFile at h
  rw [n1, n2] at h
  simp only [Option.map_none, List.append_cancel_right_eq, gt_iff_lt] at h
  by_cases hn : 1 < f1.numShards
  · rw [if_pos hn, if_pos (hs.1 hn)] at h
    obtain ⟨e1, e2⟩ := split_at_last (underscore_digits _) (underscore_digits _) h
    obtain ⟨q1, q2⟩ := resultName_inj acme _ _ h1 h2 _ _ e1
    exact ⟨q1, q2, fun _ => toString_inj e2⟩
  · rw [if_neg hn, if_neg (fun q => hn (hs.2 q))] at h
    obtain ⟨q1, q2⟩ := resultName_inj acme _ _ h1 h2 _ _ h
    exact ⟨q1, q2, fun q => (hn q).elim⟩

/-- The full property is false of the code: shard `i` of an evaluation without checkpoint has the same file as the
unsharded evaluation of checkpoint `i` of the same agent, so the later one overwrites the earlier one. -/
theorem C117_shard_or_checkpoint (fl : EvalFlags) (hn : fl.nameOverride = none) (n i j : ℕ) (h : 1 < n) :
    ({ fl with numShards := n, shardIdx := i, checkpointIdx := none } : EvalFlags).file =
      ({ fl with numShards := 1, shardIdx := j, checkpointIdx := some i } : EvalFlags).file := by
  unfold EvalFlags.file resultFile resultName
  simp [hn, h]

/-- Nor is a result file named after a checkpoint always a result of that checkpoint: with a number but no directory nothing
is loaded, and the results are those of the agent as constructed, in a file that bears the number. -/
theorem C117_checkpoint_not_loaded (M : Machine Γ V S) (fl : EvalFlags) (hd : fl.checkpointDir = none)
    (hn : fl.nameOverride = none) (h1 : fl.numShards = 1) (i : ℕ) :
    evalResults M { fl with checkpointIdx := some i } = evalResults M { fl with checkpointIdx := none } ∧
    ({ fl with checkpointIdx := some i } : EvalFlags).file = fl.agent.toList ++ '_' :: (toString i).toList ++ ".json".toList := by
  constructor
  · have e : evalSetup M { fl with checkpointIdx := some i } = evalSetup M { fl with checkpointIdx := none } := by
      unfold evalSetup
      simp only [hd]
    unfold evalResults
    rw [e]
  · unfold EvalFlags.file resultFile resultName
    simp [hn, h1]

theorem intToString_slash (n : ℤ) : '/' ∉ (toString n).toList := by
  intro h
  have nat : ∀ k : ℕ, '/' ∉ (toString k).toList := fun k h => by
    have := digits_only k _ h
    revert this; decide
  cases n with
  | ofNat k => exact nat k h
  | negSucc k =>
    have e : toString (Int.negSucc k) = "-" ++ toString (k + 1) := rfl
    rw [e, String.toList_append] at h
    rcases List.mem_append.1 h with h | h
    · revert h; decide
    · exact nat _ h

theorem intToString_inj {m n : ℤ} (h : (toString m).toList = (toString n).toList) : m = n := by
  have minus : ∀ k : ℕ, '-' ∉ (toString k).toList := fun k h => by
    have := digits_only k _ h
    revert this; decide
  have neg : ∀ k : ℕ, (toString (Int.negSucc k)).toList = '-' :: (toString (k + 1)).toList := fun k => by
    have e : toString (Int.negSucc k) = "-" ++ toString (k + 1) := rfl
    rw [e, String.toList_append]; rfl
  cases m with
  | ofNat m =>
    cases n with
    | ofNat n =>
      have : (toString m).toList = (toString n).toList := h
      rw [toString_inj this]
    | negSucc n =>
      rw [neg] at h
      have h : (toString m).toList = _ := h
      exact (minus m (by rw [h]; simp)).elim
  | negSucc m =>
    cases n with
    | ofNat n =>
      rw [neg] at h
      have h : _ = (toString n).toList := h
      exact (minus n (by rw [← h]; simp)).elim
    | negSucc n =>
      rw [neg, neg] at h
      have := toString_inj (List.cons.inj h).2
      congr 1; omega

/-- C117. Training runs under the same base directory are kept apart: the directories of two runs are the same only
for the same agent and the same run number. -/
theorem C117_run_dirs (a b : String) (m n : ℤ) (h : runDir a m = runDir b n) : a = b ∧ m = n := by
  obtain ⟨h1, h2⟩ := split_at_last (intToString_slash m) (intToString_slash n) h
  exact ⟨String.toList_inj.1 h1, intToString_inj h2⟩

/-- The second checkpoint of the MLP agent, and its second shard of three. -/
example : ({ stubFlags with agent := "mlp", checkpointIdx := some 2 } : EvalFlags).file = "mlp_2.json".toList ∧
    ({ stubFlags with agent := "mlp", numShards := 3, shardIdx := 2 } : EvalFlags).file = "mlp_2.json".toList := by
  decide

end BLE
