import Verif.Props.AcmeTrain

/-!
# C151: what the seed of an Acme training run determines
-/

namespace BLE

variable {K W Rd V S T : Type}

/-- Two environments that stay in step: `Q` is kept by resets that succeed and by all steps, and related environments answer alike. -/
structure Lockstep (G : GymEnv V) (Q : V → V → Prop) : Prop where
  reset_ : ∀ u v, Q u v → (G.reset u).2 = (G.reset v).2 ∧ ∀ o, (G.reset u).2 = .ok o → Q (G.reset u).1 (G.reset v).1
  step_ : ∀ a u v, Q u v → (G.step a u).2 = (G.step a v).2 ∧ Q (G.step a u).1 (G.step a v).1

/-- The same flight in wrappers in the same phase. -/
def SameWrapped (Q : V → V → Prop) (w w' : Wrapped V) : Prop :=
  Q w.env w'.env ∧ w.resetNext = w'.resetNext ∧ w.elapsed = w'.elapsed

theorem wrappedReset_same {G : GymEnv V} {Q : V → V → Prop} (h : Lockstep G Q) {w w' : Wrapped V} (hw : SameWrapped Q w w') :
    (w.reset G).2 = (w'.reset G).2 ∧ ∀ t, (w.reset G).2 = .ok t → SameWrapped Q (w.reset G).1 (w'.reset G).1 := by
  obtain ⟨h1, h2⟩ := h.reset_ _ _ hw.1
  unfold Wrapped.reset
  simp only [← h1]
  refine ⟨trivial, fun t ht => ?_⟩
  rcases ho : (G.reset w.env).2 with e | o
  · rw [ho] at ht; cases ht
  · exact ⟨h2 o ho, rfl, rfl⟩

theorem gymStep_same {G : GymEnv V} {Q : V → V → Prop} (h : Lockstep G Q) (a : ℤ) {w w' : Wrapped V} (hw : SameWrapped Q w w') :
    (w.gymStep G a).2 = (w'.gymStep G a).2 ∧
      ∀ t, (w.gymStep G a).2 = .ok t → SameWrapped Q (w.gymStep G a).1 (w'.gymStep G a).1 := by
  obtain ⟨e1, e2, e3⟩ := hw
  unfold Wrapped.gymStep
  rw [← e2]
  by_cases hr : w.resetNext = true
  · obtain ⟨h1, h2⟩ := h.reset_ _ _ e1
    simp only [hr, if_true, ← h1]
    refine ⟨trivial, fun t ht => ?_⟩
    rcases ho : (G.reset w.env).2 with e | o
    · rw [ho] at ht; cases ht
    · exact ⟨h2 o ho, rfl, e3⟩
  · obtain ⟨h1, h2⟩ := h.step_ a _ _ e1
    simp only [hr, ← h1]
    rcases ho : (G.step a w.env).2 with e | o
    · exact ⟨rfl, fun t ht => by cases ht⟩
    · exact ⟨rfl, fun t ht => ⟨h2, rfl, e3⟩⟩

theorem wrappedStep_same {G : GymEnv V} {Q : V → V → Prop} (h : Lockstep G Q) (limit a : ℤ) {w w' : Wrapped V}
    (hw : SameWrapped Q w w') :
    (w.step G limit a).2 = (w'.step G limit a).2 ∧
      ∀ t, (w.step G limit a).2 = .ok t → SameWrapped Q (w.step G limit a).1 (w'.step G limit a).1 := by
  unfold Wrapped.step
  rw [← hw.2.2]
  by_cases he : w.elapsed = -1
  · rw [if_pos he, if_pos he]; exact wrappedReset_same h hw
  · rw [if_neg he, if_neg he]
    obtain ⟨h1, h2⟩ := gymStep_same h a hw
    simp only [← h1]
    rcases ho : (w.gymStep G a).2 with e | t
    · exact ⟨rfl, fun t ht => by cases ht⟩
    · obtain ⟨g1, g2, g3⟩ := h2 t ho
      simp only [← g3]
      split_ifs with hc
      · exact ⟨rfl, fun _ _ => ⟨g1, g2, rfl⟩⟩
      · exact ⟨rfl, fun _ _ => ⟨g1, g2, by simp only [g3]⟩⟩

/-- Both episodes go on, or both end alike. -/
def SameEpisode (Q : V → V → Prop) : Option (Wrapped V × S × Except Err (ℕ × ℝ)) → Option (Wrapped V × S × Except Err (ℕ × ℝ)) → Prop
  | none, none => True
  | some (w, s, x), some (w', s', x') => s = s' ∧ x = x' ∧ ∀ y, x = .ok y → SameWrapped Q w w'
  | _, _ => False

theorem acmeSteps_same {G : GymEnv V} {Q : V → V → Prop} (h : Lockstep G Q) (limit : ℤ) (A : Actor S) (fuel : ℕ) :
    ∀ (w w' : Wrapped V) (s : S) (t : TimeStep) (n : ℕ) (ret : ℝ), SameWrapped Q w w' →
      SameEpisode Q (acmeSteps G limit A fuel w s t n ret) (acmeSteps G limit A fuel w' s t n ret) := by
  induction fuel with
  | zero =>
    intro w w' s t n ret hw
    unfold acmeSteps
    split_ifs
    · exact ⟨rfl, rfl, fun _ _ => hw⟩
    · trivial
  | succ fuel ih =>
    intro w w' s t n ret hw
    unfold acmeSteps
    split_ifs
    · exact ⟨rfl, rfl, fun _ _ => hw⟩
    · simp only
      rcases ha : (A.select s t.obs).2 with e | a
      · exact ⟨rfl, rfl, fun _ hy => by cases hy⟩
      · simp only
        obtain ⟨h1, h2⟩ := wrappedStep_same h limit a hw
        rw [← h1]
        rcases ho : (w.step G limit a).2 with e | t'
        · exact ⟨rfl, rfl, fun _ hy => by cases hy⟩
        · exact ih _ _ _ _ _ _ (h2 t' ho)

/-- What a loop has to show: the actor, the counts and the logged returns. -/
def Spec.record (l : AcmeLoop V S) : S × AcmeCount × List ℝ := (l.actor, l.count, l.returns)

/-- Both runs are still going, or both ended with the same outcome and the same records. -/
def Spec.SameRun : Option (AcmeLoop V S × AcmeLoop V T × Except Err Unit) → Option (AcmeLoop V S × AcmeLoop V T × Except Err Unit) → Prop
  | none, none => True
  | some (l, m, x), some (l', m', x') => Spec.record l = Spec.record l' ∧ Spec.record m = Spec.record m' ∧ x = x'
  | _, _ => False

/-- Both episodes of a loop are still going, or both ended alike. -/
def SameOne (Q : V → V → Prop) : Option (AcmeLoop V S × Except Err Unit) → Option (AcmeLoop V S × Except Err Unit) → Prop
  | none, none => True
  | some (l, x), some (l', x') => Spec.record l = Spec.record l' ∧ x = x' ∧ (x = .ok () → SameWrapped Q l.env l'.env)
  | _, _ => False

theorem runOne_same {G : GymEnv V} {Q : V → V → Prop} (h : Lockstep G Q) (limit : ℤ) (A : Actor S) (fuel : ℕ) (l l' : AcmeLoop V S)
    (hr : Spec.record l = Spec.record l') (hw : SameWrapped Q l.env l'.env) :
    SameOne Q (l.runOne G limit A fuel) (l'.runOne G limit A fuel) := by
  obtain ⟨e, s, k, r⟩ := l
  obtain ⟨e', s', k', r'⟩ := l'
  simp only [Spec.record, Prod.mk.injEq] at hr
  obtain ⟨rfl, rfl, rfl⟩ := hr
  simp only at hw
  obtain ⟨h1, h2⟩ := wrappedReset_same h hw
  unfold AcmeLoop.runOne
  simp only [← h1]
  rcases ho : (e.reset G).2 with x | t
  · exact ⟨rfl, rfl, fun hx => by cases hx⟩
  · simp only
    rcases hf : (A.observeFirst s t).2 with x | x
    · exact ⟨rfl, rfl, fun hx => by cases hx⟩
    · simp only
      have hs := acmeSteps_same h limit A fuel _ _ (A.observeFirst s t).1 t 0 0 (h2 t ho)
      rcases g1 : acmeSteps G limit A fuel (e.reset G).1 (A.observeFirst s t).1 t 0 0 with _ | ⟨w1, s1, x1⟩ <;>
        rcases g2 : acmeSteps G limit A fuel (e'.reset G).1 (A.observeFirst s t).1 t 0 0 with _ | ⟨w2, s2, x2⟩ <;>
        rw [g1, g2] at hs
      · trivial
      · exact hs.elim
      · exact hs.elim
      · obtain ⟨rfl, rfl, hq⟩ := hs
        rcases x1 with x | ⟨n, ret⟩
        · exact ⟨rfl, rfl, fun hx => by cases hx⟩
        · exact ⟨rfl, rfl, fun _ => hq _ rfl⟩

theorem acmeTraining_same {Gt Ge : GymEnv V} {Q Q' : V → V → Prop} (ht : Lockstep Gt Q) (he : Lockstep Ge Q') (limit : ℤ) (A : Actor S)
    (E : S → Actor T) (fuel n : ℕ) : ∀ (l l' : AcmeLoop V S) (m m' : AcmeLoop V T), Spec.record l = Spec.record l' →
      Spec.record m = Spec.record m' → SameWrapped Q l.env l'.env → SameWrapped Q' m.env m'.env →
      Spec.SameRun (acmeTraining Gt Ge limit A E fuel n l m) (acmeTraining Gt Ge limit A E fuel n l' m') := by
  induction n with
  | zero => intro l l' m m' h1 h2 _ _; exact ⟨h1, h2, rfl⟩
  | succ n ih =>
    intro l l' m m' h1 h2 h3 h4
    unfold acmeTraining
    have hs := runOne_same ht limit A fuel l l' h1 h3
    rcases g1 : l.runOne Gt limit A fuel with _ | ⟨l1, x1⟩ <;> rcases g2 : l'.runOne Gt limit A fuel with _ | ⟨l2, x2⟩ <;>
      rw [g1, g2] at hs
    · trivial
    · exact hs.elim
    · exact hs.elim
    · obtain ⟨r1, rfl, q1⟩ := hs
      rcases x1 with x | x
      · exact ⟨r1, h2, rfl⟩
      · simp only
        have ha : l1.actor = l2.actor := congrArg Prod.fst r1
        rw [← ha]
        have hs := runOne_same he limit (E l1.actor) fuel m m' h2 h4
        rcases g3 : m.runOne Ge limit (E l1.actor) fuel with _ | ⟨m1, x1⟩ <;>
          rcases g4 : m'.runOne Ge limit (E l1.actor) fuel with _ | ⟨m2, x2⟩ <;> rw [g3, g4] at hs
        · trivial
        · exact hs.elim
        · exact hs.elim
        · obtain ⟨r2, rfl, q2⟩ := hs
          rcases x1 with x | x
          · exact ⟨r1, r2, rfl⟩
          · exact ih _ _ _ _ r1 r2 (q1 rfl) (q2 rfl)

/-! ### Balloon environments -/

/-- Environments in the same phase of the same flight with the same random state. -/
def Twin (u v : Env K W Rd) : Prop := Alike u.arena v.arena ∧ u.rng = v.rng

theorem envReset_twin (c : EnvCfg K W Rd) (hC : Spec.ForgetsForecast c.world.C) (u v : Env K W Rd) (hr : u.rng = v.rng) :
    (u.reset c none).2 = (v.reset c none).2 ∧
      ∀ o, (u.reset c none).2 = .ok o → Twin (u.reset c none).1 (v.reset c none).1 := by
  unfold Env.reset
  simp only [hr]
  obtain ⟨h1, h2⟩ := reset_alike c.world hC (c.world.J.split v.rng 2 1) u.arena v.arena
  rw [← h1]
  rcases ho : (u.arena.reset c.world (c.world.J.split v.rng 2 1)).2 with e | obs
  · exact ⟨rfl, fun o h => by cases h⟩
  · have hal := h2 obs ho
    have hal' := hal
    obtain ⟨i, j, F, G, hA, hB, _, _, _, _, _, _, _, h6, _, _⟩ := hal
    simp only [hA, hB, h6]
    exact ⟨trivial, fun o _ => ⟨hal', rfl⟩⟩

theorem lockstep_balloon (c : EnvCfg K W Rd) (hC : Spec.ForgetsForecast c.world.C) : Lockstep (balloonEnv c) Twin where
  reset_ u v h := by
    obtain ⟨h1, h2⟩ := envReset_twin c hC u v h.2
    refine ⟨by simp only [balloonEnv, h1], fun o ho => ?_⟩
    rcases hr : (u.reset c none).2 with e | x
    · simp only [balloonEnv, hr] at ho; cases ho
    · exact h2 x hr
  step_ a u v h := by
    obtain ⟨h1, h2⟩ := envStep_alike c a h.1
    exact ⟨h1, h2, by rw [show ((balloonEnv c).step a u) = u.step c a from rfl, show ((balloonEnv c).step a v) = v.step c a from rfl,
      envStep_rng, envStep_rng]; exact h.2⟩

theorem new_twin (c : EnvCfg K W Rd) (hC : Spec.ForgetsForecast c.world.C) (w w' : WindField W) (dead dead' : BState) (km km' : ℝ)
    (seed seed' : Option ℤ) (rd rd' : Option Rd) (k1 k2 k1' k2' : ℤ) (hs : seed.getD k2 = seed'.getD k2') (u v : Env K W Rd)
    (hu : Env.new c w dead km seed rd k1 k2 = .ok u) (hv : Env.new c w' dead' km' seed' rd' k1' k2' = .ok v) : Twin u v := by
  have main : ∀ (w : WindField W) (dead : BState) (km : ℝ) (seed : Option ℤ) (rd : Option Rd) (k1 k2 : ℤ) (u : Env K W Rd),
      Env.new c w dead km seed rd k1 k2 = .ok u → ∃ (x : Env K W Rd) (o : List ℝ × Info), x.rng = c.world.J.prngKey (seed.getD k2) ∧
        x.reset c none = (u, .ok o) := by
    intro w dead km seed rd k1 k2 u h
    unfold Env.new at h
    simp only at h
    split at h
    · cases h
    · split at h
      · cases h
      · rename_i o ho
        injection h with h
        refine ⟨_, o, ?_, Prod.ext h ho⟩
        rfl
  obtain ⟨x, o, x1, x2⟩ := main _ _ _ _ _ _ _ _ hu
  obtain ⟨y, o', y1, y2⟩ := main _ _ _ _ _ _ _ _ hv
  have := (envReset_twin c hC x y (by rw [x1, y1, hs])).2 o (by rw [x2])
  rw [x2, y2] at this
  exact this

/-- C151. Every session with an environment is determined by the seed it was built with: build two environments of one
configuration with the same seed — or without, at the same reading of the clock —, whatever other readings the constructor made and
whatever its renderer, radius and initial memory, and use them in the same way (resets and steps in any order): all outcomes
are the same until a reset fails. -/
theorem C151_session (c : EnvCfg K W Rd) (hC : Spec.ForgetsForecast c.world.C) (w w' : WindField W) (dead dead' : BState)
    (km km' : ℝ) (seed seed' : Option ℤ) (rd rd' : Option Rd) (k1 k2 k1' k2' : ℤ) (hs : seed.getD k2 = seed'.getD k2')
    (u v : Env K W Rd) (hu : Env.new c w dead km seed rd k1 k2 = .ok u)
    (hv : Env.new c w' dead' km' seed' rd' k1' k2' = .ok v) (ops : List Spec.Op)
    (hok : ∀ ops', ops' ++ [.reset] <+: ops → ∃ o, ((Spec.use c ops' u).reset c none).2 = .ok o) :
    (∀ a, ((Spec.use c ops u).step c a).2 = ((Spec.use c ops v).step c a).2) ∧
    ((Spec.use c ops u).reset c none).2 = ((Spec.use c ops v).reset c none).2 := by
  have key : ∀ (ops : List Spec.Op) (u v : Env K W Rd), Twin u v →
      (∀ ops', ops' ++ [.reset] <+: ops → ∃ o, ((Spec.use c ops' u).reset c none).2 = .ok o) →
      Twin (Spec.use c ops u) (Spec.use c ops v) := by
    intro ops
    induction ops with
    | nil => intro u v h _; exact h
    | cons o ops ih =>
      intro u v h hok
      cases o with
      | step a =>
        exact ih _ _ ((lockstep_balloon c hC).step_ a u v h).2 fun ops' hp => hok (.step a :: ops') (by simpa using hp)
      | reset =>
        obtain ⟨o, ho⟩ := hok [] (by simp)
        exact ih _ _ ((envReset_twin c hC u v h.2).2 o ho) fun ops' hp => hok (.reset :: ops') (by simpa using hp)
  have ht := key ops u v (new_twin c hC w w' dead dead' km km' seed seed' rd rd' k1 k2 k1' k2' hs u v hu hv) hok
  exact ⟨fun a => (envStep_alike c a ht.1).1, (envReset_twin c hC _ _ ht.2).1⟩

/-! ### The script -/

theorem new_radius (c : EnvCfg K W Rd) (w : WindField W) (dead : BState) (km : ℝ) (seed : Option ℤ) (rd : Option Rd) (k1 k2 : ℤ)
    (u : Env K W Rd) (h : Env.new c w dead km seed rd k1 k2 = .ok u) : u.radius = km * 1000 := by
  unfold Env.new at h
  simp only at h
  split at h
  · cases h
  · split at h
    · cases h
    · injection h with h
      rw [← h, envReset_radius]

/-- What the two environments of the script are. -/
theorem createEnv_ok (c : EnvCfg K W Rd) (w : WindField W) (dead : BState) (isEval : Bool) (maxLen : ℤ) (k : ℕ → ℤ)
    (r : GymEnv (Env K W Rd) × Wrapped (Env K W Rd)) (h : createEnv c w dead isEval maxLen k = .ok r) :
    ∃ u, Env.new (acmeCfg c isEval maxLen 50000) w dead 50 none none (k (if isEval then 2 else 0)) (k (if isEval then 3 else 1)) = .ok u ∧
      r = (balloonEnv (acmeCfg c isEval maxLen 50000), ⟨u, true, 0⟩) := by
  unfold createEnv at h
  rcases hn : Env.new c w dead 50 none none (k 0) (k 1) with e | v
  · rw [hn] at h; cases h
  · rw [hn] at h
    have hv : v.radius = 50000 := by rw [new_radius c _ _ _ _ _ _ _ _ hn]; norm_num
    simp only [hv] at h
    cases isEval with
    | false =>
      simp only [Bool.false_eq_true, if_false, Except.ok.injEq] at h ⊢
      exact ⟨v, hn, h.symm⟩
    | true =>
      simp only [if_true] at h ⊢
      rcases hm : Env.new (acmeCfg c true maxLen 50000) w dead 50 none none (k 2) (k 3) with e | u
      · rw [hm] at h; cases h
      · rw [hm] at h
        injection h with h
        exact ⟨u, rfl, h.symm⟩

theorem acmeCfg_world (c : EnvCfg K W Rd) (isEval : Bool) (maxLen : ℤ) (ρ : ℝ) : (acmeCfg c isEval maxLen ρ).world = c.world := by
  unfold acmeCfg; split <;> rfl

/-- C151, the part of the claim that holds. The script's run — every logged return of training and of evaluation, every count, the
agents and the outcome — is determined by `--seed` together with two readings of the clock: those made when the training
environment and the evaluation environment seed themselves. No other reading and no initial memory matters.
(Full claim, which is false: by `--seed` alone.) -/
theorem C151_run_partial (c : EnvCfg K W Rd) (hC : Spec.ForgetsForecast c.world.C) (w w' : WindField W) (dead dead' : BState)
    (mk : ℤ → S) (t0 : T) (A : Actor S) (E : S → Actor T) (fuel : ℕ) (seed maxLen : ℤ) (n : ℕ) (k k' : ℕ → ℤ)
    (h1 : k 1 = k' 1) (h5 : k 5 = k' 5) (r r' : Option (AcmeLoop (Env K W Rd) S × AcmeLoop (Env K W Rd) T × Except Err Unit))
    (hr : acmeMain c w dead mk t0 A E fuel seed maxLen n k = .ok r)
    (hr' : acmeMain c w' dead' mk t0 A E fuel seed maxLen n k' = .ok r') : Spec.SameRun r r' := by
  have main : ∀ (w : WindField W) (dead : BState) (k : ℕ → ℤ)
      (r : Option (AcmeLoop (Env K W Rd) S × AcmeLoop (Env K W Rd) T × Except Err Unit)),
      acmeMain c w dead mk t0 A E fuel seed maxLen n k = .ok r → ∃ u v,
        Env.new (acmeCfg c false maxLen 50000) w dead 50 none none (k 0) (k 1) = .ok u ∧
        Env.new (acmeCfg c true maxLen 50000) w dead 50 none none (k 4) (k 5) = .ok v ∧
        r = acmeTraining (balloonEnv (acmeCfg c false maxLen 50000)) (balloonEnv (acmeCfg c true maxLen 50000)) maxLen A E fuel n
          ⟨⟨u, true, 0⟩, mk seed, ⟨0, 0⟩, []⟩ ⟨⟨v, true, 0⟩, t0, ⟨0, 0⟩, []⟩ := by
    intro w dead k r h
    unfold acmeMain at h
    rcases e1 : createEnv c w dead false maxLen k with e | x
    · rw [e1] at h; cases h
    · rw [e1] at h
      simp only at h
      rcases e2 : createEnv c w dead true maxLen (fun i => k (i + 2)) with e | y
      · rw [e2] at h; cases h
      · rw [e2] at h
        obtain ⟨u, a1, rfl⟩ := createEnv_ok _ _ _ _ _ _ _ e1
        obtain ⟨v, b1, rfl⟩ := createEnv_ok _ _ _ _ _ _ _ e2
        injection h with h
        exact ⟨u, v, a1, b1, h.symm⟩
  obtain ⟨u, v, a1, b1, rfl⟩ := main _ _ _ _ hr
  obtain ⟨u', v', a1', b1', rfl⟩ := main _ _ _ _ hr'
  have c1 : Spec.ForgetsForecast (acmeCfg c false maxLen 50000).world.C := by rw [acmeCfg_world]; exact hC
  have c2 : Spec.ForgetsForecast (acmeCfg c true maxLen 50000).world.C := by rw [acmeCfg_world]; exact hC
  exact acmeTraining_same (lockstep_balloon _ c1) (lockstep_balloon _ c2) _ _ _ _ _ _ _ _ _ rfl rfl
    ⟨new_twin _ c1 _ _ _ _ _ _ _ _ _ _ _ _ _ _ (by simpa using h1) _ _ a1 a1', rfl, rfl⟩
    ⟨new_twin _ c2 _ _ _ _ _ _ _ _ _ _ _ _ _ _ (by simpa using h5) _ _ b1 b1', rfl, rfl⟩

/-- C151, the script starts: with sane random draws, the real sun and a wind that can be asked, both environments are built whatever
the clock says, so that the hypotheses of `C151_run_partial` are met. -/
theorem C151_starts (c : EnvCfg K W Rd) (hJ : Spec.SaneDraws c.world.J) (two : Bool) (hR : c.world.R = gpr two)
    (cal : Calendar) (hcal : Spec.Gregorian cal) (hE : c.world.sun = realSun cal) (hC : Spec.GoodWind c.world.C)
    (w : WindField W) (dead : BState) (mk : ℤ → S) (t0 : T) (A : Actor S) (E : S → Actor T) (fuel : ℕ) (seed maxLen : ℤ) (n : ℕ)
    (k : ℕ → ℤ) :
    ∃ u v, Env.new (acmeCfg c false maxLen 50000) w dead 50 none none (k 0) (k 1) = .ok u ∧
      Env.new (acmeCfg c true maxLen 50000) w dead 50 none none (k 4) (k 5) = .ok v ∧
      acmeMain c w dead mk t0 A E fuel seed maxLen n k =
        .ok (acmeTraining (balloonEnv (acmeCfg c false maxLen 50000)) (balloonEnv (acmeCfg c true maxLen 50000)) maxLen A E fuel n
          ⟨⟨u, true, 0⟩, mk seed, ⟨0, 0⟩, []⟩ ⟨⟨v, true, 0⟩, t0, ⟨0, 0⟩, []⟩) := by
  have main : ∀ (isEval : Bool) (k : ℕ → ℤ), ∃ r, createEnv c w dead isEval maxLen k = .ok r := by
    intro isEval k
    unfold createEnv
    obtain ⟨u, -, hu, -⟩ := C102_new c hJ two hR cal hcal hE hC w dead 50 none none (k 0) (k 1)
    obtain ⟨v, -, hv, -⟩ := C102_new (acmeCfg c true maxLen u.radius) (by rw [acmeCfg_world]; exact hJ) two
      (by rw [acmeCfg_world]; exact hR) cal hcal (by rw [acmeCfg_world]; exact hE) (by rw [acmeCfg_world]; exact hC) w dead 50 none
      none (k 2) (k 3)
    rw [hu]
    simp only [hv]
    cases isEval
    · exact ⟨_, rfl⟩
    · exact ⟨_, rfl⟩
  obtain ⟨x, hx⟩ := main false k
  obtain ⟨y, hy⟩ := main true fun i => k (i + 2)
  obtain ⟨u, a1, rfl⟩ := createEnv_ok _ _ _ _ _ _ _ hx
  obtain ⟨v, b1, rfl⟩ := createEnv_ok _ _ _ _ _ _ _ hy
  refine ⟨u, v, a1, b1, ?_⟩
  unfold acmeMain
  rw [hx]
  simp only [hy]

/-! ### The seed does not determine the run -/

/-- The same the other way: the wind brings the balloon no nearer than it can in the time that passes. -/
theorem reach_below {E : World K W} {B : ℝ} (hB : Spec.WindLimit E B) {A : Arena K W} {i : ℕ}
    (hA : Spec.InEpisode E A i) (a : Command) (s s' : BState) (hs : s = A.heap.balls i) (hs' : s' = (A.step E a).1.heap.balls i) :
    Real.sqrt (s.x ^ 2 + s.y ^ 2) ≤
      Real.sqrt (s'.x ^ 2 + s'.y ^ 2) + B * (((s'.timeElapsed - s.timeElapsed : ℤ) : ℝ) / 1000000) := by
  rcases arenaStep_ball E a A i hA.ball with ⟨e, -, h⟩ | ⟨w, hw, h, -⟩
  · rw [h] at hs'
    simp only at hs'
    rw [← hs] at hs'
    subst hs'
    simp
  · rw [h, Function.update_self, ← hs] at hs'
    rw [← hs] at hw
    obtain ⟨k, d, w0, hweather⟩ := hA.weather
    unfold windAtBalloon at hw
    rw [hweather] at hw
    have lim := hB k d w0 _ _ _ _ w (by rw [hs]; exact hA.flyer.clock) hw
    obtain ⟨d1, d2⟩ := C16_drift E.sun (A.heap.atms A.atm) w.1 w.2 a agentStep defaultStride s
    obtain ⟨j, -, hj⟩ := simulateStep_time E.sun (A.heap.atms A.atm) w.1 w.2 a s
    rw [← hs'] at d1 d2 hj
    have h0 : (0 : ℝ) ≤ ((s'.timeElapsed - s.timeElapsed : ℤ) : ℝ) / 1000000 := by
      have : (0 : ℤ) ≤ s'.timeElapsed - s.timeElapsed := by rw [hj]; omega
      have : (0 : ℝ) ≤ ((s'.timeElapsed - s.timeElapsed : ℤ) : ℝ) := by exact_mod_cast this
      positivity
    have key := drift_triangle s'.x s'.y (-w.1) (-w.2) _ B h0 (by simpa using lim)
    have e1 : s'.x + -w.1 * (((s'.timeElapsed - s.timeElapsed : ℤ) : ℝ) / 1000000) = s.x := by rw [neg_mul, ← d1]; ring
    have e2 : s'.y + -w.2 * (((s'.timeElapsed - s.timeElapsed : ℤ) : ℝ) / 1000000) = s.y := by rw [neg_mul, ← d2]; ring
    rw [e1, e2] at key
    exact key

/-- During an episode every step changes the distance from the station by at most 180 `B`. -/
theorem acmeSteps_near {c : EnvCfg K W Rd} {B : ℝ} (hB0 : 0 ≤ B) (hB : Spec.WindLimit c.world B) {v v' : Env K W Rd}
    {t : List (StepOut × BState)} (h : Spec.AcmeSteps c v t v') : ∀ i, Spec.InEpisode c.world v.arena i →
      v'.rng = v.rng ∧ ∀ x ∈ t,
        Real.sqrt (x.2.x ^ 2 + x.2.y ^ 2) ≤
          Real.sqrt ((v.arena.heap.balls i).x ^ 2 + (v.arena.heap.balls i).y ^ 2) + 180 * B * t.length ∧
        Real.sqrt ((v.arena.heap.balls i).x ^ 2 + (v.arena.heap.balls i).y ^ 2) ≤
          Real.sqrt (x.2.x ^ 2 + x.2.y ^ 2) + 180 * B * t.length := by
  induction h with
  | nil => intro i _; exact ⟨rfl, by simp⟩
  | @cons v v1 v2 a out j t hstep hball rest ih =>
    intro i hi
    have e1 : v1 = (v.step c a).1 := by rw [hstep]
    obtain ⟨hb, -, -, -, -, -, ⟨n, hn, ht⟩, -⟩ := C97_invariants c [a] v (v.step c a).1 rfl i hi.ball _ _ rfl rfl
    rw [← e1] at hb ht
    have hij : j = i := by rw [hball] at hb; injection hb
    subst hij
    have hv1 : Spec.InEpisode c.world v1.arena j ∧
        Real.sqrt ((v1.arena.heap.balls j).x ^ 2 + (v1.arena.heap.balls j).y ^ 2) ≤
          Real.sqrt ((v.arena.heap.balls j).x ^ 2 + (v.arena.heap.balls j).y ^ 2) + 180 * B ∧
        Real.sqrt ((v.arena.heap.balls j).x ^ 2 + (v.arena.heap.balls j).y ^ 2) ≤
          Real.sqrt ((v1.arena.heap.balls j).x ^ 2 + (v1.arena.heap.balls j).y ^ 2) + 180 * B := by
      have hdt : B * ((((v1.arena.heap.balls j).timeElapsed - (v.arena.heap.balls j).timeElapsed : ℤ) : ℝ) / 1000000) ≤ 180 * B := by
        rw [ht]
        simp only [List.length_cons, List.length_nil] at hn
        have : (n : ℝ) ≤ 18 := by exact_mod_cast (by omega : n ≤ 18)
        push_cast
        have : B * n ≤ B * 18 := mul_le_mul_of_nonneg_left this hB0
        linarith
      rcases envStep_arena c a v with e | ⟨cmd, e⟩ <;> rw [← e1] at e
      · rw [e]; exact ⟨hi, by linarith, by linarith⟩
      · have r1 := reach_arena hB hi cmd _ (v1.arena.heap.balls j) rfl (by rw [e])
        have r2 := reach_below hB hi cmd _ (v1.arena.heap.balls j) rfl (by rw [e])
        exact ⟨by rw [e]; exact inEpisode_step hi cmd, by linarith, by linarith⟩
    obtain ⟨k1, k2, k3⟩ := hv1
    obtain ⟨r0, r⟩ := ih j k1
    refine ⟨by rw [r0, e1, envStep_rng], fun x hx => ?_⟩
    have hl : 0 ≤ 180 * B * t.length := by positivity
    rw [List.length_cons]
    push_cast
    rcases List.mem_cons.1 hx with rfl | hx
    · constructor <;> simp only <;> linarith
    · obtain ⟨q1, q2⟩ := r x hx
      constructor <;> linarith

/-- A reset puts the balloon 200 km times the beta draw away from its station. -/
theorem reset_distance (E : World K W) (hJ : Spec.SaneDraws E.J) (key : K) (A : Arena K W) (obs : List ℝ)
    (h : (A.reset E key).2 = .ok obs) (i : ℕ) (hi : (A.reset E key).1.ball = some i) :
    Real.sqrt (((A.reset E key).1.heap.balls i).x ^ 2 + ((A.reset E key).1.heap.balls i).y ^ 2) =
      200 * 1000 * E.J.beta (E.J.split (E.J.split key 3 0) 6 1) := by
  obtain ⟨a0, a1⟩ := (hJ (E.J.split key 3 1)).1
  unfold Arena.reset at h hi ⊢
  simp only at h hi ⊢
  rcases hb : initBalloon E (E.J.uniform (E.J.split key 3 1)) (E.J.split key 3 0)
    (sampleTime timeBegin (E.J.choice (E.J.split key 3 2) (sampleTimeCount timeBegin timeEnd).toNat)) with e | b
  · rw [hb] at h; cases h
  · rw [hb] at h hi
    simp only at h hi ⊢
    obtain ⟨r, θ, -, -, -, -, -, -, hr, -, hd⟩ := C78_distance E hJ _ a0 a1.le _ _ b hb
    split_ifs at h hi ⊢ with hs
    rw [(measure_frame E _ _ _).2.2.2.2] at hi
    rw [(measure_frame E _ _ _).1]
    simp only [Option.some.injEq] at hi
    subst hi
    simp only [Function.update_self]
    rw [hd, hr]

/-- A world whose only random number is the seed itself: balloons start over the station if it is 0, and 200 km away otherwise. -/
noncomputable def clockWorld : World ℤ Unit where
  J := { prngKey := id, split := fun k _ _ => k, uniform := fun _ => 0, uniform4 := fun _ _ => 0,
         beta := fun k => if k = 0 then 0 else 1, choice := fun _ _ => 0, upwelling := fun _ => 250 }
  nz := fun _ _ _ _ _ => 0
  C := staticWind ℤ
  R := gpr true
  sun := realSun gregorian

/-- The default reward, no renderer. -/
noncomputable def clockCfg : EnvCfg ℤ Unit Unit :=
  { world := clockWorld, rewardFn := reward clockWorld.sun RewardParams.default
    render := { reset := id, step := fun r _ _ _ => r, render := id } }

theorem clockWorld_draws : Spec.SaneDraws clockWorld.J := by
  intro k
  refine ⟨⟨le_rfl, ?_⟩, ?_, ⟨?_, ?_⟩, fun n hn => hn⟩
  · norm_num [clockWorld]
  · simp only [clockWorld]; split_ifs <;> norm_num
  · norm_num [clockWorld]
  · norm_num [clockWorld]

theorem clockWorld_limit : Spec.WindLimit clockWorld 21.1 :=
  C136_static_limit clockWorld rfl (fun _ _ _ _ _ => by norm_num [clockWorld])

/-- In that world an evaluation episode of at most 39 minutes is flown near the station, or far away from it, depending on the random
state, which stays as it is. -/
theorem clock_episode {L : ℕ} (hL : 0 < L) (hL' : L ≤ 13) (A : Actor S) (v v' : Env ℤ Unit Unit) (s s' : S) (os : List StepOut)
    (h : Spec.AcmeEpisode (balloonEnv (acmeCfg clockCfg true L 50000)) L A v s v' s' os) :
    v'.rng = v.rng ∧ (v.rng = 0 → 0 < (os.map (·.reward)).sum) ∧ (v.rng ≠ 0 → (os.map (·.reward)).sum = 0) := by
  obtain ⟨hl1, hl2⟩ := h.length
  obtain ⟨v0, obs, t, h1, h2, rfl, -, h4, -⟩ := C145_score clockCfg 50000 (by norm_num) L hL A v v' s s' os h
  obtain ⟨v0', obs', info, i, hr, hi, -⟩ := C102_env_reset clockCfg clockWorld_draws true rfl gregorian gregorian_ok rfl good_static v none
  have e0 : v0' = v0 := by
    have := congrArg Prod.fst h1
    simp only [balloonEnv, hr] at this
    exact this
  subst e0
  have hrng : v0'.rng = v.rng := by
    have := (envReset_rng clockCfg v).1
    rw [hr] at this
    exact this
  have hw : (acmeCfg clockCfg true L 50000).world = clockCfg.world := acmeCfg_world ..
  have hdist : Real.sqrt ((v0'.arena.heap.balls i).x ^ 2 + (v0'.arena.heap.balls i).y ^ 2) = 200 * 1000 * (if v.rng = 0 then 0 else 1) := by
    have har := (envReset_rng clockCfg v).2
    rw [hr] at har
    simp only at har
    have hok : ∃ o, (v.arena.reset clockCfg.world (clockCfg.world.J.split v.rng 2 1)).2 = .ok o := by
      obtain ⟨A', o, -, ho, -⟩ := C102_reset clockCfg.world clockWorld_draws true rfl gregorian gregorian_ok rfl good_static
        (clockCfg.world.J.split v.rng 2 1) v.arena
      exact ⟨o, by rw [ho]⟩
    obtain ⟨o, ho⟩ := hok
    have := reset_distance clockCfg.world clockWorld_draws _ v.arena o ho i (by rw [← har]; exact hi.ball)
    rw [har, this]
    rfl
  obtain ⟨n1, n2⟩ := acmeSteps_near (B := 21.1) (by norm_num) (by rw [hw]; exact clockWorld_limit) h2 i (by rw [hw]; exact hi)
  rw [hdist] at n2
  simp only [List.length_map] at hl1 hl2
  have htl : (180 * 21.1 * t.length : ℝ) ≤ 49374 := by
    have : (t.length : ℝ) ≤ 13 := by exact_mod_cast hl2.trans hL'
    linarith
  obtain ⟨-, -, -, -, z⟩ := C104_score clockCfg 50000 (by norm_num) L (by exact_mod_cast hL) v0' v' t h2 (by exact_mod_cast hl2)
  have hm : (t.map Prod.fst).map (·.reward) = t.map fun x => x.1.reward := by simp [Function.comp_def]
  rw [hm] at h4 ⊢
  have sq : ∀ x y : ℝ, 0 ≤ x ^ 2 + y ^ 2 := fun x y => by positivity
  refine ⟨n1.trans hrng, fun hz => ?_, fun hz => z.2 fun x hx => ?_⟩
  · refine lt_of_le_of_ne h4 fun h0 => ?_
    have hall := z.1 h0.symm
    obtain ⟨x, hx⟩ := List.exists_mem_of_length_pos hl1
    have b1 := (n2 x hx).1
    rw [if_pos hz] at b1
    have b2 := Real.lt_sqrt (by norm_num) |>.2 (hall x hx)
    linarith
  · have b1 := (n2 x hx).2
    rw [if_neg hz] at b1
    exact (Real.lt_sqrt (by norm_num)).1 (by linarith)

/-- C151, the refutation of the full claim. In a world with admissible random draws, the real sun, the static wind and the default
reward, for every seed and every agent of the script: the run whose evaluation environment reads 0 from the clock scores in
every evaluation, and the run with the same seed that reads anything else scores in none. -/
theorem C151_not_from_seed (w w' : WindField Unit) (dead dead' : BState) (mk : ℤ → S) (t0 : T) (A : Actor S) (I J : S → Prop)
    (hA : Spec.AcmePilot clockCfg.world A I J) (hI : ∀ z, I (mk z)) (E : S → Actor T) (I' J' : T → Prop)
    (hE : ∀ s, Spec.AcmePilot clockCfg.world (E s) I' J') (hI' : I' t0) (L : ℕ) (hL : 0 < L) (hL' : L ≤ 13) (fuel : ℕ) (hf : L ≤ fuel)
    (n : ℕ) (seed : ℤ) (k k' : ℕ → ℤ) (hk : k 5 = 0) (hk' : k' 5 ≠ 0) :
    ∃ l m l' m', acmeMain clockCfg w dead mk t0 A E fuel seed L n k = .ok (some (l, m, .ok ())) ∧
      acmeMain clockCfg w' dead' mk t0 A E fuel seed L n k' = .ok (some (l', m', .ok ())) ∧
      m.returns.length = n ∧ m'.returns.length = n ∧ (∀ r ∈ m.returns, 0 < r) ∧ ∀ r ∈ m'.returns, r = 0 := by
  have main : ∀ (w : WindField Unit) (dead : BState) (k : ℕ → ℤ), ∃ l m,
      acmeMain clockCfg w dead mk t0 A E fuel seed L n k = .ok (some (l, m, .ok ())) ∧ m.returns.length = n ∧
      (k 5 = 0 → ∀ r ∈ m.returns, 0 < r) ∧ (k 5 ≠ 0 → ∀ r ∈ m.returns, r = 0) := by
    intro w dead k
    obtain ⟨u, v, -, hv, hm⟩ := C151_starts clockCfg clockWorld_draws true rfl gregorian gregorian_ok rfl good_static w dead mk t0 A E
      fuel seed L n k
    obtain ⟨l, m, hc⟩ := C145_completes clockCfg clockWorld_draws true rfl gregorian gregorian_ok rfl good_static RewardParams.default
      (by norm_num [RewardParams.default]) rfl 21.1 (by norm_num) clockWorld_limit 50000 50000 A I J hA E I' J' hE L hL (by omega)
      (by have : (L : ℝ) ≤ 13 := by exact_mod_cast hL'
          linarith) fuel hf n
      ⟨⟨u, true, 0⟩, mk seed, ⟨0, 0⟩, []⟩ ⟨⟨v, true, 0⟩, t0, ⟨0, 0⟩, []⟩ (hI seed) hI'
    rw [hc] at hm
    obtain ⟨os, ps, hr, -, h2, -, -, -, -, -, h8, -⟩ := (C145_script _ _ L hL A E fuel hf n _ _).2 l m hc
    have hrng : v.rng = k 5 := by
      unfold Env.new at hv
      simp only at hv
      split at hv
      · cases hv
      · split at hv
        · cases hv
        · injection hv with hv
          rw [← hv]
          refine (envReset_rng (acmeCfg clockCfg true L 50000) (Env.seed (acmeCfg clockCfg true L 50000) (k 5) _)).1.trans ?_
          simp only [Env.seed, acmeCfg_world]
          rfl
    simp only at hr
    refine ⟨l, m, hm, by rw [h8]; simpa using h2, ?_⟩
    rw [h8, ← hrng]
    simp only [List.nil_append]
    clear hv hm hc h8 h2 hrng
    generalize mk seed = a2, t0 = a4, l.env.env = b1, l.actor = b2, m.env.env = b3, m.actor = b4 at hr
    induction hr with
    | nil => simp
    | round _ he _ ih =>
      obtain ⟨e1, e2, e3⟩ := clock_episode hL hL' _ _ _ _ _ _ he
      rw [e1] at ih
      refine ⟨fun hz r hr => ?_, fun hz r hr => ?_⟩ <;> rw [List.map_cons, List.mem_cons] at hr <;> rcases hr with rfl | hr
      exacts [e2 hz, ih.1 hz r hr, e3 hz, ih.2 hz r hr]
  obtain ⟨l, m, a1, a2, a3, -⟩ := main w dead k
  obtain ⟨l', m', b1, b2, -, b3⟩ := main w' dead' k'
  exact ⟨l, m, l', m', a1, b1, a2, b2, a3 hk, b3 hk'⟩

/-- A thousand episodes with the default seed 0 of an agent that always ascends: all evaluations score, or none. -/
example : ∃ (k k' : ℕ → ℤ) (l m l' m' : AcmeLoop (Env ℤ Unit Unit) Unit),
    acmeMain clockCfg ⟨(), NoiseModel.new⟩ demo (fun _ => ()) () climber (fun _ => climber) 13 0 13 1000 k = .ok (some (l, m, .ok ())) ∧
    acmeMain clockCfg ⟨(), NoiseModel.new⟩ demo (fun _ => ()) () climber (fun _ => climber) 13 0 13 1000 k' =
      .ok (some (l', m', .ok ())) ∧ m.returns ≠ m'.returns := by
  have hp : ∀ _ : Unit, Spec.AcmePilot clockCfg.world climber (fun _ => True) (fun _ => True) := fun _ =>
    ⟨fun s t _ _ => ⟨_, rfl, trivial⟩, fun s obs _ _ => ⟨_, 2, rfl, .inr (.inr rfl), fun _ _ => trivial⟩, fun _ _ => trivial⟩
  obtain ⟨l, m, l', m', h1, h2, h3, h4, h5, h6⟩ := C151_not_from_seed ⟨(), NoiseModel.new⟩ ⟨(), NoiseModel.new⟩ demo demo (fun _ => ()) ()
    climber _ _ (hp ()) (fun _ => trivial) (fun _ => climber) _ _ hp trivial 13 (by norm_num) le_rfl 13 le_rfl 1000 0 (fun _ => 0)
    (fun _ => 1) rfl (by norm_num)
  refine ⟨_, _, l, m, l', m', h1, h2, fun he => ?_⟩
  obtain ⟨r, hr⟩ := List.exists_mem_of_length_pos (l := m.returns) (by rw [h3]; norm_num)
  have a := h5 r hr
  have b := h6 r (he ▸ hr)
  linarith

/-- `C151_run_partial` on the two runs that differ in all readings of the clock but those two. -/
example (w w' : WindField Unit) (k k' : ℕ → ℤ) (h1 : k 1 = k' 1) (h5 : k 5 = k' 5) : ∃ r r',
    acmeMain clockCfg w demo (fun _ => ()) () climber (fun _ => climber) 13 0 13 1000 k = .ok r ∧
    acmeMain clockCfg w' demo (fun _ => ()) () climber (fun _ => climber) 13 0 13 1000 k' = .ok r' ∧ Spec.SameRun r r' := by
  obtain ⟨u, v, -, -, h⟩ := C151_starts clockCfg clockWorld_draws true rfl gregorian gregorian_ok rfl good_static w demo (fun _ => ()) ()
    climber (fun _ => climber) 13 0 13 1000 k
  obtain ⟨u', v', -, -, h'⟩ := C151_starts clockCfg clockWorld_draws true rfl gregorian gregorian_ok rfl good_static w' demo (fun _ => ()) ()
    climber (fun _ => climber) 13 0 13 1000 k'
  exact ⟨_, _, h, h', C151_run_partial clockCfg (fun _ _ _ _ => rfl) w w' demo demo _ _ _ _ _ _ _ _ k k' h1 h5 _ _ h h'⟩

/-- `C151_session`: two environments built with seed 7 at different times fly the same flights, however many. -/
example (ops : List Spec.Op) (k1 k2 k1' k2' : ℤ) : ∃ u v,
    Env.new clockCfg ⟨(), NoiseModel.new⟩ demo 50 (some 7) none k1 k2 = .ok u ∧
    Env.new clockCfg ⟨(), NoiseModel.new⟩ demo 50 (some 7) none k1' k2' = .ok v ∧
    ((Spec.use clockCfg ops u).step clockCfg 2).2 = ((Spec.use clockCfg ops v).step clockCfg 2).2 := by
  obtain ⟨u, -, hu, -⟩ := C102_new clockCfg clockWorld_draws true rfl gregorian gregorian_ok rfl good_static ⟨(), NoiseModel.new⟩ demo 50
    (some 7) none k1 k2
  obtain ⟨v, -, hv, -⟩ := C102_new clockCfg clockWorld_draws true rfl gregorian gregorian_ok rfl good_static ⟨(), NoiseModel.new⟩ demo 50
    (some 7) none k1' k2'
  refine ⟨u, v, hu, hv, (C151_session clockCfg (fun _ _ _ _ => rfl) _ _ _ _ _ _ _ _ _ _ _ _ _ _ rfl u v hu hv ops fun ops' _ => ?_).1 2⟩
  obtain ⟨v', obs, info, i, h, -⟩ := C102_env_reset clockCfg clockWorld_draws true rfl gregorian gregorian_ok rfl good_static
    (Spec.use clockCfg ops' u) none
  exact ⟨_, by rw [h]⟩

end BLE
