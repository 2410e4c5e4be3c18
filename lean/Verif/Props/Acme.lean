import Verif.Model.Acme
import Verif.Props.Episode

/-!
# Acme: C104, C105
-/

namespace BLE

variable {K W Rd : Type}

/-! ## C104 — the score of an evaluation episode -/

/-- A stretch of an episode: any actions, each step successful; what was returned and the balloon after each step. -/
inductive Spec.AcmeSteps (c : EnvCfg K W Rd) : Env K W Rd → List (StepOut × BState) → Env K W Rd → Prop
  | nil (v : Env K W Rd) : Spec.AcmeSteps c v [] v
  | cons {v v1 v2 : Env K W Rd} {a : ℤ} {out : StepOut} {i : ℕ} {t : List (StepOut × BState)}
      (hstep : v.step c a = (v1, .ok out)) (hball : v1.arena.ball = some i) (rest : Spec.AcmeSteps c v1 t v2) :
      Spec.AcmeSteps c v ((out, v1.arena.heap.balls i) :: t) v2

/-- The number of steps after which the balloon was at most `ρ` metres from the station. -/
noncomputable def Spec.stepsWithin (ρ : ℝ) (t : List (StepOut × BState)) : ℕ :=
  open Classical in (t.filter fun x => x.2.x ^ 2 + x.2.y ^ 2 ≤ ρ ^ 2).length

theorem stepsWithin_cons (ρ : ℝ) (x : StepOut × BState) (t : List (StepOut × BState)) :
    (x.2.x ^ 2 + x.2.y ^ 2 ≤ ρ ^ 2 → Spec.stepsWithin ρ (x :: t) = Spec.stepsWithin ρ t + 1) ∧
    (¬ x.2.x ^ 2 + x.2.y ^ 2 ≤ ρ ^ 2 → Spec.stepsWithin ρ (x :: t) = Spec.stepsWithin ρ t) := by
  constructor <;> intro h <;> simp [Spec.stepsWithin, List.filter_cons, h]

theorem stepsWithin_le (ρ : ℝ) (t : List (StepOut × BState)) : Spec.stepsWithin ρ t ≤ t.length :=
  List.length_filter_le _ _

theorem acme_rewards (c : EnvCfg K W Rd) (ρ : ℝ) (L : ℤ) (v v' : Env K W Rd) (t : List (StepOut × BState))
    (h : Spec.AcmeSteps (acmeCfg c true L ρ) v t v') :
    ∀ x ∈ t, acmeReward ρ L x.2 = .ok x.1.reward := by
  induction h with
  | nil => simp
  | @cons v v1 v2 a out i t hstep hball rest ih =>
    intro x hx
    rcases List.mem_cons.1 hx with rfl | hx
    · obtain ⟨j, hj, hrew, -⟩ := C96_reported _ a _ _ _ hstep
      rw [hball] at hj
      cases hj
      exact hrew
    · exact ih x hx

theorem acme_sum (ρ : ℝ) (hρ : 0 ≤ ρ) (L : ℤ) (t : List (StepOut × BState))
    (h : ∀ x ∈ t, acmeReward ρ L x.2 = .ok x.1.reward) :
    (t.map fun x => x.1.reward).sum = Spec.stepsWithin ρ t / (L : ℝ) := by
  induction t with
  | nil => simp [Spec.stepsWithin]
  | cons x t ih =>
    have i := ih fun y hy => h y (List.mem_cons_of_mem _ hy)
    have hx := h x (by simp)
    unfold acmeReward at hx
    split at hx
    · cases hx
    rename_i hL
    injection hx with hx
    have hL' : (L : ℝ) ≠ 0 := by exact_mod_cast hL
    simp only [List.map_cons, List.sum_cons, i, ← hx]
    by_cases hw : x.2.x ^ 2 + x.2.y ^ 2 ≤ ρ ^ 2
    · rw [if_pos ((withinRadius_iff _ _).2 ⟨hw, hρ⟩), (stepsWithin_cons ρ x t).1 hw]
      push_cast; field_simp; ring
    · rw [if_neg (fun hc => hw ((withinRadius_iff _ _).1 hc).1), (stepsWithin_cons ρ x t).2 hw]
      simp

/-- C104. In the evaluation environment of `create_env` with a positive episode length `L`, the rewards of any episode
of at most `L` steps — whatever the actions, the wind and the start — add up to the number of steps after which the
balloon was within the radius, divided by `L` (not by the number of steps flown). The score lies between 0 and 1, is 1
exactly if all `L` steps were flown and ended within the radius, and 0 exactly if none did. -/
theorem C104_score (c : EnvCfg K W Rd) (ρ : ℝ) (hρ : 0 ≤ ρ) (L : ℤ) (hL : 0 < L) (v v' : Env K W Rd)
    (t : List (StepOut × BState)) (h : Spec.AcmeSteps (acmeCfg c true L ρ) v t v') (hlen : (t.length : ℤ) ≤ L) :
    let score : ℝ := (t.map fun x => x.1.reward).sum
    score * L = Spec.stepsWithin ρ t ∧ 0 ≤ score ∧ score ≤ 1 ∧
    (score = 1 ↔ (t.length : ℤ) = L ∧ ∀ x ∈ t, x.2.x ^ 2 + x.2.y ^ 2 ≤ ρ ^ 2) ∧
    (score = 0 ↔ ∀ x ∈ t, ρ ^ 2 < x.2.x ^ 2 + x.2.y ^ 2) := by
  intro score
  have hs : score = Spec.stepsWithin ρ t / (L : ℝ) := acme_sum ρ hρ L t (acme_rewards c ρ L v v' t h)
  have hL' : (0 : ℝ) < L := by exact_mod_cast hL
  have hw := stepsWithin_le ρ t
  have hwL : (Spec.stepsWithin ρ t : ℝ) ≤ L := by
    have : ((Spec.stepsWithin ρ t : ℕ) : ℤ) ≤ L := le_trans (by exact_mod_cast hw) hlen
    exact_mod_cast this
  refine ⟨by rw [hs]; field_simp, by rw [hs]; positivity, by rw [hs, div_le_one hL']; exact hwL, ?_, ?_⟩
  · rw [hs, div_eq_one_iff_eq hL'.ne']
    constructor
    · intro e
      have e' : ((Spec.stepsWithin ρ t : ℕ) : ℤ) = L := by exact_mod_cast e
      have hlt : t.length = Spec.stepsWithin ρ t := by omega
      refine ⟨by omega, ?_⟩
      unfold Spec.stepsWithin at hlt
      have := List.length_filter_eq_length_iff.1 hlt.symm
      intro x hx
      simpa using this x hx
    · rintro ⟨e, hall⟩
      have : Spec.stepsWithin ρ t = t.length := by
        unfold Spec.stepsWithin
        exact List.length_filter_eq_length_iff.2 fun x hx => by simpa using hall x hx
      rw [this]; exact_mod_cast e
  · rw [hs, div_eq_zero_iff]
    constructor
    · rintro (e | e)
      · have e' : Spec.stepsWithin ρ t = 0 := by exact_mod_cast e
        unfold Spec.stepsWithin at e'
        intro x hx
        have := List.filter_eq_nil_iff.1 (List.length_eq_zero_iff.1 e') x hx
        simpa using this
      · exact absurd e hL'.ne'
    · intro hall
      left
      have : Spec.stepsWithin ρ t = 0 := by
        unfold Spec.stepsWithin
        rw [List.length_eq_zero_iff, List.filter_eq_nil_iff]
        intro x hx
        simpa using hall x hx
      exact_mod_cast this

/-- C104. The same environment flown by the project's own evaluation with the same episode length and radius: Acme's
score is the reported time within the radius, discounted by the part of the episode that was not flown. It never exceeds
it, and equals it exactly if the flight lasted its full length or was never within the radius. -/
theorem C104_against_twr {S : Type} (c : EnvCfg K W Rd) (A : Agent S) (suite : Suite) (period : ℤ) (paths : Bool)
    (v v' : Env K W Rd) (s s' : S) (rs : List EvalResult) (hρ : 0 ≤ v.radius)
    (h : evalAgent (balloonEnv (acmeCfg c true suite.maxLen v.radius)) A suite period paths v s = (v', s', .ok rs)) :
    ∀ r ∈ rs, r.cumulative = r.twr * (r.finalStep / suite.maxLen) ∧ r.cumulative ≤ r.twr ∧
      (r.cumulative = r.twr ↔ (r.finalStep : ℤ) = suite.maxLen ∨ r.twr = 0) := by
  have h1' := (C62_results _ _ _ _ _ _ _ _ _ _ h).1
  clear h
  obtain ⟨seeds, L⟩ := suite
  simp only at h1' ⊢
  generalize A.setMode s false = s0 at h1'
  generalize hρ' : v.radius = ρ at h1' hρ
  induction h1' with
  | nil => simp
  | @cons v v1 v2 s s1 s2 seed seeds r rs hf rest ih =>
    obtain ⟨-, v0, obs, sA, a, t, sB, hreset, -, hfl, hrep, -⟩ := hf
    have hv0 : v0.radius = v.radius := by
      have e : v0 = ((v.seed (acmeCfg c true L ρ) seed).reset (acmeCfg c true L ρ) none).1 :=
        (congrArg Prod.fst hreset).symm
      rw [e]
      unfold Env.reset
      simp only
      split
      · rfl
      · split <;> rfl
    obtain ⟨hr1, hseen⟩ := flight_radius _ A hfl
    intro r' hr'
    rcases List.mem_cons.1 hr' with rfl | hr'
    · obtain ⟨e1, e1', e2, e3, e4, e5, e6, -⟩ := hrep
      have hn : (0 : ℝ) < r'.finalStep := by exact_mod_cast e1'
      have hLz : 0 < L := by omega
      have hL : (0 : ℝ) < L := by exact_mod_cast hLz
      have hnL : (r'.finalStep : ℝ) ≤ L := by exact_mod_cast e2
      have hsum := acme_sum ρ hρ L (t.map fun x => (x.out, x.ball)) (by
        intro x hx
        obtain ⟨y, hy, rfl⟩ := List.mem_map.1 hx
        exact (hseen y hy).2)
      have hcount : (Spec.stepsWithin ρ (t.map fun x => (x.out, x.ball)) : ℝ) = r'.twr * r'.finalStep := by
        rw [e4, e1]
        have hne : (t.length : ℝ) ≠ 0 := by rw [← e1]; exact hn.ne'
        rw [div_mul_cancel₀ _ hne]
        unfold Spec.stepsWithin
        rw [List.filter_map, List.length_map]
        congr 2
        apply List.filter_congr
        intro x hx
        have : x.radius = ρ := by rw [(hseen x hx).1, hv0, hρ']
        simp [this, hρ]
      have hcum : r'.cumulative = r'.twr * (r'.finalStep / L) := by
        rw [e3]
        have : (t.map (·.out.reward)).sum = ((t.map fun x => (x.out, x.ball)).map fun x => x.1.reward).sum := by
          rw [List.map_map]; rfl
        rw [this, hsum, hcount]; ring
      have hq : (r'.finalStep : ℝ) / L ≤ 1 := (div_le_one hL).2 hnL
      refine ⟨hcum, by rw [hcum]; nlinarith, ?_⟩
      rw [hcum]
      constructor
      · intro e
        by_cases h0 : r'.twr = 0
        · exact Or.inr h0
        · left
          have : (r'.finalStep : ℝ) / L = 1 := by
            have : r'.twr * ((r'.finalStep : ℝ) / L - 1) = 0 := by linarith
            rcases mul_eq_zero.1 this with h | h
            · exact absurd h h0
            · linarith
          rw [div_eq_one_iff_eq hL.ne'] at this
          exact_mod_cast this
      · rintro (e | e)
        · have : (r'.finalStep : ℝ) = L := by exact_mod_cast e
          rw [this, div_self hL.ne', mul_one]
        · rw [e]; ring
    · exact ih (by rw [hr1, hv0, hρ']) r' hr'

/-- C104. An episode length of 0 makes every step fail; training environments keep their reward. -/
theorem C104_edges (c : EnvCfg K W Rd) (ρ : ℝ) (L : ℤ) :
    acmeCfg c false L ρ = c ∧ ∀ b, (acmeCfg c true 0 ρ).rewardFn b = .error .zeroDivision := by
  refine ⟨rfl, fun b => ?_⟩
  show acmeReward ρ 0 b = _
  simp [acmeReward]

/-- A balloon on station pays 1/960 per step, one 60 km away nothing. -/
example : acmeReward 50000 960 { demo with x := 30000, y := 40000 } = .ok (1 / 960) ∧
    acmeReward 50000 960 { demo with x := 60000, y := 0 } = .ok 0 := by
  constructor
  · unfold acmeReward
    rw [if_neg (by norm_num), if_pos ((withinRadius_iff _ _).2 ⟨by norm_num, by norm_num⟩)]
    norm_num
  · unfold acmeReward
    rw [if_neg (by norm_num), if_neg (fun hc => absurd ((withinRadius_iff _ _).1 hc).1 (by norm_num))]
    norm_num

/-! ## C105 — exploration under Acme -/

variable {S X : Type}

/-- Acme's environment loop so far: the first time step is shown to the actor; then again and again the actor selects an
action for the latest observation, the environment answers, and the actor is told the action and the answer and asked to
update itself. The list are the answers, the second one the actions flown. -/
inductive Spec.Acted (A : Actor S) (s : S) (t0 : TimeStep) : List TimeStep → S → List ℤ → Prop
  | start {s' : S} : A.observeFirst s t0 = (s', .ok ()) → Spec.Acted A s t0 [] s' []
  | next {xs : List TimeStep} {s1 s2 : S} {as : List ℤ} {a : ℤ} (t : TimeStep) :
      Spec.Acted A s t0 xs s1 as → A.select s1 ((xs.getLast?.getD t0).obs) = (s2, .ok a) →
      Spec.Acted A s t0 (xs ++ [t]) (A.update (A.observe s2 a t)) (as ++ [a])

/-- The same loop for an actor whose proposals `ps` are replaced by the actions `as` before they are flown: it is told
the action flown. -/
inductive Spec.Driven (B : Actor S) (b : S) (t0 : TimeStep) : List TimeStep → S → List ℤ → List ℤ → Prop
  | start {b' : S} : B.observeFirst b t0 = (b', .ok ()) → Spec.Driven B b t0 [] b' [] []
  | next {xs : List TimeStep} {b1 b2 : S} {ps as : List ℤ} {p a : ℤ} {t : TimeStep} :
      Spec.Driven B b t0 xs b1 ps as → B.select b1 ((xs.getLast?.getD t0).obs) = (b2, .ok p) →
      Spec.Driven B b t0 (xs ++ [t]) (B.update (B.observe b2 a t)) (ps ++ [p]) (as ++ [a])

theorem driven_length {B : Actor S} {b b' : S} {t0 : TimeStep} {xs : List TimeStep} {ps as : List ℤ}
    (h : Spec.Driven B b t0 xs b' ps as) : ps.length = xs.length ∧ as.length = xs.length := by
  induction h with
  | start _ => exact ⟨rfl, rfl⟩
  | next _ _ ih => simp [ih.1, ih.2]

/-- The observations for which the actions are selected, with the reward 0 and the policy's proposals. -/
def Spec.offered (t0 : TimeStep) (xs : List TimeStep) (ps : List ℤ) : List (ℝ × List ℝ × ℤ) :=
  List.zipWith (fun t p => (0, t.obs, p)) (t0 :: xs) ps

theorem offered_length (t0 : TimeStep) (xs : List TimeStep) (ps : List ℤ) (h : ps.length = xs.length) :
    (Spec.offered t0 xs ps).length = xs.length := by
  simp [Spec.offered, h]

theorem offered_snoc (t0 t : TimeStep) (xs : List TimeStep) (ps : List ℤ) (p : ℤ) (h : ps.length = xs.length) :
    Spec.offered t0 (xs ++ [t]) (ps ++ [p]) = Spec.offered t0 xs ps ++ [(0, (xs.getLast?.getD t0).obs, p)] := by
  induction xs generalizing t0 ps with
  | nil =>
    have : ps = [] := List.length_eq_zero_iff.1 h
    subst this
    simp [Spec.offered]
  | cons x xs ih =>
    cases ps with
    | nil => simp at h
    | cons q ps =>
      have := ih x ps (by simpa using h)
      simp only [Spec.offered, List.cons_append, List.zipWith_cons_cons] at this ⊢
      rw [this]
      simp only [List.cons.injEq, true_and]
      cases xs with
      | nil => simp
      | cons y ys => simp [List.getLast?_cons_cons, List.getLast?_eq_some_getLast (List.cons_ne_nil y ys)]

theorem combined_run (J : Jax K) (B : Actor S) (E : Agent X) (b : S) (m : Marco K X) (t0 : TimeStep) (xs : List TimeStep)
    (z : S × Marco K X) (as : List ℤ) (h : Spec.Acted (combinedActor B (marcoPolo J E)) (b, m) t0 xs z as) :
    ∃ m0 ps, (marcoPolo J E).beginEpisode m t0.obs 42 = (m0, .ok 42) ∧ Spec.Driven B b t0 xs z.1 ps as ∧
      z.2 = Spec.marcoAfter J E (Spec.offered t0 xs ps) m0 ∧
      ∀ i, i < xs.length → .ok (as.getD i 0) =
        (if m0.episode = true ∧ Spec.exploring (i + 1) then
          (E.step (Spec.explorerAfter E m0.episode 1 ((Spec.offered t0 xs ps).take i) (E.beginEpisode m.agent t0.obs).1) 0
            ((t0 :: xs).getD i t0).obs).2
        else Except.ok (ε := Err) (ps.getD i 0)) := by
  induction h with
  | @start z hz =>
    simp only [combinedActor] at hz
    rcases hb : (B.observeFirst b t0) with ⟨b1, _ | u⟩
    · rw [hb] at hz; cases hz
    rw [hb] at hz
    rcases hx : (marcoPolo J E).beginEpisode m t0.obs 42 with ⟨m1, _ | a⟩
    · rw [hx] at hz; cases hz
    rw [hx] at hz
    simp only [Prod.mk.injEq, and_true] at hz
    have ha : a = 42 := (C58_schedule J E m m1 t0.obs 42 a hx [] 0 [] 0).1
    subst ha
    subst hz
    exact ⟨m1, [], rfl, .start (by rw [hb]), by simp [Spec.offered, Spec.marcoAfter], by simp⟩
  | @next xs s1 s2 as a t hprev hsel ih =>
    obtain ⟨m0, ps, h1, h2, h3, h4⟩ := ih
    obtain ⟨l1, l2⟩ := driven_length h2
    set o := (xs.getLast?.getD t0).obs with ho
    simp only [combinedActor] at hsel
    rcases hb : B.select s1.1 o with ⟨b2, _ | p⟩
    · rw [hb] at hsel; cases hsel
    rw [hb] at hsel
    simp only at hsel
    rcases hx : (marcoPolo J E).step s1.2 0 o p with ⟨m2, _ | a'⟩
    · rw [hx] at hsel; cases hsel
    rw [hx] at hsel
    simp only [Prod.mk.injEq, Except.ok.injEq] at hsel
    obtain ⟨rfl, rfl⟩ := hsel
    have hoff := offered_snoc t0 t xs ps p l1
    refine ⟨m0, ps ++ [p], h1, .next h2 (by rw [← ho, hb]), ?_, ?_⟩
    · rw [hoff]
      show m2 = _
      unfold Spec.marcoAfter at h3 ⊢
      rw [List.foldl_append, ← h3]
      simp only [List.foldl_cons, List.foldl_nil]
      rw [← ho, hx]
    · intro i hi
      rw [List.length_append, List.length_singleton] at hi
      have hlo := offered_length t0 xs ps l1
      rcases Nat.lt_succ_iff_lt_or_eq.1 hi with hi' | rfl
      · have := h4 i hi'
        rw [List.getD_append _ _ _ _ (by omega), this, hoff, List.take_append_of_le_length (by omega),
          List.getD_append _ _ _ _ (by omega)]
        congr 4
        rw [← List.cons_append, List.getD_append _ _ _ _ (by simp; omega)]
      · rw [List.getD_append_right _ _ _ _ (by omega), l2, Nat.sub_self]
        rw [List.getD_append_right _ _ _ _ (by omega), l1, Nat.sub_self]
        have hs := (C58_schedule J E m m0 t0.obs 42 42 h1 (Spec.offered t0 xs ps) 0 o p).2.2
        rw [← h3, hx, hlo] at hs
        have hobs : ((t0 :: (xs ++ [t])).getD xs.length t0).obs = o := by
          rw [ho]
          congr 1
          rcases List.eq_nil_or_concat xs with rfl | ⟨ys, y, rfl⟩
          · simp
          · simp [List.getD_eq_getElem?_getD, List.getElem?_append]
        rw [hobs, hoff, List.take_append_of_le_length (by omega), List.take_of_length_le (by omega)]
        simpa using hs

/-- C105, what holds. In Acme's environment loop with the exploring actor, whatever the policy, the exploratory agent and
the environment do: the policy proposes an action at every step, and the actor that learns is told the action flown.
Unless the episode is exploratory (a draw of at most the configured probability, 0.8) every action is the policy's
proposal. In an exploratory episode the `i`-th action (from 0) is the exploratory agent's iff `(i + 1) % 120 ≥ 80`: two
hours of exploration in every six. -/
theorem C105_exploration_partial (J : Jax K) (B : Actor S) (E : Agent X) (b : S) (m : Marco K X) (t0 : TimeStep)
    (xs : List TimeStep) (z : S × Marco K X) (as : List ℤ)
    (h : Spec.Acted (combinedActor B (marcoPolo J E)) (b, m) t0 xs z as) :
    ∃ ps, Spec.Driven B b t0 xs z.1 ps as ∧
      ∀ i, i < xs.length →
        (J.uniform (J.split m.rng 2 0) > m.prob ∨ (i + 1) % 120 < 80 → as.getD i 0 = ps.getD i 0) ∧
        (J.uniform (J.split m.rng 2 0) ≤ m.prob → 80 ≤ (i + 1) % 120 →
          ∃ x x', E.step x 0 ((t0 :: xs).getD i t0).obs = (x', .ok (as.getD i 0))) := by
  obtain ⟨m0, ps, h1, h2, h3, h4⟩ := combined_run J B E b m t0 xs z as h
  have hep := (C58_schedule J E m m0 t0.obs 42 42 h1 [] 0 [] 0).2.1
  refine ⟨ps, h2, fun i hi => ⟨fun hc => ?_, fun hu hc => ?_⟩⟩
  · have := h4 i hi
    rw [if_neg] at this
    · exact Except.ok.inj this
    · rintro ⟨e1, e2⟩
      have := hep.1 e1
      unfold Spec.exploring at e2
      rcases hc with hc | hc
      · linarith
      · omega
  · have := h4 i hi
    rw [if_pos ⟨hep.2 hu, hc⟩] at this
    exact ⟨_, _, Prod.ext rfl this.symm⟩

/-- C105 is false of the code in one point: the policy does not get its first four hours. The actor consults the
exploration wrapper for the first action too, after `begin_episode` has already been told about it, so in every
exploratory episode the 80th action, flown from 3 h 57 min on, is already the exploratory agent's. (The Dopamine agents
do not have this fault: there the first action is the answer of `begin_episode`, and the 80th action is the policy's.) -/
theorem C105_first_phase_short (J : Jax K) (B : Actor S) (E : Agent X) (b : S) (m : Marco K X) (t0 : TimeStep)
    (xs : List TimeStep) (z : S × Marco K X) (as : List ℤ)
    (h : Spec.Acted (combinedActor B (marcoPolo J E)) (b, m) t0 xs z as) (hlen : 80 ≤ xs.length)
    (hu : J.uniform (J.split m.rng 2 0) ≤ m.prob) :
    (∃ x x', E.step x 0 ((t0 :: xs).getD 79 t0).obs = (x', .ok (as.getD 79 0))) ∧
    (∀ (m0 : Marco K X) (a0 p : ℤ) (ys : List (ℝ × List ℝ × ℤ)) (r : ℝ) (o : List ℝ),
      (marcoPolo J E).beginEpisode m t0.obs a0 = (m0, .ok a0) → ys.length + 1 = 79 →
      ((marcoPolo J E).step (Spec.marcoAfter J E ys m0) r o p).2 = .ok p) := by
  constructor
  · obtain ⟨ps, -, h2⟩ := C105_exploration_partial J B E b m t0 xs z as h
    exact (h2 79 (by omega)).2 hu (by norm_num)
  · intro m0 a0 p ys r o hb hy
    have := (C58_schedule J E m m0 t0.obs a0 a0 hb ys r o p).2.2
    rw [this, if_neg]
    rintro ⟨-, hc⟩
    rw [hy] at hc
    revert hc; decide

/-- C105. The evaluation actor (the one made without an adder) is Acme's own: it never explores. -/
theorem C105_evaluation (J : Jax K) (E : Agent X) (orig : Actor S × S) (key : K) (agent : X) :
    marcoPoloActor J E orig false key agent = .plain orig.1 orig.2 ∧
    ∃ m : Marco K X, m.prob = 0.8 ∧
      marcoPoloActor J E orig true key agent = .exploring (combinedActor orig.1 (marcoPolo J E)) (orig.2, m) := by
  refine ⟨by simp [marcoPoloActor], ⟨agent, 0.8, false, false, 0, key⟩, rfl, by simp [marcoPoloActor]⟩

/-- An actor that always proposes 1. -/
def oneActor : Actor Unit where
  select s _ := (s, .ok 1)
  observeFirst s _ := (s, .ok ())
  observe s _ _ := s
  update s := s

theorem acted_exists (n : ℕ) (m : Marco (List ℕ) ℕ) : ∃ z as xs, xs.length = n ∧
    Spec.Acted (combinedActor oneActor (marcoPolo halfJax sevenAgent)) ((), m) ⟨[], 0, false, none⟩ xs z as := by
  induction n with
  | zero => exact ⟨_, [], [], rfl, .start rfl⟩
  | succ n ih =>
    obtain ⟨z, as, xs, hx, h⟩ := ih
    rcases hs : (marcoPolo halfJax sevenAgent).step z.2 0 ((xs.getLast?.getD ⟨[], 0, false, none⟩).obs) 1 with ⟨m2, r⟩
    have hr : ∃ a, r = .ok a := by
      have : r = ((marcoPolo halfJax sevenAgent).step z.2 0 ((xs.getLast?.getD ⟨[], 0, false, none⟩).obs) 1).2 := by rw [hs]
      rw [this]
      simp only [marcoPolo]
      split
      · exact ⟨7, rfl⟩
      · exact ⟨1, rfl⟩
    obtain ⟨a, rfl⟩ := hr
    exact ⟨_, _, xs ++ [⟨[], 0, false, none⟩], by simp [hx], .next ⟨[], 0, false, none⟩ h (by
      simp only [combinedActor, oneActor]; rw [hs])⟩

/-- Episodes of any length exist; in one of 90 steps that explores, the 79th action is the policy's 1 and the 80th the
exploratory agent's 7. -/
example : ∃ z as xs, xs.length = 90 ∧
    Spec.Acted (combinedActor oneActor (marcoPolo halfJax sevenAgent)) ((), ⟨0, 0.8, false, false, 0, []⟩) ⟨[], 0, false, none⟩ xs z as ∧
    as.getD 79 0 = 7 := by
  obtain ⟨z, as, xs, hx, h⟩ := acted_exists 90 ⟨0, 0.8, false, false, 0, []⟩
  refine ⟨z, as, xs, hx, h, ?_⟩
  obtain ⟨⟨x, x', e⟩, -⟩ := C105_first_phase_short _ _ _ _ _ _ _ _ _ h (by omega) (by norm_num [halfJax])
  simp only [sevenAgent, Prod.mk.injEq, Except.ok.injEq] at e
  exact e.2.symm

end BLE
