import Verif.Model.AcmeTrain
import Verif.Props.Acme
import Verif.Props.Evaluates

/-!
# C145: training with Acme
-/

namespace BLE

variable {V S T : Type}

/-- Successful steps, one after another, with the actions of the first list; the second list is what they returned. -/
inductive Spec.AcmePlayed (G : GymEnv V) (v : V) : List ℤ → List StepOut → V → Prop
  | nil : Spec.AcmePlayed G v [] [] v
  | snoc {as : List ℤ} {os : List StepOut} {v1 v2 : V} {a : ℤ} {o : StepOut} :
      Spec.AcmePlayed G v as os v1 → G.step a v1 = (v2, .ok o) → Spec.AcmePlayed G v (as ++ [a]) (os ++ [o]) v2

/-- What the actor is told about these steps in an episode of at most `L`: the last one is marked; the discount is 0 where the flight
is over and 1 everywhere else, also where only the time is up. -/
def Spec.told (L : ℕ) (os : List StepOut) : List TimeStep :=
  os.mapIdx fun i o => ⟨o.obs, o.reward, o.terminal || decide (i + 1 = L), some (if o.terminal then 0 else 1)⟩

/-- An episode of Acme's environment loop: one reset and one to `L` steps, each with the action that the actor selects for the
latest observation; it goes on as long as the flight is not over and ends when it is, or after `L` steps. -/
structure Spec.AcmeEpisode (G : GymEnv V) (L : ℕ) (A : Actor S) (v : V) (s : S) (v' : V) (s' : S) (os : List StepOut) : Prop where
  flown : ∃ v0 obs as, G.reset v = (v0, .ok obs) ∧ Spec.AcmePlayed G v0 as os v' ∧
    Spec.Acted A s ⟨obs, 0, false, none⟩ (Spec.told L os) s' as
  length : 1 ≤ os.length ∧ os.length ≤ L
  goes_on : ∀ o ∈ os.dropLast, o.terminal = false
  ends : (∃ o, os.getLast? = some o ∧ o.terminal = true) ∨ os.length = L

theorem told_snoc (L : ℕ) (os : List StepOut) (o : StepOut) : Spec.told L (os ++ [o]) = Spec.told L os ++
    [⟨o.obs, o.reward, o.terminal || decide (os.length + 1 = L), some (if o.terminal then 0 else 1)⟩] := by
  simp [Spec.told, List.mapIdx_concat]

/-- A step within the episode. -/
theorem wrapped_step (G : GymEnv V) {L n : ℕ} (hL : n < L) (a : ℤ) (w : Wrapped V) (hr : w.resetNext = false)
    (he : w.elapsed = n) :
    (∀ e, (G.step a w.env).2 = .error e → (w.step G L a).2 = .error e) ∧
    (∀ o, (G.step a w.env).2 = .ok o → ∃ w', w.step G L a =
        (w', .ok ⟨o.obs, o.reward, o.terminal || decide (n + 1 = L), some (if o.terminal then 0 else 1)⟩) ∧
      w'.env = (G.step a w.env).1 ∧ ((o.terminal || decide (n + 1 = L)) = false → w'.resetNext = false ∧ w'.elapsed = (n + 1 : ℕ))) := by
  have h1 : ¬ w.elapsed = -1 := by omega
  constructor
  · intro e h
    unfold Wrapped.step Wrapped.gymStep
    simp [h1, hr, h]
  · intro o h
    unfold Wrapped.step Wrapped.gymStep
    simp only [if_neg h1, hr, h, Bool.false_eq_true, if_false]
    by_cases ht : o.terminal = true
    · rw [if_neg (by simp [ht])]
      exact ⟨{ env := (G.step a w.env).1, resetNext := true, elapsed := w.elapsed + 1 }, by simp [ht], rfl, by simp [ht]⟩
    · have ht' : o.terminal = false := by simpa using ht
      by_cases hn : n + 1 = L
      · rw [if_pos ⟨by omega, by omega, ht'⟩]
        exact ⟨{ env := (G.step a w.env).1, resetNext := o.terminal, elapsed := -1 }, by simp [hn], rfl, by simp [hn]⟩
      · rw [if_neg (by omega)]
        exact ⟨{ env := (G.step a w.env).1, resetNext := o.terminal, elapsed := w.elapsed + 1 }, by simp [hn], rfl,
          fun _ => ⟨ht', by simp only [he]; push_cast; rfl⟩⟩

/-- What holds before each step of an episode, and at its end. -/
structure AcmeInv (G : GymEnv V) (L : ℕ) (A : Actor S) (v0 : V) (s0 : S) (t0 : TimeStep) (w : Wrapped V) (s : S) (t : TimeStep)
    (os : List StepOut) (as : List ℤ) : Prop where
  played : Spec.AcmePlayed G v0 as os w.env
  acted : Spec.Acted A s0 t0 (Spec.told L os) s as
  latest : t = (Spec.told L os).getLast?.getD t0
  going : t.last = false → w.resetNext = false ∧ w.elapsed = os.length ∧ os.length < L ∧ ∀ o ∈ os, o.terminal = false
  over : t.last = true → (1 ≤ os.length ∧ os.length ≤ L) ∧ (∀ o ∈ os.dropLast, o.terminal = false) ∧
    ((∃ o, os.getLast? = some o ∧ o.terminal = true) ∨ os.length = L)

theorem acme_loop (G : GymEnv V) (L : ℕ) (A : Actor S) (v0 : V) (s0 : S) (t0 : TimeStep) :
    ∀ (fuel : ℕ) (w : Wrapped V) (s : S) (t : TimeStep) (os : List StepOut) (as : List ℤ), AcmeInv G L A v0 s0 t0 w s t os as →
      (L ≤ os.length + fuel → acmeSteps G L A fuel w s t os.length (os.map (·.reward)).sum ≠ none) ∧
      ∀ w' s' n r, acmeSteps G L A fuel w s t os.length (os.map (·.reward)).sum = some (w', s', .ok (n, r)) →
        ∃ t' os' as', AcmeInv G L A v0 s0 t0 w' s' t' os' as' ∧ t'.last = true ∧ n = os'.length ∧ r = (os'.map (·.reward)).sum := by
  intro fuel
  induction fuel with
  | zero =>
    intro w s t os as h
    unfold acmeSteps
    by_cases ht : t.last = true
    · simp only [ht, if_true]
      refine ⟨fun _ => by simp, ?_⟩
      intro w' s' n r e
      simp only [Option.some.injEq, Prod.mk.injEq, Except.ok.injEq] at e
      obtain ⟨rfl, rfl, rfl, rfl⟩ := e
      exact ⟨t, os, as, h, ht, rfl, rfl⟩
    · rw [if_neg ht]
      have := (h.going (by simpa using ht)).2.2.1
      exact ⟨fun hf => by omega, fun w' s' n r e => by simp at e⟩
  | succ fuel ih =>
    intro w s t os as h
    unfold acmeSteps
    by_cases ht : t.last = true
    · simp only [ht, if_true]
      refine ⟨fun _ => by simp, ?_⟩
      intro w' s' n r e
      simp only [Option.some.injEq, Prod.mk.injEq, Except.ok.injEq] at e
      obtain ⟨rfl, rfl, rfl, rfl⟩ := e
      exact ⟨t, os, as, h, ht, rfl, rfl⟩
    · have ht' : t.last = false := by simpa using ht
      obtain ⟨g1, g2, g3, g4⟩ := h.going ht'
      rw [if_neg ht]
      rcases hq : A.select s t.obs with ⟨s1, e | a⟩
      · exact ⟨fun _ => by simp, fun w' s' n r e => by simp at e⟩
      · simp only
        obtain ⟨k1, k2⟩ := wrapped_step G g3 a w g1 g2
        rcases hs : (G.step a w.env).2 with e | o
        · have := k1 e hs
          rcases hw : w.step G L a with ⟨w1, x⟩
          rw [hw] at this
          simp only at this
          subst this
          exact ⟨fun _ => by simp, fun w' s' n r e => by simp at e⟩
        · obtain ⟨w1, e1, e2, e3⟩ := k2 o hs
          simp only [e1]
          have inv : AcmeInv G L A v0 s0 t0 w1 (A.update (A.observe s1 a
              ⟨o.obs, o.reward, o.terminal || decide (os.length + 1 = L), some (if o.terminal then 0 else 1)⟩))
              ⟨o.obs, o.reward, o.terminal || decide (os.length + 1 = L), some (if o.terminal then 0 else 1)⟩
              (os ++ [o]) (as ++ [a]) := by
            refine ⟨.snoc h.played (Prod.ext e2.symm hs), ?_, ?_, ?_, ?_⟩
            · rw [told_snoc]
              exact .next _ h.acted (by rw [← h.latest]; exact hq)
            · rw [told_snoc]; simp
            · intro hl
              obtain ⟨f1, f2⟩ := e3 hl
              simp only [Bool.or_eq_false_iff, decide_eq_false_iff_not] at hl
              refine ⟨f1, by rw [f2]; simp, by simp only [List.length_append, List.length_singleton]; omega, ?_⟩
              intro x hx
              rcases List.mem_append.1 hx with hx | hx
              · exact g4 x hx
              · rw [List.mem_singleton.1 hx]; exact hl.1
            · intro hl
              simp only [Bool.or_eq_true, decide_eq_true_eq] at hl
              refine ⟨by simp only [List.length_append, List.length_singleton]; omega, by simpa using g4, ?_⟩
              rcases hl with hl | hl
              · exact .inl ⟨o, by simp, hl⟩
              · exact .inr (by simpa using hl)
          have i := ih w1 _ _ (os ++ [o]) (as ++ [a]) inv
          simp only [List.length_append, List.length_singleton, List.map_append, List.map_cons, List.map_nil, List.sum_append,
            List.sum_singleton] at i
          exact ⟨fun hf => i.1 (by omega), i.2⟩

/-- C145, one episode. With a positive limit `L` no more than `L` rounds are needed, and an episode that ends without an exception
is as specified: its steps and its return are counted and logged. -/
theorem C145_episode (G : GymEnv V) (L : ℕ) (hL : 0 < L) (A : Actor S) (fuel : ℕ) (hf : L ≤ fuel) (l : AcmeLoop V S) :
    l.runOne G L A fuel ≠ none ∧ ∀ l', l.runOne G L A fuel = some (l', .ok ()) →
      ∃ os, Spec.AcmeEpisode G L A l.env.env l.actor l'.env.env l'.actor os ∧ l'.count.episodes = l.count.episodes + 1 ∧
        l'.count.steps = l.count.steps + os.length ∧ l'.returns = l.returns ++ [(os.map (·.reward)).sum] := by
  unfold AcmeLoop.runOne Wrapped.reset
  rcases hr : G.reset l.env.env with ⟨v0, e | obs⟩
  · exact ⟨by simp [Except.map], by simp [Except.map]⟩
  · simp only [Except.map]
    rcases ho : A.observeFirst l.actor ⟨obs, 0, false, none⟩ with ⟨s1, e | u⟩
    · exact ⟨by simp, by simp⟩
    · cases u
      simp only
      have inv : AcmeInv G L A v0 l.actor ⟨obs, 0, false, none⟩ { env := v0, resetNext := false, elapsed := 0 } s1
          ⟨obs, 0, false, none⟩ [] [] :=
        ⟨.nil, .start ho, rfl, fun _ => ⟨rfl, rfl, hL, by simp⟩, fun h => by simp at h⟩
      obtain ⟨h1, h2⟩ := acme_loop G L A v0 l.actor _ fuel _ _ _ _ _ inv
      have h1 := h1 (by simpa using hf)
      simp only [List.length_nil, List.map_nil, List.sum_nil] at h1 h2
      rcases hs : acmeSteps G L A fuel { env := v0, resetNext := false, elapsed := 0 } s1 ⟨obs, 0, false, none⟩ 0 0 with
        _ | ⟨w, s, e | ⟨n, r⟩⟩
      · exact absurd hs h1
      · exact ⟨by simp, by simp⟩
      · refine ⟨by simp, ?_⟩
        intro l' hl'
        simp only [Option.some.injEq, Prod.mk.injEq, and_true] at hl'
        subst hl'
        obtain ⟨t', os, as, i, ht, rfl, rfl⟩ := h2 w s n r hs
        obtain ⟨o1, o2, o3⟩ := i.over ht
        exact ⟨os, ⟨⟨v0, obs, as, hr, i.played, i.acted⟩, o1, o2, o3⟩, rfl, rfl, rfl⟩

/-- The script's run: a training episode and an evaluation episode by turns. The evaluation's actor acts on what the agent has
learned so far. -/
inductive Spec.AcmeRounds (Gt Ge : GymEnv V) (L : ℕ) (A : Actor S) (E : S → Actor T) :
    V → S → V → T → List (List StepOut) → List (List StepOut) → V → S → V → T → Prop
  | nil {v : V} {s : S} {u : V} {t : T} : Spec.AcmeRounds Gt Ge L A E v s u t [] [] v s u t
  | round {v v1 v2 : V} {s s1 s2 : S} {u u1 u2 : V} {t t1 t2 : T} {o p : List StepOut} {os ps : List (List StepOut)} :
      Spec.AcmeEpisode Gt L A v s v1 s1 o → Spec.AcmeEpisode Ge L (E s1) u t u1 t1 p →
      Spec.AcmeRounds Gt Ge L A E v1 s1 u1 t1 os ps v2 s2 u2 t2 →
      Spec.AcmeRounds Gt Ge L A E v s u t (o :: os) (p :: ps) v2 s2 u2 t2

/-- C145. The Acme script with a positive episode length `L` and `n` episodes: it comes to an end, and unless an exception is raised
it has flown `n` training and `n` evaluation episodes by turns, each as specified, and has counted every episode and every step and
logged every return of both kinds. The training steps number between `n` and the limit `n · L` of the distributed program. -/
theorem C145_script (Gt Ge : GymEnv V) (L : ℕ) (hL : 0 < L) (A : Actor S) (E : S → Actor T) (fuel : ℕ) (hf : L ≤ fuel) (n : ℕ)
    (l : AcmeLoop V S) (m : AcmeLoop V T) :
    acmeTraining Gt Ge L A E fuel n l m ≠ none ∧
    ∀ l' m', acmeTraining Gt Ge L A E fuel n l m = some (l', m', .ok ()) → ∃ os ps,
      Spec.AcmeRounds Gt Ge L A E l.env.env l.actor m.env.env m.actor os ps l'.env.env l'.actor m'.env.env m'.actor ∧
      os.length = n ∧ ps.length = n ∧
      l'.count.episodes = l.count.episodes + n ∧ l'.count.steps = l.count.steps + (os.map List.length).sum ∧
      m'.count.episodes = m.count.episodes + n ∧ m'.count.steps = m.count.steps + (ps.map List.length).sum ∧
      l'.returns = l.returns ++ os.map (fun o => (o.map (·.reward)).sum) ∧
      m'.returns = m.returns ++ ps.map (fun o => (o.map (·.reward)).sum) ∧
      n ≤ (os.map List.length).sum ∧ (os.map List.length).sum ≤ maxActorSteps n L := by
  induction n generalizing l m with
  | zero =>
    refine ⟨by simp [acmeTraining], ?_⟩
    intro l' m' h
    simp only [acmeTraining, Option.some.injEq, Prod.mk.injEq, and_true] at h
    obtain ⟨rfl, rfl⟩ := h
    exact ⟨[], [], .nil, by simp [maxActorSteps]⟩
  | succ n ih =>
    obtain ⟨a1, a2⟩ := C145_episode Gt L hL A fuel hf l
    unfold acmeTraining
    rcases h1 : l.runOne Gt L A fuel with _ | ⟨l1, e | u⟩
    · exact absurd h1 a1
    · exact ⟨by simp, by simp⟩
    · cases u
      simp only
      obtain ⟨b1, b2⟩ := C145_episode Ge L hL (E l1.actor) fuel hf m
      rcases h2 : m.runOne Ge L (E l1.actor) fuel with _ | ⟨m1, e | u⟩
      · exact absurd h2 b1
      · exact ⟨by simp, by simp⟩
      · cases u
        simp only
        obtain ⟨i1, i2⟩ := ih l1 m1
        refine ⟨i1, fun l' m' h => ?_⟩
        obtain ⟨os, ps, r, c1, c2, c3, c4, c5, c6, c7, c8, c9, c10⟩ := i2 l' m' h
        obtain ⟨o, x1, x2, x3, x4⟩ := a2 l1 h1
        obtain ⟨p, y1, y2, y3, y4⟩ := b2 m1 h2
        refine ⟨o :: os, p :: ps, .round x1 y1 r, by simp [c1], by simp [c2], by rw [c3, x2]; ring,
          by rw [c4, x3, List.map_cons, List.sum_cons]; ring, by rw [c5, y2]; ring,
          by rw [c6, y3, List.map_cons, List.sum_cons]; ring, by rw [c7, x4]; simp, by rw [c8, y4]; simp, ?_, ?_⟩
        · have := x1.length.1
          simp only [List.map_cons, List.sum_cons]; omega
        · have := x1.length.2
          simp only [List.map_cons, List.sum_cons, maxActorSteps] at c10 ⊢
          rw [Nat.add_mul, Nat.one_mul]; omega

/-- C145, evaluation leaves training alone. Whatever is evaluated, in whatever environment and by whatever actor, two runs that
raise no exception leave the same training environment, agent, counts and returns. -/
theorem C145_apart {T' : Type} (Gt : GymEnv V) (Ge Ge' : GymEnv V) (limit : ℤ) (A : Actor S) (E : S → Actor T)
    (E' : S → Actor T') (fuel n : ℕ) (l : AcmeLoop V S) (m : AcmeLoop V T) (k : AcmeLoop V T') (l' l'' : AcmeLoop V S)
    (m' : AcmeLoop V T) (k' : AcmeLoop V T') (h : acmeTraining Gt Ge limit A E fuel n l m = some (l', m', .ok ()))
    (h' : acmeTraining Gt Ge' limit A E' fuel n l k = some (l'', k', .ok ())) : l' = l'' := by
  induction n generalizing l m k with
  | zero =>
    simp only [acmeTraining, Option.some.injEq, Prod.mk.injEq, and_true] at h h'
    rw [← h.1, ← h'.1]
  | succ n ih =>
    unfold acmeTraining at h h'
    rcases h1 : l.runOne Gt limit A fuel with _ | ⟨l1, e | u⟩
    · simp [h1] at h
    · simp [h1] at h
    · cases u
      simp only [h1] at h h'
      rcases h2 : m.runOne Ge limit (E l1.actor) fuel with _ | ⟨m1, e | u⟩
      · simp [h2] at h
      · simp [h2] at h
      · cases u
        rcases h3 : k.runOne Ge' limit (E' l1.actor) fuel with _ | ⟨k1, e | u⟩
        · simp [h3] at h'
        · simp [h3] at h'
        · cases u
          simp only [h2] at h
          simp only [h3] at h'
          exact ih l1 m1 k1 h h'

/-- C145, the distributed program's limit of `n · L` training steps allows at least `n` episodes: fewer do not reach it. -/
theorem C145_budget (G : GymEnv V) (L n : ℕ) (A : Actor S) (eps : List (List StepOut))
    (h : ∀ os ∈ eps, ∃ v s v' s', Spec.AcmeEpisode G L A v s v' s' os) (hn : eps.length < n) (hL : 0 < L) :
    (eps.map List.length).sum < maxActorSteps n L := by
  have : (eps.map List.length).sum ≤ eps.length * L := by
    clear hn
    induction eps with
    | nil => simp
    | cons o eps ih =>
      obtain ⟨v, s, v', s', ho⟩ := h o (by simp)
      have := ih fun os hos => h os (by simp [hos])
      have := ho.length.2
      simp only [List.map_cons, List.sum_cons, List.length_cons, Nat.add_mul, Nat.one_mul]
      omega
  have h2 : eps.length * L < n * L := Nat.mul_lt_mul_of_pos_right hn hL
  unfold maxActorSteps
  omega

/-! ## The balloon -/

variable {K W Rd : Type}

theorem acmeSteps_snoc {c : EnvCfg K W Rd} {v v1 v2 : Env K W Rd} {a : ℤ} {out : StepOut} {i : ℕ} {t : List (StepOut × BState)}
    (h : Spec.AcmeSteps c v t v1) (hstep : v1.step c a = (v2, .ok out)) (hball : v2.arena.ball = some i) :
    Spec.AcmeSteps c v (t ++ [(out, v2.arena.heap.balls i)]) v2 := by
  induction h with
  | nil v => exact .cons hstep hball (.nil _)
  | cons h1 h2 _ ih => exact .cons h1 h2 (ih hstep)

theorem played_steps {c : EnvCfg K W Rd} {v v' : Env K W Rd} {as : List ℤ} {os : List StepOut}
    (h : Spec.AcmePlayed (balloonEnv c) v as os v') : ∃ t, Spec.AcmeSteps c v t v' ∧ t.map Prod.fst = os := by
  induction h with
  | nil => exact ⟨[], .nil _, rfl⟩
  | @snoc as os v1 v2 a o _ hs ih =>
    obtain ⟨t, h1, h2⟩ := ih
    obtain ⟨i, hi, -⟩ := C96_reported c a v1 v2 o hs
    exact ⟨_, acmeSteps_snoc h1 hs hi, by simp [h2]⟩

/-- C145, the logged return of an evaluation episode of the script is the fraction of the `L` steps that were flown and ended within
the radius: between 0 and 1. -/
theorem C145_score (c : EnvCfg K W Rd) (ρ : ℝ) (hρ : 0 ≤ ρ) (L : ℕ) (hL : 0 < L) (A : Actor S) (v v' : Env K W Rd) (s s' : S)
    (os : List StepOut) (h : Spec.AcmeEpisode (balloonEnv (acmeCfg c true L ρ)) L A v s v' s' os) :
    ∃ v0 obs t, (balloonEnv c).reset v = (v0, .ok obs) ∧ Spec.AcmeSteps (acmeCfg c true L ρ) v0 t v' ∧ t.map Prod.fst = os ∧
      (os.map (·.reward)).sum * L = Spec.stepsWithin ρ t ∧ 0 ≤ (os.map (·.reward)).sum ∧ (os.map (·.reward)).sum ≤ 1 := by
  obtain ⟨⟨v0, obs, as, h1, h2, -⟩, ⟨-, hlen⟩, -, -⟩ := h
  obtain ⟨t, h3, h4⟩ := played_steps h2
  subst h4
  obtain ⟨e1, e2, e3, -⟩ := C104_score c ρ hρ L (by exact_mod_cast hL) v0 v' t h3 (by simp at hlen; exact_mod_cast hlen)
  simp only [List.map_map]
  exact ⟨v0, obs, t, h1, h3, rfl, by simpa [Function.comp_def] using e1, e2, e3⟩

/-- C145, the scores of the script: every logged evaluation return lies between 0 and 1. -/
theorem C145_scores (c : EnvCfg K W Rd) (ρ : ℝ) (hρ : 0 ≤ ρ) (L : ℕ) (hL : 0 < L) (Gt : GymEnv (Env K W Rd)) (A : Actor S)
    (E : S → Actor T) (fuel : ℕ) (hf : L ≤ fuel) (n : ℕ) (l l' : AcmeLoop (Env K W Rd) S) (m m' : AcmeLoop (Env K W Rd) T)
    (h : acmeTraining Gt (balloonEnv (acmeCfg c true L ρ)) L A E fuel n l m = some (l', m', .ok ())) :
    ∃ rs, rs.length = n ∧ m'.returns = m.returns ++ rs ∧ ∀ r ∈ rs, 0 ≤ r ∧ r ≤ 1 := by
  obtain ⟨os, ps, hr, -, h2, -, -, -, -, -, h8, -, -⟩ :=
    (C145_script Gt (balloonEnv (acmeCfg c true L ρ)) L hL A E fuel hf n l m).2 l' m' h
  refine ⟨_, by simpa using h2, h8, ?_⟩
  clear h h2 h8
  generalize l.env.env = a1, l.actor = a2, m.env.env = a3, m.actor = a4, l'.env.env = b1, l'.actor = b2, m'.env.env = b3,
    m'.actor = b4 at hr
  induction hr with
  | nil => simp
  | round _ he _ ih =>
    intro r hr
    rw [List.map_cons] at hr
    rcases List.mem_cons.1 hr with rfl | hr
    · obtain ⟨v0, obs, t, -, -, -, -, e1, e2⟩ := C145_score c ρ hρ L hL _ _ _ _ _ _ he
      exact ⟨e1, e2⟩
    · exact ih r hr

/-- An actor that accepts every first observation of a flight and selects 0, 1 or 2 for every observation. -/
structure Spec.AcmePilot (E : World K W) (A : Actor S) (I J : S → Prop) : Prop where
  start : ∀ s t, I s → Spec.Observed E t.obs → ∃ s', A.observeFirst s t = (s', .ok ()) ∧ J s'
  go : ∀ s obs, J s → Spec.Observed E obs → ∃ s' a, A.select s obs = (s', .ok a) ∧ (a = 0 ∨ a = 1 ∨ a = 2) ∧
    ∀ t, Spec.Observed E t.obs → J (A.update (A.observe s' a t))
  finish : ∀ s, J s → I s

/-- A different reward changes nothing but the reward. -/
theorem step_other_reward {c : EnvCfg K W Rd} {f : BState → Except Err ℝ} {a : ℤ} {v v' : Env K W Rd} {o : StepOut}
    (h : v.step c a = (v', .ok o)) (hf : ∀ b, ∃ r, f b = .ok r) :
    ∃ r, v.step { c with rewardFn := f } a = (v', .ok { o with reward := r }) := by
  unfold Env.step at h ⊢
  rcases hc : Command.ofInt a with e | cmd
  · rw [hc] at h; cases h
  · rw [hc] at h
    simp only at h ⊢
    rcases ho : (v.arena.step c.world cmd).2 with e | obs
    · rw [ho] at h; cases h
    · rw [ho] at h
      simp only at h ⊢
      rcases hb : (v.arena.step c.world cmd).1.ball with _ | i
      · rw [hb] at h; cases h
      · rw [hb] at h
        simp only at h ⊢
        rcases hr : c.rewardFn ((v.arena.step c.world cmd).1.heap.balls i) with e | r
        · rw [hr] at h; cases h
        · rw [hr] at h
          obtain ⟨r', hr'⟩ := hf ((v.arena.step c.world cmd).1.heap.balls i)
          rw [hr']
          simp only [Prod.mk.injEq, Except.ok.injEq] at h
          obtain ⟨rfl, rfl⟩ := h
          exact ⟨r', rfl⟩

/-- The loop of one episode runs to its end, in the environment with any reward that is defined everywhere. -/
theorem acme_flies {c : EnvCfg K W Rd} (two : Bool) (hR : c.world.R = gpr two) {cal : Calendar} (hcal : Spec.Gregorian cal)
    (hE : c.world.sun = realSun cal) (hC : Spec.GoodWind c.world.C) {q : RewardParams} (hh : 0 < q.halflife)
    (hrew : c.rewardFn = reward c.world.sun q) {B : ℝ} (hB0 : 0 ≤ B) (hB : Spec.WindLimit c.world B)
    {G : GymEnv (Env K W Rd)} (hG : ∀ v v' a o, v.step c a = (v', .ok o) → ∃ r, G.step a v = (v', .ok { o with reward := r }))
    {A : Actor S} {I J : S → Prop} (hA : Spec.AcmePilot c.world A I J) {L : ℕ} (hm : L ≤ 14300000)
    (hd : 180 * B * L ≤ 4200000) (b : ℕ) :
    ∀ (fuel n : ℕ) (w : Wrapped (Env K W Rd)) (s : S) (t : TimeStep) (ret : ℝ), L ≤ n + fuel → J s → Spec.Observed c.world t.obs →
      (t.last = false → n < L ∧ w.resetNext = false ∧ w.elapsed = n ∧ Aboard c.world B n w.env.arena b ∧
        (w.env.arena.heap.balls b).status = .ok) →
      ∃ w' s' x, acmeSteps G L A fuel w s t n ret = some (w', s', .ok x) ∧ J s' := by
  intro fuel
  induction fuel with
  | zero =>
    intro n w s t ret hf hs _ hg
    unfold acmeSteps
    by_cases ht : t.last = true
    · rw [if_pos ht]; exact ⟨_, _, _, rfl, hs⟩
    · have := (hg (by simpa using ht)).1
      omega
  | succ fuel ih =>
    intro n w s t ret hf hs hobs hg
    unfold acmeSteps
    by_cases ht : t.last = true
    · rw [if_pos ht]; exact ⟨_, _, _, rfl, hs⟩
    · rw [if_neg ht]
      obtain ⟨g1, g2, g3, g4, g5⟩ := hg (by simpa using ht)
      obtain ⟨s1, a, a1, a2, a3⟩ := hA.go s t.obs hs hobs
      have hd1 : 180 * B * ((n : ℝ) + 1) ≤ 4200000 := by
        refine le_trans (mul_le_mul_of_nonneg_left ?_ (by positivity)) hd
        exact_mod_cast g1
      obtain ⟨out, h1, h2, h3⟩ := aboard_flies two hR hcal hE hC hh hrew hB0 hB g4 g5 (by omega) hd1 a a2
      have h' := aboard_step hcal hE hB g4 a
      obtain ⟨r, hr⟩ := hG w.env (w.env.step c a).1 a out (by rw [← h1])
      obtain ⟨w1, e1, e2, e3⟩ := (wrapped_step G g1 a w g2 g3).2 { out with reward := r } (by rw [hr])
      simp only [a1, e1]
      refine ih (n + 1) w1 _ _ _ (by omega) (a3 _ h2) h2 ?_
      intro hl
      obtain ⟨f1, f2⟩ := e3 hl
      simp only [Bool.or_eq_false_iff, decide_eq_false_iff_not] at hl
      rw [hr] at e2
      rw [e2]
      exact ⟨by omega, f1, f2, h', h3 hl.1⟩

/-- One episode. -/
theorem acme_episode_flies {c : EnvCfg K W Rd} (hJ : Spec.SaneDraws c.world.J) (two : Bool) (hR : c.world.R = gpr two)
    {cal : Calendar} (hcal : Spec.Gregorian cal) (hE : c.world.sun = realSun cal) (hC : Spec.GoodWind c.world.C)
    {q : RewardParams} (hh : 0 < q.halflife) (hrew : c.rewardFn = reward c.world.sun q) {B : ℝ} (hB0 : 0 ≤ B)
    (hB : Spec.WindLimit c.world B) {G : GymEnv (Env K W Rd)} (hG0 : G.reset = (balloonEnv c).reset)
    (hG : ∀ v v' a o, v.step c a = (v', .ok o) → ∃ r, G.step a v = (v', .ok { o with reward := r }))
    {A : Actor S} {I J : S → Prop} (hA : Spec.AcmePilot c.world A I J) {L : ℕ} (hL : 0 < L) (hm : L ≤ 14300000)
    (hd : 180 * B * L ≤ 4200000) {fuel : ℕ} (hf : L ≤ fuel) (l : AcmeLoop (Env K W Rd) S) (hI : I l.actor) :
    ∃ l', l.runOne G L A fuel = some (l', .ok ()) ∧ I l'.actor := by
  obtain ⟨v0, obs, i, e1, hobs, hab, hst⟩ := reset_aboard hJ two hR hcal hE hC hB l.env.env
  obtain ⟨s1, b1, b2⟩ := hA.start l.actor ⟨obs, 0, false, none⟩ hI hobs
  obtain ⟨w', s', x, k1, k2⟩ := acme_flies two hR hcal hE hC hh hrew hB0 hB hG hA hm hd i fuel 0
    { env := v0, resetNext := false, elapsed := 0 } s1 ⟨obs, 0, false, none⟩ 0 (by omega) b2 hobs
    (fun _ => ⟨hL, rfl, rfl, hab, hst⟩)
  unfold AcmeLoop.runOne Wrapped.reset
  rw [hG0, e1]
  simp only [Except.map, b1, k1]
  exact ⟨_, rfl, hA.finish _ k2⟩

/-- C145, the script never raises an exception, whatever the number of episodes, the states of the two environments, the random draws
and the weather (no faster than `B`, with 180 `B` times the length of an episode at most 4,200 km): provided that the training
actor and the evaluation actor, whatever has been learned, select 0, 1 or 2 for every observation. -/
theorem C145_completes (c : EnvCfg K W Rd) (hJ : Spec.SaneDraws c.world.J) (two : Bool) (hR : c.world.R = gpr two)
    (cal : Calendar) (hcal : Spec.Gregorian cal) (hE : c.world.sun = realSun cal) (hC : Spec.GoodWind c.world.C)
    (q : RewardParams) (hh : 0 < q.halflife) (hrew : c.rewardFn = reward c.world.sun q) (B : ℝ) (hB0 : 0 ≤ B)
    (hB : Spec.WindLimit c.world B) (ρ ρ' : ℝ) (A : Actor S) (I J : S → Prop) (hA : Spec.AcmePilot c.world A I J) (E : S → Actor T)
    (I' J' : T → Prop) (hE' : ∀ s, Spec.AcmePilot c.world (E s) I' J') (L : ℕ) (hL : 0 < L) (hm : L ≤ 14300000)
    (hd : 180 * B * L ≤ 4200000) (fuel : ℕ) (hf : L ≤ fuel) (n : ℕ) (l : AcmeLoop (Env K W Rd) S) (m : AcmeLoop (Env K W Rd) T)
    (hI : I l.actor) (hI' : I' m.actor) :
    ∃ l' m', acmeTraining (balloonEnv (acmeCfg c false L ρ)) (balloonEnv (acmeCfg c true L ρ')) L A E fuel n l m =
      some (l', m', .ok ()) := by
  have hL' : ((L : ℕ) : ℤ) ≠ 0 := by omega
  induction n generalizing l m with
  | zero => exact ⟨l, m, rfl⟩
  | succ n ih =>
    obtain ⟨l1, x1, x2⟩ := acme_episode_flies hJ two hR hcal hE hC hh hrew hB0 hB (G := balloonEnv (acmeCfg c false L ρ)) rfl
      (fun v v' a o h => ⟨o.reward, h⟩) hA hL hm hd hf l hI
    obtain ⟨m1, y1, y2⟩ := acme_episode_flies hJ two hR hcal hE hC hh hrew hB0 hB (G := balloonEnv (acmeCfg c true L ρ')) rfl
      (fun v v' a o h => step_other_reward h fun b => ⟨_, by unfold acmeReward; rw [if_neg hL']⟩) (hE' l1.actor) hL hm hd hf m hI'
    obtain ⟨l', m', h⟩ := ih l1 m1 x2 y2
    unfold acmeTraining
    simp only [x1, y1]
    exact ⟨l', m', h⟩

/-- An actor that always ascends. -/
def climber : Actor Unit where
  select s _ := (s, .ok 2)
  observeFirst s _ := (s, .ok ())
  observe s _ _ := s
  update s := s

/-- In the sunny world the script trains for 300 two-day episodes and evaluates as many; every score lies between 0 and 1. -/
example (v u : Env (List ℕ) Unit Unit) : ∃ l m,
    acmeTraining (balloonEnv (acmeCfg sunnyCfg false 960 50000)) (balloonEnv (acmeCfg sunnyCfg true 960 50000)) 960 climber
      (fun _ => climber) 960 300 ⟨⟨v, false, -1⟩, (), ⟨0, 0⟩, []⟩ ⟨⟨u, false, -1⟩, (), ⟨0, 0⟩, []⟩ = some (l, m, .ok ()) ∧
    l.count.episodes = 300 ∧ m.count.episodes = 300 ∧ l.count.steps ≤ 288000 ∧ m.returns.length = 300 ∧
    ∀ r ∈ m.returns, 0 ≤ r ∧ r ≤ 1 := by
  have hp : ∀ _ : Unit, Spec.AcmePilot sunnyCfg.world climber (fun _ => True) (fun _ => True) := fun _ =>
    ⟨fun s t _ _ => ⟨_, rfl, trivial⟩, fun s obs _ _ => ⟨_, 2, rfl, .inr (.inr rfl), fun _ _ => trivial⟩, fun _ _ => trivial⟩
  obtain ⟨l, m, h⟩ := C145_completes sunnyCfg sunnyWorld_draws true rfl gregorian gregorian_ok rfl good_static RewardParams.default
    (by norm_num [RewardParams.default]) rfl 21.1 (by norm_num)
    (C136_static_limit sunnyCfg.world rfl (fun _ _ _ _ _ => by norm_num [sunnyCfg, sunnyWorld, demoWorld])) 50000 50000
    climber _ _ (hp ()) (fun _ => climber) _ _ hp 960 (by norm_num) (by norm_num) (by norm_num) 960 le_rfl 300
    ⟨⟨v, false, -1⟩, (), ⟨0, 0⟩, []⟩ ⟨⟨u, false, -1⟩, (), ⟨0, 0⟩, []⟩ trivial trivial
  obtain ⟨os, ps, -, h1, h2, h3, h4, h5, h6, -, h8, -, h10⟩ :=
    (C145_script _ _ 960 (by norm_num) _ _ 960 le_rfl 300 _ _).2 l m h
  refine ⟨l, m, h, by simpa using h3, by simpa using h5, ?_, ?_, ?_⟩
  · rw [h4]; simpa [maxActorSteps] using h10
  · rw [h8]; simpa using h2
  · obtain ⟨rs, -, e, hrs⟩ := C145_scores sunnyCfg 50000 (by norm_num) 960 (by norm_num) _ _ _ 960 le_rfl 300 _ _ _ _ h
    rw [e]; simpa using hrs

end BLE
