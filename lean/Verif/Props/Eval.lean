import Verif.Model.Eval
import Verif.Props.Env
import Verif.Props.Agents
import Mathlib.Data.List.Perm.Basic

/-!
# Evaluation: C62–C64, C91
-/

namespace BLE

variable {V S : Type}

/-! ## C62 -/

/-- What is seen at one step of a flight: the outcome, the balloon and the radius of the environment. -/
structure Spec.Seen where
  out : StepOut
  ball : BState
  radius : ℝ

/-- A stretch of a flight: the environment is stepped with the agent's pending action, the agent answers; the
environment may be rendered in between. -/
inductive Spec.Flight (G : GymEnv V) (A : Agent S) : V → S → ℤ → List Spec.Seen → V → S → Prop
  | nil (v : V) (s : S) (a : ℤ) : Spec.Flight G A v s a [] v s
  | cons {v v1 v2 v3 : V} {s s1 s3 : S} {a a1 : ℤ} {out : StepOut} {b : BState} {t : List Spec.Seen}
      (hstep : G.step a v = (v1, .ok out)) (hagent : A.step s out.reward out.obs = (s1, .ok a1))
      (hball : G.balloon v1 = .ok b) (hrender : v2 = v1 ∨ v2 = G.render v1) (rest : Spec.Flight G A v2 s1 a1 t v3 s3) :
      Spec.Flight G A v s a (⟨out, b, G.radius v1⟩ :: t) v3 s3

open Classical in
/-- Result `r` is a true report of the flight `t`. -/
def Spec.Reports (maxLen : ℤ) (paths : Bool) (t : List Spec.Seen) (r : EvalResult) : Prop :=
  r.finalStep = t.length ∧ 1 ≤ r.finalStep ∧ (r.finalStep : ℤ) ≤ maxLen ∧
  r.cumulative = (t.map (·.out.reward)).sum ∧
  r.twr = ((t.filter fun x => x.ball.x ^ 2 + x.ball.y ^ 2 ≤ x.radius ^ 2 ∧ 0 ≤ x.radius).length : ℝ) / t.length ∧
  0 ≤ r.twr ∧ r.twr ≤ 1 ∧
  (paths = true → r.path = t.map fun x => ⟨x.ball.x, x.ball.y, x.ball.pressure, x.ball.sp, x.ball.timeElapsed,
    x.ball.charge / x.ball.cap⟩) ∧ (paths = false → r.path = []) ∧
  (∀ x ∈ t.dropLast, x.out.terminal = false) ∧
  (∀ x, t.getLast? = some x →
    (x.out.terminal = true → r.outOfPower = x.out.info.outOfPower ∧ r.envelopeBurst = x.out.info.envelopeBurst ∧
      r.zeropressure = x.out.info.zeropressure) ∧
    (x.out.terminal = false → r.outOfPower = false ∧ r.envelopeBurst = false ∧ r.zeropressure = false ∧
      (r.finalStep : ℤ) = maxLen))

/-- One flight of an evaluation, from environment `v` and agent `s` to `v'` and `s'`. -/
def Spec.Flown (G : GymEnv V) (A : Agent S) (maxLen : ℤ) (paths : Bool) (v : V) (s : S) (seed : ℤ) (r : EvalResult)
    (v' : V) (s' : S) : Prop :=
  r.seed = seed ∧ ∃ v0 obs s0 a t s1, G.reset (G.seed seed v) = (v0, .ok obs) ∧ A.beginEpisode s obs = (s0, .ok a) ∧
    Spec.Flight G A v0 s0 a t v' s1 ∧ Spec.Reports maxLen paths t r ∧
    (∃ x, t.getLast? = some x ∧ s' = A.endEpisode s1 x.out.reward x.out.terminal)

/-- Flights for a list of seeds, one after the other. -/
inductive Spec.FlownAll (G : GymEnv V) (A : Agent S) (maxLen : ℤ) (paths : Bool) :
    V → S → List ℤ → List EvalResult → V → S → Prop
  | nil (v : V) (s : S) : Spec.FlownAll G A maxLen paths v s [] [] v s
  | cons {v v1 v2 : V} {s s1 s2 : S} {seed : ℤ} {seeds : List ℤ} {r : EvalResult} {rs : List EvalResult}
      (h : Spec.Flown G A maxLen paths v s seed r v1 s1) (rest : Spec.FlownAll G A maxLen paths v1 s1 seeds rs v2 s2) :
      Spec.FlownAll G A maxLen paths v s (seed :: seeds) (r :: rs) v2 s2

theorem withinRadius_iff (b : BState) (ρ : ℝ) : withinRadius b ρ ↔ b.x ^ 2 + b.y ^ 2 ≤ ρ ^ 2 ∧ 0 ≤ ρ := by
  unfold withinRadius
  constructor
  · intro h
    have h0 : 0 ≤ ρ := (Real.sqrt_nonneg _).trans h
    exact ⟨(Real.sqrt_le_left h0).1 h, h0⟩
  · rintro ⟨h, h0⟩
    exact (Real.sqrt_le_left h0).2 h

open Classical in
/-- What the loop does to its local variables. -/
theorem evalLoop_spec (G : GymEnv V) (A : Agent S) (period : ℤ) (paths : Bool) (n : ℕ) :
    ∀ (v : V) (s : S) (a : ℤ) (k k' : Acc) (v' : V) (s' : S), evalLoop G A period paths n v s a k = (v', s', .ok k') →
    ∃ t, Spec.Flight G A v s a t v' s' ∧ t.length ≤ n ∧ k'.count = k.count + t.length ∧
      k'.total = k.total + (t.map (·.out.reward)).sum ∧
      k'.within = k.within + (t.filter fun x => x.ball.x ^ 2 + x.ball.y ^ 2 ≤ x.radius ^ 2 ∧ 0 ≤ x.radius).length ∧
      k'.path = (if paths then k.path ++ t.map (fun x => SimpleState.of x.ball) else k.path) ∧
      (∀ x ∈ t.dropLast, x.out.terminal = false) ∧
      k'.last = (match t.getLast? with | none => k.last | some x => some (x.out.reward, x.out.terminal)) ∧
      ((∃ x, t.getLast? = some x ∧ x.out.terminal = true ∧ k'.outOfPower = x.out.info.outOfPower ∧
        k'.envelopeBurst = x.out.info.envelopeBurst ∧ k'.zeropressure = x.out.info.zeropressure) ∨
       ((∀ x, t.getLast? = some x → x.out.terminal = false) ∧ k'.outOfPower = k.outOfPower ∧
        k'.envelopeBurst = k.envelopeBurst ∧ k'.zeropressure = k.zeropressure ∧ t.length = n)) := by
  induction n with
  | zero =>
    intro v s a k k' v' s' h
    simp only [evalLoop, Prod.mk.injEq, Except.ok.injEq] at h
    obtain ⟨rfl, rfl, rfl⟩ := h
    exact ⟨[], .nil _ _ _, by simp, by simp, by simp, by simp, by simp, by simp, by simp, Or.inr (by simp)⟩
  | succ n ih =>
    intro v s a k k' v' s' h
    rw [evalLoop] at h
    simp only at h
    rcases hs : G.step a v with ⟨v1, _ | out⟩
    · rw [hs] at h; simp at h
    rw [hs] at h
    simp only at h
    rcases ha : A.step s out.reward out.obs with ⟨s1, _ | a1⟩
    · rw [ha] at h; simp at h
    rw [ha] at h
    simp only at h
    rcases hb : G.balloon v1 with _ | b
    · rw [hb] at h; simp at h
    rw [hb] at h
    simp only at h
    by_cases hp : period = 0
    · rw [if_pos hp] at h; simp at h
    rw [if_neg hp] at h
    have hv2 : (if Int.fmod k.count period = 0 then G.render v1 else v1) = v1 ∨
        (if Int.fmod k.count period = 0 then G.render v1 else v1) = G.render v1 := by
      split
      · exact Or.inr rfl
      · exact Or.inl rfl
    revert h
    generalize (if Int.fmod k.count period = 0 then G.render v1 else v1) = v2 at hv2
    intro h
    have hw : (if withinRadius b (G.radius v1) then 1 else 0) =
        (if b.x ^ 2 + b.y ^ 2 ≤ G.radius v1 ^ 2 ∧ 0 ≤ G.radius v1 then 1 else 0) := by
      simp only [withinRadius_iff]
    rcases ht : out.terminal with _ | _
    · rw [ht] at h
      simp only [Bool.false_eq_true, if_false] at h
      obtain ⟨t, f, hlen, hcount, htot, hwith, hpath, hdrop, hlast, hend⟩ := ih _ _ _ _ _ _ _ h
      simp only at hcount htot hwith hpath hlast hend
      refine ⟨⟨out, b, G.radius v1⟩ :: t, .cons hs ha hb hv2 f, by simpa using hlen, ?_, ?_, ?_, ?_, ?_, ?_, ?_⟩
      · rw [hcount, List.length_cons]; omega
      · rw [htot, List.map_cons, List.sum_cons]; ring
      · rw [hwith, hw, List.filter_cons]
        by_cases hin : b.x ^ 2 + b.y ^ 2 ≤ G.radius v1 ^ 2 ∧ 0 ≤ G.radius v1
        · rw [if_pos hin, if_pos (by simpa using hin), List.length_cons]; omega
        · rw [if_neg hin, if_neg (by simpa using hin)]; omega
      · rw [hpath]
        split <;> simp
      · intro x hx
        rcases t with _ | ⟨y, t⟩
        · simp at hx
        · rw [List.dropLast_cons_cons, List.mem_cons] at hx
          rcases hx with rfl | hx
          · exact ht
          · exact hdrop x hx
      · rw [hlast]
        rcases t with _ | ⟨y, t⟩
        · simp [ht]
        · rw [List.getLast?_cons_cons]
          rcases hl : (y :: t).getLast? with _ | z
          · simp at hl
          · rfl
      · rcases hend with ⟨x, hx, hr⟩ | ⟨hx, h1, h2, h3, h4⟩
        · left
          refine ⟨x, ?_, hr⟩
          rcases t with _ | ⟨y, t⟩
          · simp at hx
          · rw [List.getLast?_cons_cons]; exact hx
        · right
          refine ⟨?_, h1, h2, h3, by rw [List.length_cons, h4]⟩
          intro x hx'
          rcases t with _ | ⟨y, t⟩
          · simp at hx'; rw [← hx']; exact ht
          · rw [List.getLast?_cons_cons] at hx'; exact hx x hx'
    · rw [ht] at h
      simp only [if_true, Prod.mk.injEq, Except.ok.injEq] at h
      obtain ⟨rfl, rfl, rfl⟩ := h
      refine ⟨[⟨out, b, G.radius v1⟩], .cons hs ha hb hv2 (.nil _ _ a1), by simp, by simp, by simp, ?_, ?_, by simp, by simp [ht], ?_⟩
      · simp only [hw, List.filter_cons, List.filter_nil]
        split <;> simp_all
      · split <;> simp
      · left
        exact ⟨_, rfl, ht, rfl, rfl, rfl⟩

theorem evalFlight_spec (G : GymEnv V) (A : Agent S) (maxLen period : ℤ) (paths : Bool) (seed : ℤ) (v v' : V) (s s' : S)
    (r : EvalResult) (h : evalFlight G A maxLen period paths seed v s = (v', s', .ok r)) :
    Spec.Flown G A maxLen paths v s seed r v' s' := by
  unfold evalFlight at h
  simp only at h
  rcases hr : G.reset (G.seed seed v) with ⟨v0, _ | obs⟩
  · rw [hr] at h; simp at h
  rw [hr] at h
  simp only at h
  rcases ha : A.beginEpisode s obs with ⟨s0, _ | a⟩
  · rw [ha] at h; simp at h
  rw [ha] at h
  simp only at h
  generalize hk : ({ total := 0, within := 0, path := [], count := 0, outOfPower := false, envelopeBurst := false
                     zeropressure := false, last := none } : Acc) = k at h
  rcases hl : evalLoop G A period paths maxLen.toNat v0 s0 a k with ⟨v1, s1, _ | k'⟩
  · rw [hl] at h; simp at h
  rw [hl] at h
  simp only at h
  obtain ⟨t, f, hlen, hcount, htot, hwith, hpath, hdrop, hlast, hend⟩ := evalLoop_spec G A period paths _ _ _ _ _ _ _ _ hl
  by_cases h0 : k'.count = 0
  · rw [if_pos h0] at h; simp at h
  rw [if_neg h0] at h
  subst hk
  simp only [zero_add, List.nil_append] at hcount htot hwith hpath hlast hend
  rcases hx : t.getLast? with _ | x
  · rw [hx] at hlast
    rw [hlast] at h; simp at h
  rw [hx] at hlast
  rw [hlast] at h
  simp only [Prod.mk.injEq, Except.ok.injEq] at h
  obtain ⟨rfl, rfl, rfl⟩ := h
  have hlen1 : 1 ≤ t.length := by omega
  have hpos : (0 : ℝ) < t.length := by exact_mod_cast hlen1
  refine ⟨rfl, v0, obs, s0, a, t, s1, hr, ha, f, ⟨hcount, ?_, ?_, htot, ?_, ?_, ?_, ?_, ?_, hdrop, ?_⟩, x, hx, rfl⟩
  · simp only; omega
  · simp only; omega
  · simp only; rw [hwith, hcount]
  · simp only; positivity
  · simp only
    rw [hwith, hcount, div_le_one hpos]
    exact_mod_cast List.length_filter_le _ _
  · intro hp; rw [hp] at hpath; simpa [SimpleState.of] using hpath
  · intro hp; rw [hp] at hpath; simpa using hpath
  · intro y hy
    rw [hx] at hy
    cases hy
    rcases hend with ⟨z, hz, hzt, h1, h2, h3⟩ | ⟨hz, h1, h2, h3, h4⟩
    · rw [hx] at hz
      cases hz
      exact ⟨fun _ => ⟨h1, h2, h3⟩, fun h => absurd h (by rw [hzt]; decide)⟩
    · have := hz x hx
      refine ⟨fun h => absurd h (by rw [this]; decide), fun _ => ⟨h1, h2, h3, ?_⟩⟩
      simp only; omega

/-- The evaluation results are the true reports of flights, one per seed in the order of the suite: every
environment step of a flight was made with the agent's latest action, its reward counted once, its position
compared with the radius, its state recorded in the path; the flight went on until a terminal step or the
maximal length, whichever came first; the flags are those of the final step. For all environments,
agents, suites and rendering periods. -/
theorem C62_results (G : GymEnv V) (A : Agent S) (suite : Suite) (period : ℤ) (paths : Bool) (v v' : V) (s s' : S)
    (rs : List EvalResult) (h : evalAgent G A suite period paths v s = (v', s', .ok rs)) :
    Spec.FlownAll G A suite.maxLen paths v (A.setMode s false) suite.seeds rs v' s' ∧
    rs.map (·.seed) = suite.seeds ∧ (∀ r ∈ rs, ∃ t, Spec.Reports suite.maxLen paths t r) := by
  unfold evalAgent at h
  split at h
  · simp at h
  · have key : ∀ (seeds : List ℤ) (v v' : V) (s s' : S) (rs : List EvalResult),
        evalFlights G A suite.maxLen period paths seeds v s = (v', s', .ok rs) →
        Spec.FlownAll G A suite.maxLen paths v s seeds rs v' s' ∧
          rs.map (·.seed) = seeds ∧ (∀ r ∈ rs, ∃ t, Spec.Reports suite.maxLen paths t r) := by
      intro seeds
      induction seeds with
      | nil =>
        intro v v' s s' rs h
        simp only [evalFlights, Prod.mk.injEq, Except.ok.injEq] at h
        obtain ⟨rfl, rfl, rfl⟩ := h
        exact ⟨.nil _ _, rfl, by simp⟩
      | cons seed seeds ih =>
        intro v v' s s' rs h
        simp only [evalFlights] at h
        rcases hf : evalFlight G A suite.maxLen period paths seed v s with ⟨v1, s1, _ | r⟩
        · rw [hf] at h; simp at h
        rw [hf] at h
        simp only at h
        rcases hg : evalFlights G A suite.maxLen period paths seeds v1 s1 with ⟨v2, s2, _ | rs'⟩
        · rw [hg] at h; simp [Except.map] at h
        rw [hg] at h
        simp only [Except.map, Prod.mk.injEq, Except.ok.injEq] at h
        obtain ⟨rfl, rfl, rfl⟩ := h
        have hfl := evalFlight_spec _ _ _ _ _ _ _ _ _ _ _ hf
        obtain ⟨h1, h2, h3⟩ := ih _ _ _ _ _ hg
        refine ⟨.cons hfl h1, ?_, ?_⟩
        · rw [List.map_cons, h2, hfl.1]
        · intro r' hr'
          rcases List.mem_cons.1 hr' with rfl | hr'
          · obtain ⟨_, _, _, _, _, t, _, _, _, _, ht, _⟩ := hfl
            exact ⟨t, ht⟩
          · exact h3 r' hr'
    exact key _ _ _ _ _ _ h

/-- A non-positive maximal length is rejected before anything happens. -/
theorem C62_length_checked (G : GymEnv V) (A : Agent S) (suite : Suite) (period : ℤ) (paths : Bool) (v : V) (s : S)
    (h : suite.maxLen ≤ 0) : evalAgent G A suite period paths v s = (v, s, .error .assertion) := by
  unfold evalAgent
  rw [if_pos (by omega)]

theorem Spec.Flight.mem {G : GymEnv V} {A : Agent S} {v v' : V} {s s' : S} {a : ℤ} {t : List Spec.Seen}
    (h : Spec.Flight G A v s a t v' s') : ∀ x ∈ t, ∃ w w' b, G.step b w = (w', .ok x.out) ∧ G.balloon w' = .ok x.ball := by
  induction h with
  | nil => simp
  | cons hstep hagent hball hrender rest ih =>
    intro x hx
    rcases List.mem_cons.1 hx with rfl | hx
    · exact ⟨_, _, _, hstep, hball⟩
    · exact ih x hx

/-- For the balloon environment the flags tell how the flight ended: at most one is set, and none is set
exactly when the flight lasted its maximal length without ending. A result with fewer steps than the
maximum has exactly one flag set. -/
theorem C62_flags {K W Rd : Type} (c : EnvCfg K W Rd) (A : Agent S) (suite : Suite) (period : ℤ) (paths : Bool)
    (v v' : Env K W Rd) (s s' : S) (rs : List EvalResult)
    (h : evalAgent (balloonEnv c) A suite period paths v s = (v', s', .ok rs)) (r : EvalResult) (hr : r ∈ rs) :
    (r.outOfPower = false ∧ r.envelopeBurst = false ∧ r.zeropressure = false ∧ (r.finalStep : ℤ) = suite.maxLen) ∨
    (r.outOfPower = true ∧ r.envelopeBurst = false ∧ r.zeropressure = false) ∨
    (r.outOfPower = false ∧ r.envelopeBurst = true ∧ r.zeropressure = false) ∨
    (r.outOfPower = false ∧ r.envelopeBurst = false ∧ r.zeropressure = true) := by
  have h1 := (C62_results _ _ _ _ _ _ _ _ _ _ h).1
  clear h
  generalize A.setMode s false = s0 at h1
  generalize suite.seeds = seeds at h1
  induction h1 with
  | nil => simp at hr
  | cons hf rest ih =>
    rcases List.mem_cons.1 hr with rfl | hr
    · obtain ⟨_, v0, obs, s0, a, t, s1, _, _, hfl, hrep, x, hx, _⟩ := hf
      obtain ⟨_, _, _, _, _, _, _, _, _, _, hlast⟩ := hrep
      obtain ⟨l1, l2⟩ := hlast x hx
      rcases ht : x.out.terminal with _ | _
      · left
        exact l2 ht
      · right
        obtain ⟨e1, e2, e3⟩ := l1 ht
        obtain ⟨w, w', b, hstep, _⟩ := hfl.mem x (List.mem_of_getLast? hx)
        obtain ⟨i, _, _, hc, _, _⟩ := C21_terminal_iff c b w w' x.out hstep
        rw [e1, e2, e3]
        rcases hc ht with ⟨a1, a2, a3, _⟩ | ⟨a1, a2, a3, _⟩ | ⟨a1, a2, a3, _⟩
        · exact Or.inl ⟨a1, a2, a3⟩
        · exact Or.inr (Or.inl ⟨a1, a2, a3⟩)
        · exact Or.inr (Or.inr ⟨a1, a2, a3⟩)
    · exact ih hr

/-- A toy environment: the state counts down and the episode ends (out of power) at zero; the seed is the
starting value. -/
noncomputable def toyEnv : GymEnv ℤ where
  seed s _ := s
  reset v := (v, .ok [])
  step a v := (v - 1, .ok { obs := [], reward := a, terminal := v - 1 = 0
                            info := { outOfPower := v - 1 = 0, envelopeBurst := false, zeropressure := false, timeElapsed := 0 } })
  balloon v := .ok { demo with x := v, y := 0 }
  render v := v
  radius _ := 1

/-- An agent for it that answers 1 at first and then 2. -/
def toyAgent : Agent Unit where
  beginEpisode s _ := (s, .ok 1)
  step s _ _ := (s, .ok 2)
  endEpisode s _ _ := s

/-- Two flights: one ends after two steps, the other is cut off at three. -/
example : evalAgent toyEnv toyAgent { seeds := [2, 9], maxLen := 3 } 10 false 0 () = (6, (), .ok
    [{ seed := 2, cumulative := 3, twr := 1, outOfPower := true, envelopeBurst := false, zeropressure := false
       finalStep := 2, path := [] },
     { seed := 9, cumulative := 5, twr := 0, outOfPower := false, envelopeBurst := false, zeropressure := false
       finalStep := 3, path := [] }]) := by
  have q : ∀ x : ℝ, Real.sqrt (x ^ 2 + 0 ^ 2) = |x| := fun x => by rw [zero_pow two_ne_zero, add_zero, Real.sqrt_sq_eq_abs]
  unfold evalAgent evalFlights evalFlights evalFlights evalFlight
  have e : Int.toNat 3 = 0 + 1 + 1 + 1 := rfl
  simp only [toyEnv, toyAgent, e, evalLoop, Except.map, withinRadius, q]
  norm_num

/-! ## C63 -/

/-- The shards, concatenated, are the suite: nothing lost, nothing twice, in order. -/
theorem C63_partition (seeds : List ℤ) (n : ℕ) (hn : 1 ≤ n) :
    (List.range n).flatMap (fun i => shard seeds i n) = seeds := by
  rcases Nat.lt_or_ge 1 n with h | h
  · have key : ∀ m ≤ n, (List.range m).flatMap (fun i => shard seeds i n) = seeds.take (shardStart seeds.length m n) := by
      intro m
      induction m with
      | zero => intro _; simp [shardStart]
      | succ m ih =>
        intro hm
        rw [List.range_succ, List.flatMap_append, ih (by omega)]
        have hle : shardStart seeds.length m n ≤ shardStart seeds.length (m + 1) n := by
          unfold shardStart
          exact Nat.div_le_div_right (Nat.mul_le_mul_left _ (by omega))
        have e : shardStart seeds.length (m + 1) n =
            shardStart seeds.length m n + (shardStart seeds.length (m + 1) n - shardStart seeds.length m n) := by omega
        simp only [List.flatMap_cons, List.flatMap_nil, List.append_nil, shard, if_pos h]
        conv_rhs => rw [e, List.take_add]
    rw [key n le_rfl]
    apply List.take_of_length_le
    unfold shardStart
    rw [Nat.mul_div_cancel _ (by omega)]
  · have : n = 1 := by omega
    subst this
    simp [shard]

/-- The sizes of any two shards differ by at most one. -/
theorem C63_balanced (seeds : List ℤ) (n i j : ℕ) (hi : i < n) (hj : j < n) :
    (shard seeds i n).length ≤ (shard seeds j n).length + 1 := by
  rcases Nat.lt_or_ge 1 n with h | h
  · have hlen : ∀ k < n, (shard seeds k n).length = shardStart seeds.length (k + 1) n - shardStart seeds.length k n := by
      intro k hk
      have hle : shardStart seeds.length (k + 1) n ≤ seeds.length := by
        unfold shardStart
        apply Nat.div_le_of_le_mul
        rw [Nat.mul_comm n]
        exact Nat.mul_le_mul_left _ (by omega)
      simp only [shard, if_pos h, List.length_take, List.length_drop]
      omega
    have hsize : ∀ k < n, seeds.length / n ≤ shardStart seeds.length (k + 1) n - shardStart seeds.length k n ∧
        shardStart seeds.length (k + 1) n - shardStart seeds.length k n ≤ seeds.length / n + 1 := by
      intro k hk
      unfold shardStart
      have hn : 0 < n := by omega
      generalize seeds.length = L
      have e1 : L * (k + 1) = L * k + L := by ring
      rw [e1]
      have a1 := Nat.div_add_mod (L * k) n
      have a2 := Nat.div_add_mod L n
      have b1 := Nat.mod_lt (L * k) hn
      have b2 := Nat.mod_lt L hn
      have hd : (L * k + L) / n = L * k / n + L / n + (L * k % n + L % n) / n := by
        rw [show L * k + L = n * (L * k / n + L / n) + (L * k % n + L % n) by rw [Nat.mul_add]; omega]
        rw [Nat.mul_add_div hn]
      have h2 : (L * k % n + L % n) / n < 2 := by
        rw [Nat.div_lt_iff_lt_mul hn]; omega
      rw [hd]
      generalize (L * k % n + L % n) / n = X at h2 ⊢
      generalize L * k / n = Y
      generalize L / n = Z
      omega
    rw [hlen i hi, hlen j hj]
    have := hsize i hi
    have := hsize j hj
    omega
  · have : i = j := by omega
    rw [this]; omega

/-- Seven seeds in three shards: 2 + 2 + 3. -/
example : (shard [10, 11, 12, 13, 14, 15, 16] 0 3, shard [10, 11, 12, 13, 14, 15, 16] 1 3,
    shard [10, 11, 12, 13, 14, 15, 16] 2 3) = ([10, 11], [12, 13], [14, 15, 16]) := by decide

/-! ## C91 -/

/-- An agent that does not learn and whose answers do not depend on earlier episodes: `R` divides its states
into classes, no method leaves the class, and the answers depend on the class only. -/
structure Spec.Frozen (A : Agent S) (R : S → S → Prop) : Prop where
  symm_ : ∀ s s', R s s' → R s' s
  trans_ : ∀ s s' s'', R s s' → R s' s'' → R s s''
  begin_ : ∀ s s' obs, R s s' → (A.beginEpisode s obs).2 = (A.beginEpisode s' obs).2 ∧ R s (A.beginEpisode s' obs).1
  step_ : ∀ s s' r obs, R s s' → (A.step s r obs).2 = (A.step s' r obs).2 ∧ R s (A.step s' r obs).1
  end_ : ∀ s s' r t, R s s' → R s (A.endEpisode s' r t)

theorem Spec.Frozen.begin2 {A : Agent S} {R : S → S → Prop} (h : Spec.Frozen A R) (s s' : S) (obs : List ℝ) (hR : R s s') :
    R (A.beginEpisode s obs).1 (A.beginEpisode s' obs).1 :=
  h.trans_ _ _ _ (h.symm_ _ _ (h.begin_ s s obs (h.trans_ _ _ _ hR (h.symm_ _ _ hR))).2) (h.begin_ s s' obs hR).2

theorem Spec.Frozen.step2 {A : Agent S} {R : S → S → Prop} (h : Spec.Frozen A R) (s s' : S) (r : ℝ) (obs : List ℝ)
    (hR : R s s') : R (A.step s r obs).1 (A.step s' r obs).1 :=
  h.trans_ _ _ _ (h.symm_ _ _ (h.step_ s s r obs (h.trans_ _ _ _ hR (h.symm_ _ _ hR))).2) (h.step_ s s' r obs hR).2

/-- Environments whose flights depend on the seed only: `B` divides the environments into classes that no
method leaves, and `Q` relates environments in the same phase of the same flight. -/
structure Spec.Repeats (G : GymEnv V) (B Q : V → V → Prop) : Prop where
  trans_ : ∀ v v' v'', B v v' → B v' v'' → B v v''
  bseed_ : ∀ v seed, B v (G.seed seed v)
  breset_ : ∀ v, B v (G.reset v).1
  bstep_ : ∀ v a, B v (G.step a v).1
  brender_ : ∀ v, B v (G.render v)
  reset_ : ∀ v v' seed, B v v' → (G.reset (G.seed seed v)).2 = (G.reset (G.seed seed v')).2 ∧
    (∀ o, (G.reset (G.seed seed v)).2 = .ok o → Q (G.reset (G.seed seed v)).1 (G.reset (G.seed seed v')).1)
  step_ : ∀ v v' a, Q v v' → (G.step a v).2 = (G.step a v').2 ∧ Q (G.step a v).1 (G.step a v').1
  ball_ : ∀ v v', Q v v' → G.balloon v = G.balloon v'
  radius_ : ∀ v v', Q v v' → G.radius v = G.radius v'
  render_ : ∀ v v', Q v v' → Q (G.render v) (G.render v')

theorem evalLoop_repeats {G : GymEnv V} {B Q : V → V → Prop} (hG : Spec.Repeats G B Q) {A : Agent S} {R : S → S → Prop}
    (hA : Spec.Frozen A R) (period : ℤ) (paths : Bool) (n : ℕ) : ∀ (v v' : V) (s s' : S) (a : ℤ) (k : Acc), Q v v' → R s s' →
      (evalLoop G A period paths n v s a k).2.2 = (evalLoop G A period paths n v' s' a k).2.2 ∧
      Q (evalLoop G A period paths n v s a k).1 (evalLoop G A period paths n v' s' a k).1 ∧
      R (evalLoop G A period paths n v s a k).2.1 (evalLoop G A period paths n v' s' a k).2.1 := by
  induction n with
  | zero => intro v v' s s' a k hQ hR; exact ⟨rfl, hQ, hR⟩
  | succ n ih =>
    intro v v' s s' a k hQ hR
    rw [evalLoop, evalLoop]
    simp only
    obtain ⟨e1, q1⟩ := hG.step_ v v' a hQ
    revert e1 q1
    generalize G.step a v = x
    generalize G.step a v' = x'
    obtain ⟨w, o⟩ := x
    obtain ⟨w', o'⟩ := x'
    intro e1 q1
    simp only at e1 q1
    subst e1
    rcases o with e | out
    · exact ⟨rfl, q1, hR⟩
    simp only
    have e2 := (hA.step_ s s' out.reward out.obs hR).1
    have q2 := hA.step2 s s' out.reward out.obs hR
    revert e2 q2
    generalize A.step s out.reward out.obs = y
    generalize A.step s' out.reward out.obs = y'
    obtain ⟨s1, o⟩ := y
    obtain ⟨s1', o'⟩ := y'
    intro e2 q2
    simp only at e2 q2
    subst e2
    rcases o with e | a1
    · exact ⟨rfl, q1, q2⟩
    simp only
    rw [hG.ball_ w w' q1, hG.radius_ w w' q1]
    rcases G.balloon w' with e | b
    · exact ⟨rfl, q1, q2⟩
    simp only
    by_cases hp : period = 0
    · rw [if_pos hp, if_pos hp]; exact ⟨rfl, q1, q2⟩
    rw [if_neg hp, if_neg hp]
    have hq : Q (if Int.fmod k.count period = 0 then G.render w else w) (if Int.fmod k.count period = 0 then G.render w' else w') := by
      split
      · exact hG.render_ _ _ q1
      · exact q1
    cases out.terminal
    · simp only [Bool.false_eq_true, if_false]
      exact ih _ _ _ _ _ _ hq q2
    · simp only [if_true]
      exact ⟨trivial, hq, q2⟩

theorem evalFlight_repeats {G : GymEnv V} {B Q : V → V → Prop} (hG : Spec.Repeats G B Q) {A : Agent S} {R : S → S → Prop}
    (hA : Spec.Frozen A R) (maxLen period : ℤ) (paths : Bool) (seed : ℤ) (v v' : V) (s s' : S) (hB : B v v') (hR : R s s') :
      (evalFlight G A maxLen period paths seed v s).2.2 = (evalFlight G A maxLen period paths seed v' s').2.2 := by
  unfold evalFlight
  simp only
  obtain ⟨e1, q1⟩ := hG.reset_ v v' seed hB
  revert e1 q1
  generalize G.reset (G.seed seed v) = x
  generalize G.reset (G.seed seed v') = x'
  obtain ⟨w, o⟩ := x
  obtain ⟨w', o'⟩ := x'
  intro e1 q1
  simp only at e1 q1
  subst e1
  rcases o with e | obs
  · rfl
  replace q1 := q1 obs rfl
  simp only
  have e2 := (hA.begin_ s s' obs hR).1
  have q2 := hA.begin2 s s' obs hR
  revert e2 q2
  generalize A.beginEpisode s obs = y
  generalize A.beginEpisode s' obs = y'
  obtain ⟨s1, o⟩ := y
  obtain ⟨s1', o'⟩ := y'
  intro e2 q2
  simp only at e2 q2
  subst e2
  rcases o with e | a1
  · rfl
  simp only
  generalize ({ total := 0, within := 0, path := [], count := 0, outOfPower := false, envelopeBurst := false
                zeropressure := false, last := none } : Acc) = k
  obtain ⟨e3, q3, q4⟩ := evalLoop_repeats hG hA period paths maxLen.toNat w w' s1 s1' a1 k q1 q2
  revert e3 q3 q4
  generalize evalLoop G A period paths maxLen.toNat w s1 a1 k = z
  generalize evalLoop G A period paths maxLen.toNat w' s1' a1 k = z'
  obtain ⟨w2, s2, o⟩ := z
  obtain ⟨w2', s2', o'⟩ := z'
  intro e3 q3 q4
  simp only at e3 q3 q4
  subst e3
  rcases o with e | k'
  · rfl
  simp only
  by_cases h0 : k'.count = 0
  · rw [if_pos h0, if_pos h0]
  rw [if_neg h0, if_neg h0]
  rcases k'.last with _ | ⟨r, d⟩ <;> rfl

theorem flight_stays {G : GymEnv V} {B Q : V → V → Prop} (hG : Spec.Repeats G B Q) {A : Agent S} {R : S → S → Prop}
    (hA : Spec.Frozen A R) {v v' : V} {s s' : S} {a : ℤ} {t : List Spec.Seen} (h : Spec.Flight G A v s a t v' s')
    (v0 : V) (s0 : S) (hB : B v0 v) (hR : R s0 s) : B v0 v' ∧ R s0 s' := by
  induction h with
  | nil => exact ⟨hB, hR⟩
  | @cons v v1 v2 v3 s s1 s3 a a1 out b t hstep hagent hball hrender rest ih =>
    have h1 : B v0 v1 := by
      have := hG.bstep_ v a
      rw [hstep] at this
      exact hG.trans_ _ _ _ hB this
    have h2 : R s0 s1 := by
      have := (hA.step_ s0 s out.reward out.obs hR).2
      rwa [hagent] at this
    rcases hrender with rfl | rfl
    · exact ih h1 h2
    · exact ih (hG.trans_ _ _ _ h1 (hG.brender_ _)) h2

theorem flown_stays {G : GymEnv V} {B Q : V → V → Prop} (hG : Spec.Repeats G B Q) {A : Agent S} {R : S → S → Prop}
    (hA : Spec.Frozen A R) {maxLen : ℤ} {paths : Bool} {v v' : V} {s s' : S} {seed : ℤ} {r : EvalResult}
    (h : Spec.Flown G A maxLen paths v s seed r v' s')
    (v0 : V) (s0 : S) (hB : B v0 v) (hR : R s0 s) : B v0 v' ∧ R s0 s' := by
  obtain ⟨_, w, obs, s1, a, t, s2, hreset, hbegin, hfl, _, x, _, rfl⟩ := h
  have h1 : B v0 w := by
    have := hG.breset_ (G.seed seed v)
    rw [hreset] at this
    exact hG.trans_ _ _ _ (hG.trans_ _ _ _ hB (hG.bseed_ v seed)) this
  have h2 : R s0 s1 := by
    have := (hA.begin_ s0 s obs hR).2
    rwa [hbegin] at this
  obtain ⟨h3, h4⟩ := flight_stays hG hA hfl v0 s0 h1 h2
  exact ⟨h3, hA.end_ _ _ _ _ h4⟩

theorem evalFlights_repeats {G : GymEnv V} {B Q : V → V → Prop} (hG : Spec.Repeats G B Q)
    {A : Agent S} {R : S → S → Prop} (hA : Spec.Frozen A R) (maxLen period : ℤ) (paths : Bool) (v0 : V) (s0 : S)
    (f : ℤ → EvalResult) (seeds : List ℤ)
    (hf : ∀ x ∈ seeds, (evalFlight G A maxLen period paths x v0 s0).2.2 = .ok (f x)) :
    ∀ v s, B v0 v → R s0 s → (evalFlights G A maxLen period paths seeds v s).2.2 = .ok (seeds.map f) := by
  induction seeds with
  | nil => intro v s _ _; rfl
  | cons x seeds ih =>
    intro v s hB hR
    have hx := evalFlight_repeats hG hA maxLen period paths x v0 v s0 s hB hR
    rw [hf x (by simp)] at hx
    have hfl : Spec.Flown G A maxLen paths v s x (f x) (evalFlight G A maxLen period paths x v s).1
        (evalFlight G A maxLen period paths x v s).2.1 :=
      evalFlight_spec G A maxLen period paths x v _ s _ (f x) (by rw [hx])
    obtain ⟨b1, r1⟩ := flown_stays hG hA hfl v0 s0 hB hR
    have h1 := ih (fun y hy => hf y (by simp [hy])) _ _ b1 r1
    simp only [evalFlights]
    rw [← hx]
    simp only
    rw [h1]
    rfl

theorem evalFlights_each {G : GymEnv V} {B Q : V → V → Prop} (hG : Spec.Repeats G B Q)
    {A : Agent S} {R : S → S → Prop} (hA : Spec.Frozen A R) (maxLen period : ℤ) (paths : Bool) (v0 : V) (s0 : S)
    (seeds : List ℤ) : ∀ v s rs, B v0 v → R s0 s → (evalFlights G A maxLen period paths seeds v s).2.2 = .ok rs →
      ∀ x ∈ seeds, ∃ r, (evalFlight G A maxLen period paths x v0 s0).2.2 = .ok r := by
  induction seeds with
  | nil => simp
  | cons y seeds ih =>
    intro v s rs hB hR h x hx
    simp only [evalFlights] at h
    rcases hf : evalFlight G A maxLen period paths y v s with ⟨v1, s1, _ | r⟩
    · rw [hf] at h; simp at h
    rw [hf] at h
    simp only at h
    rcases List.mem_cons.1 hx with rfl | hx
    · exact ⟨r, by rw [evalFlight_repeats hG hA maxLen period paths x v0 v s0 s hB hR, hf]⟩
    · obtain ⟨b1, r1⟩ := flown_stays hG hA (evalFlight_spec _ _ _ _ _ _ _ _ _ _ _ hf) v0 s0 hB hR
      rcases hg : (evalFlights G A maxLen period paths seeds v1 s1).2.2 with _ | rs'
      · rw [hg] at h; cases h
      · exact ih v1 s1 rs' b1 r1 hg x hx

/-- For a repeatable environment and a frozen agent, evaluation is a function of the seed: if the evaluation of
a suite succeeds, then evaluating any selection of its seeds (in any order, with repetitions), from any
other environment and agent of the same classes, succeeds and gives the very same results for these seeds. -/
theorem C91_function_of_seed {G : GymEnv V} {B Q : V → V → Prop} (hG : Spec.Repeats G B Q) (hB : ∀ v, B v v)
    {A : Agent S} {R : S → S → Prop} (hA : Spec.Frozen A R) (suite : Suite) (period : ℤ) (paths : Bool) (v : V) (s : S)
    (hs : R (A.setMode s false) (A.setMode s false)) (rs : List EvalResult)
    (h : (evalAgent G A suite period paths v s).2.2 = .ok rs) :
    ∃ f : ℤ → EvalResult, rs = suite.seeds.map f ∧ ∀ (seeds : List ℤ) (v' : V) (s' : S), seeds ⊆ suite.seeds → B v v' →
      R (A.setMode s false) (A.setMode s' false) →
      (evalAgent G A { suite with seeds := seeds } period paths v' s').2.2 = .ok (seeds.map f) := by
  unfold evalAgent at h ⊢
  by_cases hm : ¬ suite.maxLen > 0
  · rw [if_pos hm] at h; cases h
  simp only [if_neg hm] at h ⊢
  have heach := evalFlights_each hG hA suite.maxLen period paths v (A.setMode s false) suite.seeds v _ rs (hB v) hs h
  classical
  obtain ⟨f, hf⟩ : ∃ f : ℤ → EvalResult, ∀ x ∈ suite.seeds,
      (evalFlight G A suite.maxLen period paths x v (A.setMode s false)).2.2 = .ok (f x) := by
    refine ⟨fun x => if hx : x ∈ suite.seeds then (heach x hx).choose else default, fun x hx => ?_⟩
    simp only [dif_pos hx]
    exact (heach x hx).choose_spec
  refine ⟨f, ?_, fun seeds v' s' hsub hv hr => ?_⟩
  · have := evalFlights_repeats hG hA suite.maxLen period paths v _ f suite.seeds hf v _ (hB v) hs
    rw [h] at this
    exact Except.ok.inj this
  · exact evalFlights_repeats hG hA suite.maxLen period paths v _ f seeds (fun x hx => hf x (hsub hx)) v' _ hv hr

/-! ### The balloon environment and its agents -/

variable {K W Rd : Type}

theorem envStep_radius (c : EnvCfg K W Rd) (a : ℤ) (v : Env K W Rd) : (v.step c a).1.radius = v.radius := by
  unfold Env.step
  split
  · rfl
  · simp only
    split
    · rfl
    · split
      · rfl
      · split <;> rfl

theorem envReset_radius (c : EnvCfg K W Rd) (o : Option ℤ) (v : Env K W Rd) : (v.reset c o).1.radius = v.radius := by
  unfold Env.reset
  cases o <;> simp only <;> split <;> try rfl
  all_goals split <;> rfl

/-- The balloon environment is repeatable: only its radius is not determined by the seed. -/
theorem balloonEnv_repeats (c : EnvCfg K W Rd) (hC : Spec.ForgetsForecast c.world.C) :
    Spec.Repeats (balloonEnv c) (fun v v' => v.radius = v'.radius)
      (fun v v' => Alike v.arena v'.arena ∧ v.radius = v'.radius) where
  trans_ := fun _ _ _ h h' => h.trans h'
  bseed_ := fun _ _ => rfl
  breset_ := fun v => (envReset_radius c none v).symm
  bstep_ := fun v a => (envStep_radius c a v).symm
  brender_ := fun _ => rfl
  reset_ := fun v v' seed hr => by
    simp only [balloonEnv]
    have h := C23_reproducible c hC v v' seed []
    have e : ∀ u : Env K W Rd, u.reset c (some seed) = (u.seed c seed).reset c none := fun _ => rfl
    rw [e, e] at h
    refine ⟨by rw [h.1], fun o ho => ⟨?_, ?_⟩⟩
    · rw [(envReset_rng c _).2, (envReset_rng c _).2]
      have hk : (v.seed c seed).rng = (v'.seed c seed).rng := rfl
      rw [← hk]
      refine (reset_alike c.world hC (c.world.J.split (v.seed c seed).rng 2 1) (v.seed c seed).arena (v'.seed c seed).arena).2
        o ?_
      unfold Env.reset at ho
      simp only at ho
      rcases hq : ((v.seed c seed).arena.reset c.world (c.world.J.split (v.seed c seed).rng 2 1)).2 with e | obs
      · rw [hq] at ho; cases ho
      · rw [hq] at ho
        simp only at ho
        split at ho
        · cases ho
        · simp only [Except.map, Except.ok.injEq] at ho
          rw [ho]
    · rw [envReset_radius, envReset_radius]; exact hr
  step_ := fun v v' a h => by
    simp only [balloonEnv]
    obtain ⟨h1, h2⟩ := envStep_alike c a h.1
    exact ⟨h1, h2, by rw [envStep_radius, envStep_radius]; exact h.2⟩
  ball_ := fun v v' h => by
    obtain ⟨⟨i, j, F, G, hA, hB, _, _, _, _, _, _, _, h6, h7, h8⟩, _⟩ := h
    simp only [balloonEnv, Arena.getState, hA, hB, Except.map, h6]
  radius_ := fun _ _ h => h.2
  render_ := fun _ _ h => h

theorem stationSeeker_frozen : Spec.Frozen stationSeeker (fun _ _ => True) where
  symm_ := fun _ _ _ => trivial
  trans_ := fun _ _ _ _ _ => trivial
  begin_ := fun _ _ _ _ => ⟨rfl, trivial⟩
  step_ := fun _ _ _ _ _ => ⟨rfl, trivial⟩
  end_ := fun _ _ _ _ _ => trivial

theorem mlp_frozen {P O : Type} (act : P → List ℝ → ℤ) (learn : P → O → List ℝ → ℤ → ℝ → List ℝ → ℤ → P × O) :
    Spec.Frozen (mlpAgent act learn) (fun s s' => s.params = s'.params ∧ s.train = false ∧ s'.train = false) where
  symm_ := fun _ _ h => ⟨h.1.symm, h.2.2, h.2.1⟩
  trans_ := fun _ _ _ h h' => ⟨h.1.trans h'.1, h.2.1, h'.2.2⟩
  begin_ := fun s s' obs h => by simp [mlpAgent, h.1, h.2]
  step_ := fun s s' r obs h => by simp [mlpAgent, h.1, h.2]
  end_ := fun s s' r t h => h

/-- Sharded evaluation gives what the unsharded evaluation gives: if the evaluation of the whole suite succeeds
with `rs`, then every shard, evaluated in its own process by its own environment object (same configuration
and radius, any history) and its own copy of a frozen agent, succeeds, and the results of the shards one
after the other are `rs`. -/
theorem C91_sharding (c : EnvCfg K W Rd) (hC : Spec.ForgetsForecast c.world.C) {A : Agent S} {R : S → S → Prop}
    (hA : Spec.Frozen A R) (suite : Suite) (period : ℤ) (paths : Bool) (v : Env K W Rd) (s : S)
    (hs : R (A.setMode s false) (A.setMode s false)) (rs : List EvalResult)
    (h : (evalAgent (balloonEnv c) A suite period paths v s).2.2 = .ok rs)
    (n : ℕ) (hn : 1 ≤ n) (vs : ℕ → Env K W Rd) (ss : ℕ → S) (hv : ∀ i, (vs i).radius = v.radius)
    (hss : ∀ i, R (A.setMode s false) (A.setMode (ss i) false)) :
    ∃ rss : ℕ → List EvalResult, (∀ i < n, (evalAgent (balloonEnv c) A { suite with seeds := shard suite.seeds i n }
        period paths (vs i) (ss i)).2.2 = .ok (rss i)) ∧ (List.range n).flatMap rss = rs := by
  obtain ⟨f, hf, hall⟩ := C91_function_of_seed (balloonEnv_repeats c hC) (fun _ => rfl) hA suite period paths v s hs rs h
  refine ⟨fun i => (shard suite.seeds i n).map f, fun i hi => ?_, ?_⟩
  · refine hall _ _ _ ?_ (hv i).symm (hss i)
    intro x hx
    rw [← C63_partition suite.seeds n hn]
    exact List.mem_flatMap.2 ⟨i, List.mem_range.2 hi, hx⟩
  · rw [hf]
    conv_rhs => rw [← C63_partition suite.seeds n hn]
    rw [List.map_flatMap]

/-- `C91_sharding` applies to the station seeker and to a trained network in evaluation mode. -/
example {P O : Type} (act : P → List ℝ → ℤ) (learn : P → O → List ℝ → ℤ → ℝ → List ℝ → ℤ → P × O) (s s' : Mlp P O)
    (h : s.params = s'.params) : Spec.Frozen stationSeeker (fun _ _ => True) ∧
    (fun s s' : Mlp P O => s.params = s'.params ∧ s.train = false ∧ s'.train = false) ((mlpAgent act learn).setMode s false)
      ((mlpAgent act learn).setMode s' false) :=
  ⟨stationSeeker_frozen, h, rfl, rfl⟩

/-! ## C64 -/

/-- Combining collects exactly the results in the files matching the pattern, sorted by seed. -/
theorem C64_combined (model : Name) (d : Dir) :
    (∀ r, r ∈ combined model d ↔ ∃ f ∈ d, (∃ mid, f.1 = model ++ '_' :: mid ++ ".json".toList) ∧ r ∈ f.2) ∧
    (combined model d).Pairwise (fun a b => a.seed ≤ b.seed) := by
  constructor
  · intro r
    simp only [combined, List.mem_mergeSort, List.mem_flatMap, List.mem_filter]
    constructor
    · rintro ⟨f, ⟨h1, h2⟩, h3⟩; exact ⟨f, h1, @of_decide_eq_true _ (Classical.propDecidable _) h2, h3⟩
    · rintro ⟨f, h1, h2, h3⟩; exact ⟨f, ⟨h1, @decide_eq_true _ (Classical.propDecidable _) (show globMatch model f.1 from h2)⟩, h3⟩
  · have := List.pairwise_mergeSort (le := fun a b : EvalResult => decide (a.seed ≤ b.seed))
      (fun a b c h h' => by simp only [decide_eq_true_eq] at *; omega)
      (fun a b => by simp only [Bool.or_eq_true, decide_eq_true_eq]; omega)
      ((d.filter fun f => @decide (globMatch model f.1) (Classical.propDecidable _)).flatMap (·.2))
    exact this.imp (fun h => by simpa using h)

theorem toString_inj {i j : ℕ} (h : (toString i).toList = (toString j).toList) : i = j := by
  rw [Nat.toString_eq_repr, Nat.toString_eq_repr, Nat.toList_repr, Nat.toList_repr] at h
  rw [← Nat.ofDigitChars_ten_toDigits (n := i), h, Nat.ofDigitChars_ten_toDigits]

theorem resultFile_match (name : Name) (i n : ℕ) (hn : 1 < n) : globMatch name (resultFile name i n) :=
  ⟨(toString i).toList, by simp [resultFile, if_pos hn]⟩

theorem resultFile_inj (name : Name) (i j n : ℕ) (hn : 1 < n) (h : resultFile name i n = resultFile name j n) : i = j := by
  simp only [resultFile, if_pos hn, List.append_cancel_right_eq, List.append_cancel_left_eq, List.cons.injEq, true_and] at h
  exact toString_inj h

open Classical in
/-- Writing shard files one after the other, in any order, into a directory without matching files. -/
theorem write_shards (name : Name) (n : ℕ) (hn : 1 < n) (rss : ℕ → List EvalResult) (order : List ℕ) (hnd : order.Nodup)
    (d : Dir) (hd : ∀ f ∈ d, ¬ globMatch name f.1) :
    ((order.foldl (fun d i => d.write (resultFile name i n) (rss i)) d).filter fun f => globMatch name f.1).Perm
      (order.map fun i => (resultFile name i n, rss i)) := by
  have key : ∀ (order : List ℕ) (d : Dir), order.Nodup → (∀ i ∈ order, ∀ f ∈ d, f.1 ≠ resultFile name i n) →
      ((order.foldl (fun d i => d.write (resultFile name i n) (rss i)) d).filter fun f => globMatch name f.1).Perm
      ((order.map fun i => (resultFile name i n, rss i)) ++ d.filter fun f => globMatch name f.1) := by
    intro order
    induction order with
    | nil => intro d _ _; simp
    | cons i order ih =>
      intro d hnd hne
      rw [List.nodup_cons] at hnd
      have hw : d.write (resultFile name i n) (rss i) = (resultFile name i n, rss i) :: d := by
        unfold Dir.write
        rw [List.filter_eq_self.2]
        intro f hf
        simpa using hne i (by simp) f hf
      rw [List.foldl_cons, hw]
      refine (ih _ hnd.2 ?_).trans ?_
      · intro j hj f hf
        rcases List.mem_cons.1 hf with rfl | hf
        · intro h
          have := resultFile_inj name i j n hn h
          subst this
          exact hnd.1 hj
        · exact hne j (by simp [hj]) f hf
      · rw [List.filter_cons, if_pos (by simpa using resultFile_match name i n hn), List.map_cons, List.cons_append]
        exact List.perm_middle
  have h := key order d hnd (fun i _ f hf he => hd f hf (he ▸ resultFile_match name i n hn))
  have h0 : d.filter (fun f => globMatch name f.1) = [] := List.filter_eq_nil_iff.2 (by simpa using hd)
  rw [h0, List.append_nil] at h
  exact h

/-- Combining the shards of one evaluation reproduces it: when the shard files have been written in any order
into a directory in which no file matched the pattern, and the shards together contain results `rs` for
strictly increasing seeds, then the combined file contains `rs` (without the paths unless they are asked
for), and all other files are as they were. Missing from the full property: directories with other files
whose names start with the same name and an underscore, where it is false (`C64_swallows`). -/
theorem C64_combine_partial (name : Name) (n : ℕ) (hn : 1 < n) (rss : ℕ → List EvalResult) (order : List ℕ)
    (horder : order.Perm (List.range n)) (d : Dir) (hd : ∀ f ∈ d, ¬ ∃ mid, f.1 = name ++ '_' :: mid ++ ".json".toList)
    (flightPaths : Bool) (hs : ((List.range n).flatMap rss).Pairwise (fun a b => a.seed < b.seed)) :
    let d' := order.foldl (fun d i => d.write (resultFile name i n) (rss i)) d
    (∀ out, (name ++ ".json".toList, out) ∈ combine name flightPaths d' ↔
      out = ((List.range n).flatMap rss).map fun r => if flightPaths then r else { r with path := [] }) ∧
    (∀ f, f.1 ≠ name ++ ".json".toList → (f ∈ combine name flightPaths d' ↔ f ∈ d')) := by
  intro d'
  have hperm := write_shards name n hn rss order (horder.nodup_iff.2 List.nodup_range) d hd
  have hcomb : combined name d' = (List.range n).flatMap rss := by
    have h1 : (combined name d').Perm ((List.range n).flatMap rss) := by
      unfold combined
      refine (List.mergeSort_perm _ _).trans ((hperm.flatMap_right _).trans ?_)
      rw [List.flatMap_map]
      exact horder.flatMap_right _
    refine List.Perm.eq_of_pairwise (le := fun a b : EvalResult => a.seed ≤ b.seed) ?_ (C64_combined name d').2
      (hs.imp (fun h => le_of_lt h)) h1
    intro a b ha hb hab hba
    have hinj : ∀ (l : List EvalResult), l.Pairwise (fun a b => a.seed < b.seed) → ∀ a ∈ l, ∀ b ∈ l, a.seed = b.seed → a = b := by
      intro l hl
      induction l with
      | nil => simp
      | cons x l ih =>
        rw [List.pairwise_cons] at hl
        intro a ha b hb hab
        rcases List.mem_cons.1 ha with rfl | ha' <;> rcases List.mem_cons.1 hb with rfl | hb'
        · rfl
        · exact absurd hab (ne_of_lt (hl.1 b hb'))
        · exact absurd hab.symm (ne_of_lt (hl.1 a ha'))
        · exact ih hl.2 a ha' b hb' hab
    exact hinj _ hs a (h1.mem_iff.1 ha) b hb (le_antisymm hab hba)
  constructor
  · intro out
    unfold combine Dir.write
    rw [hcomb]
    simp only [List.mem_cons, Prod.mk.injEq, true_and, List.mem_filter, ne_eq, not_true, decide_false, Bool.false_eq_true,
      and_false, or_false]
    cases flightPaths <;> simp
  · intro f hf
    unfold combine Dir.write
    simp only [List.mem_cons, List.mem_filter, ne_eq, hf, not_false_eq_true, decide_true, and_true]
    constructor
    · rintro (h | h)
      · rw [h] at hf; exact absurd rfl hf
      · exact h
    · exact Or.inr

/-- The full property is false of the code: the pattern also matches the files of every agent whose name starts
with this name and an underscore, sharded or not, so combining mixes their results in. -/
theorem C64_swallows (model rest : Name) (i n : ℕ) (d : Dir) (rs : List EvalResult)
    (h : (resultFile (model ++ '_' :: rest) i n, rs) ∈ d) : ∀ r ∈ rs, r ∈ combined model d := by
  intro r hr
  rw [(C64_combined model d).1]
  refine ⟨_, h, ?_, hr⟩
  unfold resultFile
  split
  · exact ⟨rest ++ '_' :: (toString i).toList, by simp⟩
  · exact ⟨rest, by simp⟩

/-- Two agents of the code base: with both evaluated, combining `random` twice over contains the results of
`random_walk`, once from its shards and once more when `random_walk` has been combined before. -/
example (r1 r2 : EvalResult) : r2 ∈ combined "random".toList
    [(resultFile "random".toList 0 2, [r1]), (resultFile "random_walk".toList 1 2, [r2])] := by
  have e : "random_walk".toList = "random".toList ++ '_' :: "walk".toList := by decide
  exact C64_swallows "random".toList "walk".toList 1 2 _ [r2] (by rw [e]; simp) r2 (by simp)

/-- Two shards written in the wrong order next to the results of another agent. -/
example (r1 r2 : EvalResult) (x : List EvalResult) (h : r1.seed < r2.seed) :
    ("mlp".toList ++ ".json".toList, [r1, r2]) ∈ combine "mlp".toList true
      ([1, 0].foldl (fun d i => Dir.write d (resultFile "mlp".toList i 2) (if i = 0 then [r1] else [r2]))
        [("random.json".toList, x)]) := by
  have := (C64_combine_partial "mlp".toList 2 (by norm_num) (fun i => if i = 0 then [r1] else [r2]) [1, 0]
    (by decide) [("random.json".toList, x)] (by
      intro f hf
      rw [List.mem_singleton] at hf
      subst hf
      rintro ⟨mid, h⟩
      have h1 := congrArg List.head? h
      simp at h1) true (by simpa [List.range_succ] using h)).1 [r1, r2]
  exact this.2 (by simp [List.range_succ])

end BLE
