import Verif.Props.Reach
import Verif.Props.Seeker
import Verif.Props.Eval

/-!
# C138: evaluations never raise
-/

namespace BLE

variable {K W Rd S : Type}

/-- The agent answers every observation of a flight with 0, 1 or 2, if its state satisfies `I` between the episodes and `J` during
them. -/
structure Spec.Pilot (E : World K W) (A : Agent S) (I J : S → Prop) : Prop where
  start : ∀ s obs, I s → Spec.Observed E obs →
    ∃ s' a, A.beginEpisode s obs = (s', .ok a) ∧ J s' ∧ (a = 0 ∨ a = 1 ∨ a = 2)
  go : ∀ s r obs, J s → Spec.Observed E obs → ∃ s' a, A.step s r obs = (s', .ok a) ∧ J s' ∧ (a = 0 ∨ a = 1 ∨ a = 2)
  finish : ∀ s r t, J s → I (A.endEpisode s r t)

/-- `n` steps into an episode, in weather no faster than `B`. -/
structure Aboard (E : World K W) (B : ℝ) (n : ℕ) (A : Arena K W) (i : ℕ) : Prop where
  episode : Spec.InEpisode E A i
  aloft : AloftInv (A.heap.balls i)
  lat : |degrees (A.heap.balls i).center.lat| ≤ 10
  start : 1293840000 * 1000000 ≤ (A.heap.balls i).dateTime - (A.heap.balls i).timeElapsed ∧
    (A.heap.balls i).dateTime - (A.heap.balls i).timeElapsed < 1419984000 * 1000000
  time : (A.heap.balls i).timeElapsed ≤ 180 * 1000000 * n
  dist : Real.sqrt ((A.heap.balls i).x ^ 2 + (A.heap.balls i).y ^ 2) ≤
    200000 + B * (((A.heap.balls i).timeElapsed : ℝ) / 1000000)

theorem aboard_envelope {E : World K W} {B : ℝ} {n : ℕ} {A : Arena K W} {i : ℕ} (h : Aboard E B n A i) (hB : 0 ≤ B)
    (hn : n ≤ 14300000) (hd : 180 * B * n ≤ 4200000) : Spec.Envelope (A.heap.balls i) := by
  have t0 := h.episode.flyer.clock
  have t1 := h.time
  obtain ⟨d0, d1⟩ := h.start
  refine { date := ⟨by omega, by omega⟩, lat := lat_near h.lat ?_
           pressure := ⟨by linarith [h.aloft.range.1], by linarith [h.aloft.range.2]⟩
           temp := ⟨by linarith [h.aloft.gas.1], by linarith [h.aloft.gas.2]⟩, sp := h.aloft.ended }
  refine h.dist.trans ?_
  have t2 : ((A.heap.balls i).timeElapsed : ℝ) / 1000000 ≤ 180 * n := by
    rw [div_le_iff₀ (by norm_num)]
    have : (((A.heap.balls i).timeElapsed : ℤ) : ℝ) ≤ ((180 * 1000000 * n : ℤ) : ℝ) := by exact_mod_cast t1
    push_cast at this
    linarith
  have := mul_le_mul_of_nonneg_left t2 hB
  linarith

theorem aboard_step {c : EnvCfg K W Rd} {cal : Calendar} (hcal : Spec.Gregorian cal) (hE : c.world.sun = realSun cal) {B : ℝ}
    (hB : Spec.WindLimit c.world B) {n : ℕ} {v : Env K W Rd} {i : ℕ} (h : Aboard c.world B n v.arena i) (a : ℤ) :
    Aboard c.world B (n + 1) (v.step c a).1.arena i := by
  obtain ⟨-, -, -, -, -, -, ⟨j, hj, ht⟩, hst, ⟨hcen, -⟩, -⟩ := C97_invariants c [a] v (v.step c a).1 rfl i h.episode.ball _ _ rfl rfl
  have t1 := h.time
  simp only [List.length_cons, List.length_nil] at hj
  have tm : ((v.step c a).1.arena.heap.balls i).timeElapsed ≤ 180 * 1000000 * ((n + 1 : ℕ) : ℤ) := by
    rw [ht]; push_cast; omega
  rcases envStep_arena c a v with e | ⟨cmd, e⟩
  · refine { episode := ?_, aloft := ?_, lat := by rw [hcen]; exact h.lat, start := by rw [hst]; exact h.start, time := tm
             dist := ?_ } <;> rw [e]
    exacts [h.episode, h.aloft, h.dist]
  · refine { episode := ?_, aloft := ?_, lat := by rw [hcen]; exact h.lat, start := by rw [hst]; exact h.start, time := tm
             dist := ?_ } <;> rw [e]
    · exact inEpisode_step h.episode cmd
    · exact aloft_arena hcal hE h.episode h.aloft cmd
    · have := reach_arena hB h.episode cmd _ _ rfl rfl
      refine this.trans ?_
      have := h.dist
      push_cast
      linarith

theorem aboard_flies {c : EnvCfg K W Rd} (two : Bool) (hR : c.world.R = gpr two) {cal : Calendar} (hcal : Spec.Gregorian cal)
    (hE : c.world.sun = realSun cal) (hC : Spec.GoodWind c.world.C) {q : RewardParams} (hh : 0 < q.halflife)
    (hrew : c.rewardFn = reward c.world.sun q) {B : ℝ} (hB0 : 0 ≤ B) (hB : Spec.WindLimit c.world B) {n : ℕ} {v : Env K W Rd}
    {i : ℕ} (h : Aboard c.world B n v.arena i) (hok : (v.arena.heap.balls i).status = .ok) (hn : n + 1 ≤ 14300000)
    (hd : 180 * B * (n + 1) ≤ 4200000) (a : ℤ) (ha : a = 0 ∨ a = 1 ∨ a = 2) :
    ∃ out, (v.step c a).2 = .ok out ∧ Spec.Observed c.world out.obs ∧
      (out.terminal = false → ((v.step c a).1.arena.heap.balls i).status = .ok) := by
  have h' := aboard_step hcal hE hB h a
  have e0 := aboard_envelope h hB0 (by omega) (by nlinarith)
  have e1 := aboard_envelope h' hB0 hn (by push_cast; exact hd)
  rcases hstep : (v.step c a).2 with e | out
  · exfalso
    rcases C102_episode c two hR cal hcal hE hC q hh hrew v i h.episode [] a e hstep with g | g | g | g
    · omega
    · exact g hok
    · exact g e0
    · exact g e1
  · have hst : v.step c a = ((v.step c a).1, .ok out) := by rw [← hstep]
    refine ⟨out, rfl, ?_, fun hterm => ?_⟩
    · obtain ⟨j, F, F', w, f, g1, -, g3, -, -, -, g5, -, -, g6⟩ := C96_observation c a _ _ out hst
      have hij : j = i := by
        have := h'.episode.ball
        rw [g1] at this
        injection this
      subst hij
      exact observed_of h'.episode (by linarith [h'.aloft.range.1]) g3 g5 g6
    · have hball := h'.episode.ball
      have hterm' : out.terminal = ((getInfo ((v.step c a).1.arena.heap.balls i)).outOfPower ||
          (getInfo ((v.step c a).1.arena.heap.balls i)).envelopeBurst ||
          (getInfo ((v.step c a).1.arena.heap.balls i)).zeropressure) := by
        obtain ⟨cmd, j, r, -, -, -, hj, -, -, hi, ht, -⟩ := envStep_ok hst
        rw [hball] at hj
        injection hj with hj
        subst hj
        rw [ht, hi]
      rw [hterm'] at hterm
      unfold getInfo at hterm
      rcases hs : ((v.step c a).1.arena.heap.balls i).status with _ | _ | _ | _ <;> rw [hs] at hterm <;> simp at hterm

/-- The loop of one flight runs to its end. -/
theorem loop_flies {c : EnvCfg K W Rd} (two : Bool) (hR : c.world.R = gpr two) {cal : Calendar} (hcal : Spec.Gregorian cal)
    (hE : c.world.sun = realSun cal) (hC : Spec.GoodWind c.world.C) {q : RewardParams} (hh : 0 < q.halflife)
    (hrew : c.rewardFn = reward c.world.sun q) {B : ℝ} (hB0 : 0 ≤ B) (hB : Spec.WindLimit c.world B) {A : Agent S}
    {I J : S → Prop} (hA : Spec.Pilot c.world A I J) {period : ℤ} (hper : period ≠ 0) (paths : Bool) (i n : ℕ) :
    ∀ (m : ℕ) (v : Env K W Rd) (s : S) (a : ℤ) (k : Acc), Aboard c.world B m v.arena i →
      (v.arena.heap.balls i).status = .ok → J s → (a = 0 ∨ a = 1 ∨ a = 2) → m + n ≤ 14300000 →
      180 * B * (m + n) ≤ 4200000 →
      ∃ v' s' k', evalLoop (balloonEnv c) A period paths n v s a k = (v', s', .ok k') ∧ J s' ∧
        (0 < n ∨ (k.last.isSome ∧ 0 < k.count) → k'.last.isSome ∧ 0 < k'.count) := by
  induction n with
  | zero =>
    intro m v s a k _ _ hI _ _ _
    exact ⟨v, s, k, rfl, hI, fun h => h.resolve_left (lt_irrefl 0)⟩
  | succ n ih =>
    intro m v s a k h hok hI ha hmn hd
    have hd1 : 180 * B * ((m : ℝ) + 1) ≤ 4200000 := by
      refine le_trans ?_ hd
      have h0 : (0 : ℝ) ≤ 180 * B := by positivity
      refine mul_le_mul_of_nonneg_left ?_ h0
      have : (0 : ℝ) ≤ (n : ℝ) := Nat.cast_nonneg n
      push_cast; linarith
    obtain ⟨out, h1, h2, h3⟩ := aboard_flies two hR hcal hE hC hh hrew hB0 hB h hok (by omega) hd1 a ha
    have h' := aboard_step hcal hE hB h a
    obtain ⟨s', a', g1, g2, g3⟩ := hA.go s out.reward out.obs hI h2
    have e1 : ((balloonEnv c).step a v).2 = .ok out := h1
    have e2 : (balloonEnv c).balloon ((balloonEnv c).step a v).1 = .ok ((v.step c a).1.arena.heap.balls i) := by
      show ((v.step c a).1.arena.getState.map fun st => (v.step c a).1.arena.heap.balls st.ball) = _
      obtain ⟨F, hF, -⟩ := h'.episode.feat
      unfold Arena.getState
      rw [h'.episode.ball]
      rfl
    unfold evalLoop
    simp only [e1, g1, e2, if_neg hper]
    by_cases ht : out.terminal = true
    · rw [if_pos ht]
      exact ⟨_, _, _, rfl, g2, fun _ => ⟨rfl, Nat.succ_pos _⟩⟩
    · rw [if_neg ht]
      have hok' := h3 (by simpa using ht)
      generalize hk : Acc.mk _ _ _ _ _ _ _ _ = k1
      have hk1 : k1.last.isSome ∧ 0 < k1.count := by rw [← hk]; exact ⟨rfl, Nat.succ_pos _⟩
      have key : ∀ v2 : Env K W Rd, v2.arena = (v.step c a).1.arena → ∃ v' s'' k',
          evalLoop (balloonEnv c) A period paths n v2 s' a' k1 = (v', s'', .ok k') ∧ J s'' ∧ k'.last.isSome ∧ 0 < k'.count := by
        intro v2 hv2
        obtain ⟨v', s'', k', r1, r2, r3⟩ := ih (m + 1) v2 s' a' k1 (by rw [hv2]; exact h') (by rw [hv2]; exact hok') g2 g3
          (by omega) (by push_cast at hd ⊢; linarith)
        exact ⟨v', s'', k', r1, r2, r3 (.inr hk1)⟩
      obtain ⟨v', s'', k', r1, r2, r3⟩ := key (if Int.fmod k.count period = 0 then (balloonEnv c).render ((balloonEnv c).step a v).1
        else ((balloonEnv c).step a v).1) (by split_ifs <;> rfl)
      exact ⟨v', s'', k', r1, r2, fun _ => r3⟩

/-- Every reset puts a balloon aboard. -/
theorem reset_aboard {c : EnvCfg K W Rd} (hJ : Spec.SaneDraws c.world.J) (two : Bool) (hR : c.world.R = gpr two)
    {cal : Calendar} (hcal : Spec.Gregorian cal)
    (hE : c.world.sun = realSun cal) (hC : Spec.GoodWind c.world.C) {B : ℝ} (hB : Spec.WindLimit c.world B) (v : Env K W Rd) :
    ∃ v0 obs i, (balloonEnv c).reset v = (v0, .ok obs) ∧ Spec.Observed c.world obs ∧ Aboard c.world B 0 v0.arena i ∧
      (v0.arena.heap.balls i).status = .ok := by
  obtain ⟨v0, o, i, hr, h⟩ := aloft_episode c hJ two hR cal hcal hE hC v none
  obtain ⟨h1, h2⟩ := h []
  obtain ⟨v0', obs, info, hr', hobs, -⟩ := C137_episode c hJ two hR cal hcal hE hC v none
  rw [hr] at hr'
  simp only [Prod.mk.injEq, Except.ok.injEq] at hr'
  obtain ⟨rfl, rfl⟩ := hr'
  obtain ⟨j, t, hj, ht, ⟨k, hk, hte⟩, ⟨d0, d1⟩, -, -, -, -, -, hlat, -⟩ := C97_from_reset c hJ
      (by rw [hE]; exact C94_real_sun cal hcal.1) v v0 none (obs, info) hr []
  have hij : j = i := by
    have := h1.ball
    rw [hj] at this
    injection this
  subst hij
  subst ht
  obtain ⟨v0', o', i', hr', hre⟩ := reach_episode c hJ two hR cal hcal hE hC hB v none
  rw [hr] at hr'
  simp only [Prod.mk.injEq, Except.ok.injEq] at hr'
  obtain ⟨rfl, -⟩ := hr'
  obtain ⟨r1, r2, r3⟩ := hre [] _ rfl
  have hij : i' = j := by
    have := h1.ball
    rw [r1.ball] at this
    injection this
  subst hij
  refine ⟨v0, obs, i', ?_, hobs, { episode := h1, aloft := h2, lat := hlat, start := ⟨d0, d1⟩, time := ?_, dist := r3 }, r2⟩
  · show ((v.reset c none).1, (v.reset c none).2.map (·.1)) = _
    rw [hr]; rfl
  · have : k = 0 := by simpa using hk
    subst this
    have e : (v0.arena.heap.balls i').timeElapsed = ((0 : ℕ) : ℤ) * (10 * 1000000) := hte
    rw [e]; norm_num

/-- One flight. -/
theorem flight_flies {c : EnvCfg K W Rd} (hJ : Spec.SaneDraws c.world.J) (two : Bool) (hR : c.world.R = gpr two)
    {cal : Calendar} (hcal : Spec.Gregorian cal)
    (hE : c.world.sun = realSun cal) (hC : Spec.GoodWind c.world.C) {q : RewardParams} (hh : 0 < q.halflife)
    (hrew : c.rewardFn = reward c.world.sun q) {B : ℝ} (hB0 : 0 ≤ B) (hB : Spec.WindLimit c.world B) {A : Agent S}
    {I J : S → Prop} (hA : Spec.Pilot c.world A I J) {period : ℤ} (hper : period ≠ 0) (paths : Bool) {maxLen : ℤ} (hm0 : 0 < maxLen)
    (hm : maxLen ≤ 14300000) (hd : 180 * B * maxLen ≤ 4200000) (seed : ℤ) (v : Env K W Rd) (s : S) (hI : I s) :
    ∃ v' s' r, evalFlight (balloonEnv c) A maxLen period paths seed v s = (v', s', .ok r) ∧ I s' ∧ r.seed = seed := by
  obtain ⟨v0, obs, i', e1, hobs, hab, r2⟩ := reset_aboard hJ two hR hcal hE hC hB ((balloonEnv c).seed seed v)
  obtain ⟨s1, a, b1, b2, b3⟩ := hA.start s obs hI hobs
  have hcast : ((maxLen.toNat : ℕ) : ℝ) = (maxLen : ℝ) := by
    have : ((maxLen.toNat : ℕ) : ℤ) = maxLen := Int.toNat_of_nonneg hm0.le
    exact_mod_cast congrArg (Int.cast : ℤ → ℝ) this
  obtain ⟨v', s', k', l1, l2, l3⟩ := loop_flies two hR hcal hE hC hh hrew hB0 hB hA hper paths i' maxLen.toNat 0 v0 s1 a
    { total := 0, within := 0, path := [], count := 0, outOfPower := false, envelopeBurst := false
      zeropressure := false, last := none } hab r2 b2 b3 (by omega) (by rw [hcast]; push_cast; linarith)
  obtain ⟨l4, l5⟩ := l3 (.inl (by omega))
  obtain ⟨⟨rw', dn⟩, hlast⟩ := Option.isSome_iff_exists.1 l4
  unfold evalFlight
  simp only [e1, b1, l1, if_neg (by omega : ¬ k'.count = 0), hlast]
  exact ⟨_, _, _, rfl, hA.finish _ _ _ l2, rfl⟩

/-- C138. Evaluating an agent that answers every observation of a flight with 0, 1 or 2 never raises: whatever the suite, the
state of the environment, the random draws and the weather (no faster than `B`, with 180 `B` times the length of an episode at
most 4,200 km), `eval_agent` returns one result per seed, in order. -/
theorem C138_evaluates (c : EnvCfg K W Rd) (hJ : Spec.SaneDraws c.world.J) (two : Bool) (hR : c.world.R = gpr two)
    (cal : Calendar) (hcal : Spec.Gregorian cal) (hE : c.world.sun = realSun cal) (hC : Spec.GoodWind c.world.C)
    (q : RewardParams) (hh : 0 < q.halflife) (hrew : c.rewardFn = reward c.world.sun q) (B : ℝ) (hB0 : 0 ≤ B)
    (hB : Spec.WindLimit c.world B) (A : Agent S) (I J : S → Prop) (hA : Spec.Pilot c.world A I J) (suite : Suite)
    (hm0 : 0 < suite.maxLen) (hm : suite.maxLen ≤ 14300000) (hd : 180 * B * suite.maxLen ≤ 4200000) (period : ℤ)
    (hper : period ≠ 0) (paths : Bool) (v : Env K W Rd) (s : S) (hI : I (A.setMode s false)) :
    ∃ v' s' rs, evalAgent (balloonEnv c) A suite period paths v s = (v', s', .ok rs) ∧ rs.map (·.seed) = suite.seeds := by
  have key : ∀ (seeds : List ℤ) (v : Env K W Rd) (s : S), I s → ∃ v' s' rs,
      evalFlights (balloonEnv c) A suite.maxLen period paths seeds v s = (v', s', .ok rs) ∧ rs.map (·.seed) = seeds := by
    intro seeds
    induction seeds with
    | nil => intro v s _; exact ⟨v, s, [], rfl, rfl⟩
    | cons sd seeds ih =>
      intro v s hI
      obtain ⟨v1, s1, r, f1, f2, f3⟩ := flight_flies hJ two hR hcal hE hC hh hrew hB0 hB hA hper paths hm0 hm hd sd v s hI
      obtain ⟨v2, s2, rs, g1, g2⟩ := ih v1 s1 f2
      unfold evalFlights
      simp only [f1, g1]
      exact ⟨_, _, r :: rs, rfl, by rw [List.map_cons, f3, g2]⟩
  unfold evalAgent
  rw [if_neg (by omega)]
  exact key suite.seeds v _ hI

/-- C138, StationSeeker is such an agent. -/
theorem C138_seeker (E : World K W) (two : Bool) (hR : E.R = gpr two) (cal : Calendar) (hcal : Spec.Gregorian cal)
    (hE : E.sun = realSun cal) : Spec.Pilot E stationSeeker (fun _ => True) fun _ => True where
  start s obs _ h := by
    obtain ⟨-, a, ha, hv⟩ := C137_seeker E two hR cal hcal hE obs h
    exact ⟨s, a, by unfold stationSeeker; simp only [ha], trivial, hv⟩
  go s r obs _ h := by
    obtain ⟨-, a, ha, hv⟩ := C137_seeker E two hR cal hcal hE obs h
    exact ⟨s, a, by unfold stationSeeker; simp only [ha], trivial, hv⟩
  finish _ _ _ _ := trivial

/-- C138, so is the random walk, whatever it draws. -/
theorem C138_walk (E : World K W) (two : Bool) (hR : E.R = gpr two) (cal : Calendar) (hcal : Spec.Gregorian cal)
    (hE : E.sun = realSun cal) (J : Jax K) (normal : K → ℝ) : Spec.Pilot E (randomWalkAgent J normal) (fun _ => True) fun _ => True := by
  have sel : ∀ (s : RandomWalk K) (obs : List ℝ), Spec.Observed E obs →
      ∃ a, (s.select obs).map Command.toInt = .ok a ∧ (a = 0 ∨ a = 1 ∨ a = 2) := by
    intro s obs h
    obtain ⟨c, hc, -⟩ := (C59_select s obs).1 (C137_seeker E two hR cal hcal hE obs h).1
    rw [hc]
    refine ⟨c.toInt, rfl, ?_⟩
    cases c <;> simp [Command.toInt]
  refine ⟨fun s obs _ h => ?_, fun s r obs _ h => ?_, fun _ _ _ _ => trivial⟩
  · obtain ⟨a, ha, hv⟩ := sel (RandomWalk.sample J { s with elapsed := 0 }).1 obs h
    exact ⟨(RandomWalk.sample J { s with elapsed := 0 }).1, a, Prod.ext rfl ha, trivial, hv⟩
  · obtain ⟨a, ha, hv⟩ := sel _ obs h
    exact ⟨_, a, Prod.ext rfl ha, trivial, hv⟩

/-- C138, so is a network agent whose network chooses among three actions: in evaluation mode, which its `set_mode` enters, and also
when it learns. -/
theorem C138_mlp (E : World K W) {P O : Type} (act : P → List ℝ → ℤ) (hact : ∀ p obs, act p obs = 0 ∨ act p obs = 1 ∨ act p obs = 2)
    (learn : P → O → List ℝ → ℤ → ℝ → List ℝ → ℤ → P × O) :
    Spec.Pilot E (mlpAgent act learn) (fun s => s.train = false) (fun s => s.train = false) ∧
      (∀ s, ((mlpAgent act learn).setMode s false).train = false) ∧
      Spec.Pilot E (mlpAgent act learn) (fun _ => True) (fun s => s.last.isSome) := by
  refine ⟨⟨fun s obs h _ => ⟨_, _, rfl, h, hact _ _⟩, fun s r obs h _ => ?_, fun s r t h => h⟩, fun s => rfl,
    ⟨fun s obs h _ => ⟨_, _, rfl, rfl, hact _ _⟩, fun s r obs h _ => ?_, fun _ _ _ _ => trivial⟩⟩
  · refine ⟨{ s with last := some (obs, act s.params obs) }, _, ?_, h, hact s.params obs⟩
    unfold mlpAgent
    simp only
    rw [if_neg (by rw [h]; exact Bool.false_ne_true)]
  · obtain ⟨l, hl⟩ := Option.isSome_iff_exists.1 h
    unfold mlpAgent
    simp only [hl]
    split_ifs
    · exact ⟨_, _, rfl, rfl, hact _ _⟩
    · exact ⟨_, _, rfl, rfl, hact _ _⟩

/-- C138, so is a quantile agent in evaluation mode whose Dopamine part answers every observation with one of three actions. -/
theorem C138_quantile (E : World K W) {D X : Type} (coreBegin : D → List ℝ → D × Except Err ℤ)
    (coreStep : D → ℤ → ℝ → List ℝ → D × Except Err ℤ) (coreEnd : D → ℤ → ℝ → Bool → D) (explorer : Explorer X)
    (hbegin : ∀ d obs, ∃ a, (coreBegin d obs).2 = .ok a ∧ (a = 0 ∨ a = 1 ∨ a = 2))
    (hstep : ∀ d b r obs, ∃ a, (coreStep d b r obs).2 = .ok a ∧ (a = 0 ∨ a = 1 ∨ a = 2)) :
    Spec.Pilot E (quantileAgent coreBegin coreStep coreEnd explorer) (fun s => s.eval = true) (fun s => s.eval = true) ∧
      ∀ s, ((quantileAgent coreBegin coreStep coreEnd explorer).setMode s false).eval = true := by
  refine ⟨⟨fun s obs h _ => ?_, fun s r obs h _ => ?_, fun s r t h => h⟩, fun s => rfl⟩
  · obtain ⟨a, ha, hv⟩ := hbegin s.core obs
    refine ⟨{ s with core := (coreBegin s.core obs).1, action := a }, a, ?_, h, hv⟩
    unfold quantileAgent
    simp only [ha, h, if_true]
  · obtain ⟨a, ha, hv⟩ := hstep s.core s.action r obs
    refine ⟨{ s with core := (coreStep s.core s.action r obs).1, action := a }, a, ?_, h, hv⟩
    unfold quantileAgent
    simp only [ha, h, if_true]

/-- C138, the static wind field. There every evaluation of such an agent on a suite of two-day episodes (960 steps, as all the
suites of the package) returns one result per seed. -/
theorem C138_static (c : EnvCfg K Unit Rd) (hJ : Spec.SaneDraws c.world.J) (two : Bool) (hR : c.world.R = gpr two)
    (cal : Calendar) (hcal : Spec.Gregorian cal) (hE : c.world.sun = realSun cal) (hC : c.world.C = staticWind K)
    (hnz : ∀ s a b c' d, |c.world.nz s a b c' d| ≤ 1)
    (q : RewardParams) (hh : 0 < q.halflife) (hrew : c.rewardFn = reward c.world.sun q) (A : Agent S) (I J : S → Prop)
    (hA : Spec.Pilot c.world A I J) (suite : Suite) (hm : suite.maxLen = 960) (period : ℤ)
    (hper : period ≠ 0) (paths : Bool) (v : Env K Unit Rd) (s : S) (hI : I (A.setMode s false)) :
    ∃ v' s' rs, evalAgent (balloonEnv c) A suite period paths v s = (v', s', .ok rs) ∧ rs.map (·.seed) = suite.seeds :=
  C138_evaluates c hJ two hR cal hcal hE (by rw [hC]; exact good_static) q hh hrew 21.1 (by norm_num)
    (C136_static_limit c.world hC hnz) A I J hA suite (by omega) (by omega) (by rw [hm]; norm_num) period hper paths v s hI

/-- Flying StationSeeker in the sunny world for two days with seeds 0 and 7 gives two results. -/
example (v : Env (List ℕ) Unit Unit) : ∃ v' s' r0 r7,
    evalAgent (balloonEnv sunnyCfg) stationSeeker ⟨[0, 7], 960⟩ 10 true v () = (v', s', .ok [r0, r7]) ∧ r0.seed = 0 ∧ r7.seed = 7 := by
  obtain ⟨v', s', rs, h1, h2⟩ := C138_static sunnyCfg sunnyWorld_draws true rfl gregorian gregorian_ok rfl rfl
    (fun _ _ _ _ _ => by norm_num [sunnyCfg, sunnyWorld, demoWorld]) RewardParams.default
    (by norm_num [RewardParams.default]) rfl stationSeeker (fun _ => True) (fun _ => True) (C138_seeker _ true rfl gregorian gregorian_ok rfl)
    ⟨[0, 7], 960⟩ rfl 10 (by norm_num) true v () trivial
  obtain ⟨r0, r7, rfl⟩ := List.length_eq_two.1 (by simpa using congrArg List.length h2 : rs.length = 2)
  simp only [List.map_cons, List.map_nil, List.cons.injEq, and_true] at h2
  exact ⟨v', s', r0, r7, h1, h2.1, h2.2⟩

end BLE
