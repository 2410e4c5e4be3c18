import Verif.Props.Evaluates
import Verif.Props.TrainCommand
import Verif.Props.Checkpoint

/-!
# C139: training runs never raise
-/

namespace BLE

variable {K W Rd S C D X : Type}

/-- An action of the environment. -/
def Spec.Offered (a : ℤ) : Prop := a = 0 ∨ a = 1 ∨ a = 2

/-- Collectors that take every call of a training run: they satisfy `F` when constructed, `I` between and `J` during episodes. -/
structure Spec.Takes (on : Collectors C) (F I J : C → Prop) : Prop where
  pre : ∀ c, F c → (on .preTraining c).2 = .ok () ∧ I (on .preTraining c).1
  start : ∀ c, I c → (on .beginEpisode c).2 = .ok () ∧ J (on .beginEpisode c).1
  go : ∀ c s, J c → Spec.Offered s.action → (on (.step s) c).2 = .ok () ∧ J (on (.step s) c).1
  finish : ∀ c s, J c → Spec.Offered s.action → (on (.endEpisode s) c).2 = .ok () ∧ I (on (.endEpisode s) c).1
  done : ∀ c, I c → (on .endTraining c).2 = .ok ()

theorem dispatch_takes {on : Collectors C} {e : Event} {P Q : C → Prop} (h : ∀ c, P c → (on e c).2 = .ok () ∧ Q (on e c).1) :
    ∀ cs : List C, (∀ c ∈ cs, P c) → (dispatch on e cs).2 = .ok () ∧ ∀ c ∈ (dispatch on e cs).1, Q c := by
  intro cs
  induction cs with
  | nil => intro _; exact ⟨rfl, fun c hc => by simp [dispatch] at hc⟩
  | cons c cs ih =>
    intro hp
    obtain ⟨h1, h2⟩ := h c (hp c (List.mem_cons_self ..))
    obtain ⟨g1, g2⟩ := ih fun c' hc' => hp c' (List.mem_cons_of_mem _ hc')
    unfold dispatch
    simp only [h1]
    refine ⟨g1, fun c' hc' => ?_⟩
    rcases List.mem_cons.1 hc' with rfl | hc'
    · exact h2
    · exact g2 c' hc'

theorem send_takes {V : Type} {on : Collectors C} {e : Event} {P Q : C → Prop} (h : ∀ c, P c → (on e c).2 = .ok () ∧ Q (on e c).1)
    (x : Run V S C) (hx : ∀ c ∈ x.cols, P c) :
    ∃ cs, x.send on e = ({ x with cols := cs }, .ok ()) ∧ ∀ c ∈ cs, Q c := by
  obtain ⟨h1, h2⟩ := dispatch_takes h x.cols hx
  exact ⟨_, Prod.ext rfl h1, h2⟩

/-- The loop of one training episode runs to its end. -/
theorem loop_trains {c : EnvCfg K W Rd} (two : Bool) (hR : c.world.R = gpr two) {cal : Calendar} (hcal : Spec.Gregorian cal)
    (hE : c.world.sun = realSun cal) (hC : Spec.GoodWind c.world.C) {q : RewardParams} (hh : 0 < q.halflife)
    (hrew : c.rewardFn = reward c.world.sun q) {B : ℝ} (hB0 : 0 ≤ B) (hB : Spec.WindLimit c.world B) {A : Agent S}
    {I J : S → Prop} (hA : Spec.Pilot c.world A I J) {on : Collectors C} {F' I' J' : C → Prop} (hon : Spec.Takes on F' I' J')
    {period : ℤ} (hper : period ≠ 0) (maxLen : ℤ) (b n : ℕ) :
    ∀ (m : ℕ) (i : ℤ) (x : Run (Env K W Rd) S C) (k : EpisodeEnd), Aboard c.world B m x.env.arena b →
      (x.env.arena.heap.balls b).status = .ok → J x.agent → (∀ o ∈ x.cols, J' o) → Spec.Offered k.action →
      m + n ≤ 14300000 → 180 * B * (m + n) ≤ 4200000 →
      ∃ x' k', episodeLoop (balloonEnv c) A on maxLen period n i x k = (x', .ok k') ∧ J x'.agent ∧ (∀ o ∈ x'.cols, J' o) ∧
        Spec.Offered k'.action := by
  induction n with
  | zero =>
    intro m i x k _ _ hJ hcs ha _ _
    exact ⟨x, k, rfl, hJ, hcs, ha⟩
  | succ n ih =>
    intro m i x k h hok hJ hcs ha hmn hd
    have hd1 : 180 * B * ((m : ℝ) + 1) ≤ 4200000 := by
      refine le_trans ?_ hd
      have h0 : (0 : ℝ) ≤ 180 * B := by positivity
      refine mul_le_mul_of_nonneg_left ?_ h0
      have : (0 : ℝ) ≤ (n : ℝ) := Nat.cast_nonneg n
      push_cast; linarith
    obtain ⟨out, h1, h2, h3⟩ := aboard_flies two hR hcal hE hC hh hrew hB0 hB h hok (by omega) hd1 k.action ha
    have h' := aboard_step hcal hE hB h k.action
    have e1 : ((balloonEnv c).step k.action x.env).2 = .ok out := h1
    unfold episodeLoop
    simp only [e1, if_neg hper]
    have key : ∀ v2 : Env K W Rd, v2.arena = (x.env.step c k.action).1.arena →
        ∃ x' k', (match (Run.send on (.step { step := i, action := k.action, reward := out.reward, terminal := out.terminal })
              { x with env := v2 }).2 with
            | .error e => ((Run.send on (.step { step := i, action := k.action, reward := out.reward, terminal := out.terminal })
                { x with env := v2 }).1, .error e)
            | .ok () =>
              if out.terminal then
                ((Run.send on (.step { step := i, action := k.action, reward := out.reward, terminal := out.terminal })
                    { x with env := v2 }).1,
                  .ok { action := k.action, reward := out.reward, terminal := true, final := i + 1 })
              else
                let d := (Run.send on (.step { step := i, action := k.action, reward := out.reward, terminal := out.terminal })
                  { x with env := v2 }).1
                let q := A.step d.agent out.reward out.obs
                let x3 := { d with agent := q.1 }
                match q.2 with
                | .error e => (x3, .error e)
                | .ok a => episodeLoop (balloonEnv c) A on maxLen period n (i + 1) x3
                    { action := a, reward := out.reward, terminal := false, final := k.final }) =
          ((x', .ok k') : Run (Env K W Rd) S C × Except Err EpisodeEnd) ∧ J x'.agent ∧ (∀ o ∈ x'.cols, J' o) ∧
            Spec.Offered k'.action := by
      intro v2 hv2
      obtain ⟨cs, s1, s2⟩ := send_takes (fun o ho => hon.go o
        { step := i, action := k.action, reward := out.reward, terminal := out.terminal } ho ha) { x with env := v2 } hcs
      simp only [s1]
      by_cases ht : out.terminal = true
      · rw [if_pos ht]
        exact ⟨_, _, rfl, hJ, s2, ha⟩
      · rw [if_neg ht]
        obtain ⟨s', a', g1, g2, g3⟩ := hA.go x.agent out.reward out.obs hJ h2
        simp only [g1]
        exact ih (m + 1) (i + 1) _ _ (by rw [show (Run.mk v2 s' cs).env = v2 from rfl, hv2]; exact h')
          (by rw [show (Run.mk v2 s' cs).env = v2 from rfl, hv2]; exact h3 (by simpa using ht)) g2 s2 g3 (by omega)
          (by push_cast at hd ⊢; linarith)
    by_cases hp : Int.fmod i period = 0
    · simp only [if_pos hp]
      exact key _ rfl
    · simp only [if_neg hp]
      exact key _ rfl

/-- One training episode. -/
theorem episode_trains {c : EnvCfg K W Rd} (hJ : Spec.SaneDraws c.world.J) (two : Bool) (hR : c.world.R = gpr two)
    {cal : Calendar} (hcal : Spec.Gregorian cal)
    (hE : c.world.sun = realSun cal) (hC : Spec.GoodWind c.world.C) {q : RewardParams} (hh : 0 < q.halflife)
    (hrew : c.rewardFn = reward c.world.sun q) {B : ℝ} (hB0 : 0 ≤ B) (hB : Spec.WindLimit c.world B) {A : Agent S}
    {I J : S → Prop} (hA : Spec.Pilot c.world A I J) {on : Collectors C} {F' I' J' : C → Prop} (hon : Spec.Takes on F' I' J')
    {period : ℤ} (hper : period ≠ 0) {maxLen : ℤ} (hm : maxLen ≤ 14300000) (hd : 180 * B * maxLen ≤ 4200000)
    (x : Run (Env K W Rd) S C) (hI : I x.agent) (hcs : ∀ o ∈ x.cols, I' o) :
    ∃ x', runEpisode (balloonEnv c) A on maxLen period x = (x', .ok ()) ∧ I x'.agent ∧ ∀ o ∈ x'.cols, I' o := by
  obtain ⟨cs, s1, s2⟩ := send_takes hon.start x hcs
  obtain ⟨v0, obs, i', e1, hobs, hab, r2⟩ := reset_aboard hJ two hR hcal hE hC hB x.env
  obtain ⟨sa, a, b1, b2, b3⟩ := hA.start x.agent obs hI hobs
  have hcast : 180 * B * (((0 : ℕ) : ℝ) + (maxLen.toNat : ℕ)) ≤ 4200000 := by
    rcases le_total 0 maxLen with h | h
    · have : ((maxLen.toNat : ℕ) : ℤ) = maxLen := Int.toNat_of_nonneg h
      have e : ((maxLen.toNat : ℕ) : ℝ) = (maxLen : ℝ) := by exact_mod_cast congrArg (Int.cast : ℤ → ℝ) this
      rw [e]; push_cast; linarith
    · rw [Int.toNat_of_nonpos h]; norm_num
  obtain ⟨x', k', l1, l2, l3, l4⟩ := loop_trains two hR hcal hE hC hh hrew hB0 hB hA hon hper maxLen i' maxLen.toNat 0 0
    { env := v0, agent := sa, cols := cs } { action := a, reward := 0, terminal := false, final := maxLen } hab r2 b2 s2 b3
    (by omega) hcast
  obtain ⟨cs', t1, t2⟩ := send_takes (fun o ho => hon.finish o
    { step := k'.final, action := k'.action, reward := k'.reward, terminal := k'.terminal } ho l4)
    { x' with agent := A.endEpisode x'.agent k'.reward k'.terminal } l3
  unfold runEpisode
  simp only [s1, e1, b1, l1, t1]
  exact ⟨_, rfl, hA.finish _ _ _ l2, t2⟩

/-- C139. Training an agent that answers every observation of a flight with 0, 1 or 2 never raises: whatever the number of
iterations and episodes, the state of the environment, the random draws and the weather (no faster than `B`, with 180 `B` times the
length of an episode at most 4,200 km). The collectors take every call; the checkpoints of the directory, about which `G i d` says
that iteration `i` may be saved next, can be read and written. -/
theorem C139_trains (c : EnvCfg K W Rd) (hJ : Spec.SaneDraws c.world.J) (two : Bool) (hR : c.world.R = gpr two)
    (cal : Calendar) (hcal : Spec.Gregorian cal) (hE : c.world.sun = realSun cal) (hC : Spec.GoodWind c.world.C)
    (q : RewardParams) (hh : 0 < q.halflife) (hrew : c.rewardFn = reward c.world.sun q) (B : ℝ) (hB0 : 0 ≤ B)
    (hB : Spec.WindLimit c.world B) (A : Agent S) (I J : S → Prop) (hA : Spec.Pilot c.world A I J)
    (on : Collectors C) (F' I' J' : C → Prop) (hon : Spec.Takes on F' I' J') (mk : ℤ → List C) (hmk : ∀ e, ∀ o ∈ mk e, F' o)
    (maxLen : ℤ) (hm : maxLen ≤ 14300000) (hd : 180 * B * maxLen ≤ 4200000) (period : ℤ)
    (hper : period ≠ 0) (episodes iterations : ℤ) (v : Env K W Rd) (s : S) (Z : Saver S D) (G : ℕ → D → Prop) (d : D)
    (hsave : ∀ i s d, I s → G i d → ∃ d', Z.save i s d = (d', .ok ()) ∧ G (i + 1) d')
    (hload : ∃ s' last, Z.reload d s = (s', .ok last) ∧ I (A.setMode s' true) ∧ G (last + 1).toNat d) :
    ∃ x d', runTraining (balloonEnv c) A Z on mk maxLen period episodes iterations v s d = (x, d', .ok ()) := by
  have eps : ∀ (n : ℕ) (x : Run (Env K W Rd) S C), I x.agent → (∀ o ∈ x.cols, I' o) → ∃ x',
      runEpisodes (balloonEnv c) A on maxLen period n x = (x', .ok ()) ∧ I x'.agent ∧ ∀ o ∈ x'.cols, I' o := by
    intro n
    induction n with
    | zero => intro x h1 h2; exact ⟨x, rfl, h1, h2⟩
    | succ n ih =>
      intro x h1 h2
      obtain ⟨x1, f1, f2, f3⟩ := episode_trains hJ two hR hcal hE hC hh hrew hB0 hB hA hon hper hm hd x h1 h2
      obtain ⟨x2, g1, g2, g3⟩ := ih x1 f2 f3
      unfold runEpisodes
      simp only [f1, g1]
      exact ⟨_, rfl, g2, g3⟩
  have its : ∀ (n i : ℕ) (x : Run (Env K W Rd) S C) (d : D), I x.agent → (∀ o ∈ x.cols, I' o) → G i d → ∃ x' d',
      runIterations (balloonEnv c) A Z on maxLen period episodes n i x d = (x', d', .ok ()) ∧ ∀ o ∈ x'.cols, I' o := by
    intro n
    induction n with
    | zero => intro i x d _ h2 _; exact ⟨x, d, rfl, h2⟩
    | succ n ih =>
      intro i x d h1 h2 h3
      obtain ⟨x1, f1, f2, f3⟩ := eps episodes.toNat x h1 h2
      obtain ⟨d1, s1, s2⟩ := hsave i x1.agent d f2 h3
      obtain ⟨x2, d2, g1, g2⟩ := ih (i + 1) x1 d1 f2 f3 s2
      unfold runIterations
      push_cast at g1
      simp only [f1, s1, g1]
      exact ⟨_, _, rfl, g2⟩
  obtain ⟨s', last, l1, l2, l3⟩ := hload
  obtain ⟨cs, p1, p2⟩ := send_takes hon.pre
    ({ env := v, agent := A.setMode s' true, cols := mk (max (last + 1) 0 * episodes) } : Run (Env K W Rd) S C) (hmk _)
  obtain ⟨x1, d1, r1, r2⟩ := its (iterations - max (last + 1) 0).toNat (last + 1).toNat
    { env := v, agent := A.setMode s' true, cols := cs } d l2 p2 l3
  have hs : (((last + 1).toNat : ℕ) : ℤ) = max (last + 1) 0 := Int.toNat_eq_max _
  rw [hs] at r1
  obtain ⟨cs', t1, -⟩ := send_takes (Q := fun _ => True) (fun o ho => ⟨hon.done o ho, trivial⟩) x1 r2
  unfold runTraining
  simp only [l1, p1, r1, t1]
  exact ⟨_, _, rfl⟩

/-! ## The collectors of the package -/

/-- A collector as its constructor leaves it, for three actions, with frequencies that are not zero. -/
def Spec.NewObj : Obj → Prop
  | .console c => c.numActions = 3 ∧ (c.fine = true → c.frequency ≠ 0)
  | .pickle _ => True
  | .tensorboard c => c.fine = true → c.frequency ≠ 0

/-- Between episodes. -/
def idleObj : Obj → Prop
  | .console c => c.numActions = 3 ∧ (c.fine = true → c.frequency ≠ 0) ∧ (c.file = true → c.logFile ≠ none)
  | .pickle _ => True
  | .tensorboard c => (c.fine = true → c.frequency ≠ 0) ∧ c.globalStep.isSome

/-- During an episode. -/
def busyObj : Obj → Prop
  | .console c => c.numActions = 3 ∧ (c.fine = true → c.frequency ≠ 0) ∧ (c.file = true → c.logFile ≠ none) ∧
      ∃ n r, c.counts = some (n, r) ∧ n.length = 3
  | .pickle c => c.stats.isSome
  | .tensorboard c => (c.fine = true → c.frequency ≠ 0) ∧ c.globalStep.isSome ∧ c.reward.isSome

theorem write_takes (c : Console) (l : Line) (h : c.file = true → c.logFile ≠ none) :
    ∃ f, c.write l = ({ c with log := c.log ++ [l], logFile := f }, .ok ()) ∧ (c.file = true → f ≠ none) := by
  unfold Console.write
  by_cases hf : c.file = true
  · rcases hl : c.logFile with _ | f
    · exact absurd hl (h hf)
    · simp only [hf, if_true]
      exact ⟨_, rfl, fun _ => by simp⟩
  · simp only [if_neg hf]
    exact ⟨c.logFile, rfl, fun h => absurd h hf⟩

theorem count_takes (n : List ℝ) (hn : n.length = 3) (a : ℤ) (ha : Spec.Offered a) :
    ∃ n', countAction n a = .ok n' ∧ n'.length = 3 := by
  unfold countAction npIndex
  rw [hn]
  rcases ha with rfl | rfl | rfl <;> simp [hn]

/-- C139, the collectors of the package take every call. -/
theorem C139_collectors : Spec.Takes Obj.on Spec.NewObj idleObj busyObj where
  pre o h := by
    rcases o with c | c | c
    · refine ⟨rfl, h.1, h.2, fun hf => ?_⟩
      show (if c.file then some [] else c.logFile) ≠ none
      have hf' : c.file = true := hf
      rw [if_pos hf']; simp
    · exact ⟨rfl, trivial⟩
    · exact ⟨rfl, h, rfl⟩
  start o h := by
    rcases o with c | c | c
    · exact ⟨rfl, h.1, h.2.1, h.2.2, _, _, rfl, by rw [List.length_replicate]; exact h.1⟩
    · exact ⟨rfl, rfl⟩
    · exact ⟨rfl, h.1, h.2, rfl⟩
  go o s h ha := by
    rcases o with c | c | c
    · obtain ⟨h1, h2, h3, n, r, h4, h5⟩ := h
      obtain ⟨n', k1, k2⟩ := count_takes n h5 s.action ha
      have hb : ¬ (s.action < 0 ∨ s.action ≥ (c.numActions : ℤ)) := by
        rw [h1]; rcases ha with e | e | e <;> rw [e] <;> norm_num
      simp only [Obj.on, Console.on, h4, if_neg hb, k1]
      by_cases hf : c.fine = true
      · simp only [if_pos hf, if_neg (h2 hf)]
        split_ifs
        · obtain ⟨f, w1, w2⟩ := write_takes { c with counts := some (n', r + s.reward) } (.step s) h3
          rw [w1]
          exact ⟨rfl, h1, h2, w2, _, _, rfl, k2⟩
        · exact ⟨rfl, h1, h2, h3, _, _, rfl, k2⟩
      · simp only [if_neg hf]
        exact ⟨trivial, h1, h2, h3, _, _, rfl, k2⟩
    · obtain ⟨l, hl⟩ := Option.isSome_iff_exists.1 h
      simp only [Obj.on, Pickle.on, hl]
      exact ⟨trivial, rfl⟩
    · obtain ⟨h1, h2, h3⟩ := h
      obtain ⟨g, hg⟩ := Option.isSome_iff_exists.1 h2
      obtain ⟨r, hr⟩ := Option.isSome_iff_exists.1 h3
      simp only [Obj.on, Tensorboard.on, hg, hr]
      rw [if_neg (fun hh => h1 hh.1 hh.2)]
      refine ⟨rfl, ?_, rfl, rfl⟩
      show (if _ then _ else _ : Tensorboard).fine = true → (if _ then _ else _ : Tensorboard).frequency ≠ 0
      split_ifs <;> exact h1
  finish o s h ha := by
    rcases o with c | c | c
    · obtain ⟨h1, h2, h3, n, r, h4, h5⟩ := h
      obtain ⟨n', k1, k2⟩ := count_takes n h5 s.action ha
      obtain ⟨f, w1, w2⟩ := write_takes { c with counts := some (n', r + s.reward) }
        (.episode c.episode (r + s.reward) s.step (n'.map (· / n'.sum))) h3
      simp only [Obj.on, Console.on, h4, k1, w1]
      exact ⟨trivial, h1, h2, w2⟩
    · obtain ⟨l, hl⟩ := Option.isSome_iff_exists.1 h
      simp only [Obj.on, Pickle.on, hl]
      exact ⟨trivial, trivial⟩
    · obtain ⟨h1, h2, h3⟩ := h
      obtain ⟨g, hg⟩ := Option.isSome_iff_exists.1 h2
      obtain ⟨r, hr⟩ := Option.isSome_iff_exists.1 h3
      simp only [Obj.on, Tensorboard.on, hg, hr]
      refine ⟨trivial, ?_, rfl⟩
      show (if _ then _ else _ : Tensorboard).fine = true → (if _ then _ else _ : Tensorboard).frequency ≠ 0
      split_ifs <;> exact h1
  done o h := by
    rcases o with c | c | c
    · show (if c.file = true ∧ c.logFile = none then (.error .attribute : Except Err Unit) else .ok ()) = .ok ()
      rw [if_neg (fun hh => h.2.2 hh.1 hh.2)]
    · rfl
    · rfl

/-- C139, the collectors the training command constructs are such. -/
theorem C139_constructed (g : CollectorCfg) (h1 : g.consoleFine = true → g.consoleFrequency ≠ 0)
    (h2 : g.boardFine = true → g.boardFrequency ≠ 0) (r : Records) (e : ℤ) (ks : List CollectorClass) :
    ∀ o ∈ ks.map (newCollector g r 3 e), Spec.NewObj o := by
  intro o ho
  obtain ⟨k, -, rfl⟩ := List.mem_map.1 ho
  cases k
  · exact ⟨rfl, h1⟩
  · exact trivial
  · exact h2

/-! ## Agents that explore -/

/-- An exploration wrapper that turns offered actions into offered actions. -/
structure Spec.Scout (E : World K W) (T : Explorer X) (P : X → Prop) : Prop where
  start : ∀ x obs a, P x → Spec.Observed E obs → Spec.Offered a →
    ∃ x' b, T.beginEpisode x obs a = (x', .ok b) ∧ P x' ∧ Spec.Offered b
  go : ∀ x r obs a, P x → Spec.Observed E obs → Spec.Offered a → ∃ x' b, T.step x r obs a = (x', .ok b) ∧ P x' ∧ Spec.Offered b

theorem scout_none (E : World K W) : Spec.Scout E noExploration fun _ => True :=
  ⟨fun x _ a _ _ h => ⟨x, a, rfl, trivial, h⟩, fun x _ _ a _ _ h => ⟨x, a, rfl, trivial, h⟩⟩

/-- C139, Marco Polo exploration with an agent that answers every observation. (It never ends that agent's episodes.) -/
theorem C139_marco (E : World K W) (J : Jax K) (A : Agent S) (I : S → Prop) (hA : Spec.Pilot E A I I) :
    Spec.Scout E (marcoPolo J A) fun x => I x.agent := by
  refine ⟨fun x obs a h ho ha => ?_, fun x r obs a h ho ha => ?_⟩
  · obtain ⟨s', b, h1, h2, -⟩ := hA.start x.agent obs h ho
    unfold marcoPolo
    simp only [h1]
    exact ⟨_, _, rfl, h2, ha⟩
  · have hu : x.update.agent = x.agent := by
      unfold Marco.update
      simp only
      split_ifs <;> rfl
    obtain ⟨s', b, h1, h2, h3⟩ := hA.go x.agent r obs h ho
    unfold marcoPolo
    simp only [hu, h1]
    split_ifs
    · exact ⟨_, _, rfl, h2, h3⟩
    · exact ⟨_, _, rfl, by rw [hu]; exact h, ha⟩

/-- C139, a quantile agent whose Dopamine part answers every observation with one of three actions, in either mode. -/
theorem C139_quantile (E : World K W) {D' : Type} (coreBegin : D' → List ℝ → D' × Except Err ℤ)
    (coreStep : D' → ℤ → ℝ → List ℝ → D' × Except Err ℤ) (coreEnd : D' → ℤ → ℝ → Bool → D') (T : Explorer X) (P : X → Prop)
    (hT : Spec.Scout E T P)
    (hbegin : ∀ d obs, ∃ a, (coreBegin d obs).2 = .ok a ∧ Spec.Offered a)
    (hstep : ∀ d b r obs, ∃ a, (coreStep d b r obs).2 = .ok a ∧ Spec.Offered a) :
    Spec.Pilot E (quantileAgent coreBegin coreStep coreEnd T) (fun s => P s.explorer) (fun s => P s.explorer) := by
  refine ⟨fun s obs h ho => ?_, fun s r obs h ho => ?_, fun s r t h => h⟩
  · obtain ⟨a, ha, hv⟩ := hbegin s.core obs
    obtain ⟨x', b, t1, t2, t3⟩ := hT.start s.explorer obs a h ho hv
    unfold quantileAgent
    simp only [ha, t1]
    split_ifs
    · exact ⟨_, _, rfl, h, hv⟩
    · exact ⟨_, _, rfl, t2, t3⟩
  · obtain ⟨a, ha, hv⟩ := hstep s.core s.action r obs
    obtain ⟨x', b, t1, t2, t3⟩ := hT.go s.explorer r obs a h ho hv
    unfold quantileAgent
    simp only [ha, t1]
    split_ifs
    · exact ⟨_, _, rfl, h, hv⟩
    · exact ⟨_, _, rfl, t2, t3⟩

/-! ## Checkpoints -/

/-- C139, the Dopamine agents' checkpoints: in a directory with the checkpoints of earlier iterations only, of which the latest is
complete, loading succeeds and every later iteration can be saved. -/
theorem C139_checkpoints {U : Type} (int : Name → Option ℤ) (hint : Spec.PyInt int) (bundle : S → Option U)
    (hb : ∀ s, bundle s ≠ none) (unbundle : S → U → S) (duration : Option ℤ) (hdur : ∀ k, duration = some k → 0 ≤ k) :
    (∀ (i : ℕ) (s : S) (d : CkptDir U), Spec.Tidy i d → ∃ d', (dopamineSaver int bundle unbundle duration).save i s d = (d', .ok ()) ∧
        Spec.Tidy (i + 1) d') ∧
      (∀ s : S, (dopamineSaver int bundle unbundle duration).reload [] s = (s, .ok (-1)) ∧ Spec.Tidy (U := U) ((-1 : ℤ) + 1).toNat []) ∧
      ∀ (i : ℕ) (d : CkptDir U) (b : U) (s : S), Spec.Tidy (i + 1) d → d.lookup (ckptName i) = some (some b) →
        (dopamineSaver int bundle unbundle duration).reload d s = (unbundle s b, .ok (i : ℤ)) ∧ Spec.Tidy ((i : ℤ) + 1).toNat d := by
  refine ⟨fun i s d h => ?_, fun s => ⟨rfl, fun x hx => by simp at hx⟩, fun i d b s h hl => ⟨?_, ?_⟩⟩
  · obtain ⟨b, hb'⟩ := Option.ne_none_iff_exists'.1 (hb s)
    obtain ⟨d', h1, h2, -⟩ := save_tidy int hint bundle unbundle duration hdur h hb'
    exact ⟨d', h1, h2⟩
  · exact reload_tidy int hint bundle unbundle duration h hl s
  · rw [show ((i : ℤ) + 1).toNat = i + 1 by omega]; exact h

/-! ## The command -/

/-- C139, the training command. Once configuration, environment and agent were constructed, `train.py` finishes: it raises nothing,
whatever the flags. -/
theorem C139_command {Γ P : Type} (M : Trainer Γ (Env K W Rd) S D P) (fl : TrainFlags) (dk : TrainDisk D P) (g : Γ) (w : WindKind)
    (r : Bool) (k : AgentClass) (v : Env K W Rd) (s : S) (hset : trainSetup M fl = .ok (g, w, r, k, v, s))
    (c : EnvCfg K W Rd) (hgym : M.gym g w r = balloonEnv c)
    (hJ : Spec.SaneDraws c.world.J) (two : Bool) (hR : c.world.R = gpr two)
    (cal : Calendar) (hcal : Spec.Gregorian cal) (hE : c.world.sun = realSun cal) (hC : Spec.GoodWind c.world.C)
    (q : RewardParams) (hh : 0 < q.halflife) (hrew : c.rewardFn = reward c.world.sun q) (B : ℝ) (hB0 : 0 ≤ B)
    (hB : Spec.WindLimit c.world B) (I J : S → Prop) (hA : Spec.Pilot c.world (M.agent g k) I J)
    (h1 : (M.collectors g).consoleFine = true → (M.collectors g).consoleFrequency ≠ 0)
    (h2 : (M.collectors g).boardFine = true → (M.collectors g).boardFrequency ≠ 0)
    (hm : fl.maxLen ≤ 14300000) (hd : 180 * B * fl.maxLen ≤ 4200000) (hper : fl.renderPeriod ≠ 0) (G : ℕ → D → Prop)
    (hsave : ∀ i s d, I s → G i d → ∃ d', (M.saver g k).save i s d = (d', .ok ()) ∧ G (i + 1) d')
    (hload : ∃ s' last, (M.saver g k).reload (dk.runs (runDir fl.agent fl.run)).2 s = (s', .ok last) ∧
      I ((M.agent g k).setMode s' true) ∧ G (last + 1).toNat (dk.runs (runDir fl.agent fl.run)).2) :
    (trainMain M fl dk).2 = .ok () := by
  obtain ⟨x, d', h⟩ := C139_trains c hJ two hR cal hcal hE hC q hh hrew B hB0 hB (M.agent g k) I J hA Obj.on Spec.NewObj idleObj
    busyObj C139_collectors
    (fun ep => (collectorData fl.collectors).map (newCollector (M.collectors g) (dk.runs (runDir fl.agent fl.run)).1 3 ep))
    (fun e => C139_constructed _ h1 h2 _ e _) fl.maxLen hm hd fl.renderPeriod hper fl.episodes fl.iterations v s (M.saver g k) G
    (dk.runs (runDir fl.agent fl.run)).2 hsave hload
  unfold trainMain
  simp only [hset, hgym, h]

/-- Three iterations of five two-day episodes in the sunny world, with all collectors: a quantile agent that always wants to go up,
exploring with random walks, and checkpoints of the last two iterations in a new directory. -/
example (v : Env (List ℕ) Unit Unit) (m : Marco (List ℕ) (RandomWalk (List ℕ))) (r : Records) : ∃ x d',
    runTraining (balloonEnv sunnyCfg)
      (quantileAgent (fun d _ => (d, .ok 2)) (fun d _ _ _ => (d, .ok 2)) (fun (d : Unit) _ _ _ => d)
        (marcoPolo sunnyWorld.J (randomWalkAgent sunnyWorld.J fun _ => 0)))
      (dopamineSaver decInt (fun _ => some ()) (fun s _ => s) (some 2)) Obj.on
      (fun e => [CollectorClass.console, .pickle, .tensorboard].map (newCollector ⟨true, 10, true, true, 1⟩ r 3 e)) 960 10 5 3 v
      { core := (), explorer := m, action := 0, eval := true } [] = (x, d', .ok ()) := by
  have hck := C139_checkpoints (S := Quantile Unit (Marco (List ℕ) (RandomWalk (List ℕ)))) (U := Unit) decInt decInt_pyInt
    (fun _ => some ()) (fun _ => by simp) (fun s _ => s) (some 2) (by rintro k ⟨⟩; norm_num)
  exact C139_trains sunnyCfg sunnyWorld_draws true rfl gregorian gregorian_ok rfl good_static RewardParams.default
    (by norm_num [RewardParams.default]) rfl 21.1 (by norm_num)
    (C136_static_limit sunnyCfg.world rfl (fun _ _ _ _ _ => by norm_num [sunnyCfg, sunnyWorld, demoWorld])) _ _ _
    (C139_quantile _ _ _ _ _ _ (C139_marco _ _ _ _ (C138_walk _ true rfl gregorian gregorian_ok rfl _ _))
      (fun _ _ => ⟨2, rfl, .inr (.inr rfl)⟩) (fun _ _ _ _ => ⟨2, rfl, .inr (.inr rfl)⟩))
    Obj.on _ _ _ C139_collectors _ (fun e => C139_constructed _ (by simp) (by simp) r e _) 960 (by norm_num) (by norm_num) 10
    (by norm_num) 5 3 v _ _ (fun i d => Spec.Tidy i d) [] (fun i s d _ h => hck.1 i s d h)
    ⟨_, _, (hck.2.1 _).1, trivial, (hck.2.1 { core := (), explorer := m, action := 0, eval := true }).2⟩

/-- StationSeeker is trained as well (it learns nothing). -/
example (v : Env (List ℕ) Unit Unit) (r : Records) (episodes iterations : ℤ) : ∃ x d',
    runTraining (balloonEnv sunnyCfg) stationSeeker baseSaver Obj.on
      (fun e => [CollectorClass.console].map (newCollector ⟨false, 0, true, true, 1⟩ r 3 e)) 960 10 episodes iterations v () () =
        (x, d', .ok ()) :=
  C139_trains sunnyCfg sunnyWorld_draws true rfl gregorian gregorian_ok rfl good_static RewardParams.default
    (by norm_num [RewardParams.default]) rfl 21.1 (by norm_num)
    (C136_static_limit sunnyCfg.world rfl (fun _ _ _ _ _ => by norm_num [sunnyCfg, sunnyWorld, demoWorld])) _ _ _
    (C138_seeker _ true rfl gregorian gregorian_ok rfl)
    Obj.on _ _ _ C139_collectors _ (fun e => C139_constructed _ (by simp) (by simp) r e _) 960 (by norm_num) (by norm_num) 10
    (by norm_num) episodes iterations v _ _ (fun _ _ => True) () (fun _ _ _ _ _ => ⟨_, rfl, trivial⟩)
    ⟨_, _, rfl, trivial, trivial⟩

end BLE
