import Verif.Model.Train
import Verif.Props.Eval

/-!
# Training and metrics: C65, C69–C72
-/

namespace BLE

variable {V S C D : Type}

/-! ## C72 -/

/-- Feed a sequence of events to one collector, stopping at the first exception. -/
def Spec.feed (on : Collectors C) : List Event → C → C × Except Err Unit
  | [], c => (c, .ok ())
  | e :: es, c =>
    match on e c with
    | (c', .error err) => (c', .error err)
    | (c', .ok ()) => Spec.feed on es c'

/-- Issue a sequence of events to a dispatcher, stopping at the first exception. -/
def Spec.issue (on : Collectors C) : List Event → List C → List C × Except Err Unit
  | [], cs => (cs, .ok ())
  | e :: es, cs =>
    match dispatch on e cs with
    | (cs', .error err) => (cs', .error err)
    | (cs', .ok ()) => Spec.issue on es cs'

theorem dispatch_ok (on : Collectors C) (e : Event) (cs cs' : List C) :
    dispatch on e cs = (cs', .ok ()) ↔ (∀ c ∈ cs, (on e c).2 = .ok ()) ∧ cs' = cs.map fun c => (on e c).1 := by
  induction cs generalizing cs' with
  | nil => simp [dispatch, eq_comm]
  | cons c cs ih =>
    simp only [dispatch]
    rcases hr : on e c with ⟨c1, _ | u⟩
    · simp [hr]
    · simp only [hr]
      rcases hq : dispatch on e cs with ⟨cs1, _ | u'⟩
      · simp only [Prod.mk.injEq, reduceCtorEq, and_false, false_iff, not_and]
        intro h
        have := (ih (cs.map fun c => (on e c).1)).2 ⟨fun c hc => h c (by simp [hc]), rfl⟩
        rw [hq] at this
        simp at this
      · obtain ⟨h1, h2⟩ := (ih cs1).1 hq
        constructor
        · intro h
          simp only [Prod.mk.injEq, and_true] at h
          refine ⟨?_, ?_⟩
          · intro x hx
            rcases List.mem_cons.1 hx with rfl | hx
            · rw [hr]
            · exact h1 x hx
          · rw [← h, h2, List.map_cons, hr]
        · rintro ⟨_, h⟩
          rw [h, List.map_cons, hr, h2]

/-- Every collector sees every event, in the order issued: the dispatcher gets through a sequence of events
exactly when every collector on its own gets through it, and then every collector is in the state it
would be in had it received the sequence directly. For all lists of collectors of all classes. -/
theorem C72_all_events (on : Collectors C) (es : List Event) (cs cs' : List C) :
    Spec.issue on es cs = (cs', .ok ()) ↔
      (∀ c ∈ cs, (Spec.feed on es c).2 = .ok ()) ∧ cs' = cs.map fun c => (Spec.feed on es c).1 := by
  induction es generalizing cs cs' with
  | nil => simp [Spec.issue, Spec.feed, eq_comm]
  | cons e es ih =>
    simp only [Spec.issue]
    have hfeed : ∀ c, (on e c).2 = .ok () → Spec.feed on (e :: es) c = Spec.feed on es (on e c).1 := by
      intro c hc
      rcases hr : on e c with ⟨c1, _ | u⟩
      · rw [hr] at hc; cases hc
      · simp only [Spec.feed, hr]
    have hbad : ∀ c, (Spec.feed on (e :: es) c).2 = .ok () → (on e c).2 = .ok () := by
      intro c hc
      rcases hr : on e c with ⟨c1, _ | u⟩
      · simp only [Spec.feed, hr] at hc; cases hc
      · rfl
    rcases hd : dispatch on e cs with ⟨cs1, _ | u⟩
    · simp only [Prod.mk.injEq, reduceCtorEq, and_false, false_iff, not_and]
      intro h
      have := (dispatch_ok on e cs (cs.map fun c => (on e c).1)).2 ⟨fun c hc => hbad c (h c hc), rfl⟩
      rw [hd] at this
      simp at this
    · simp only
      obtain ⟨h1, h2⟩ := (dispatch_ok on e cs cs1).1 hd
      rw [ih, h2, List.map_map]
      constructor
      · rintro ⟨a, b⟩
        refine ⟨fun c hc => ?_, ?_⟩
        · rw [hfeed c (h1 c hc)]
          exact a _ (List.mem_map_of_mem hc)
        · rw [b]
          exact List.map_congr_left (fun c hc => by rw [hfeed c (h1 c hc)]; rfl)
      · rintro ⟨a, b⟩
        refine ⟨fun c hc => ?_, ?_⟩
        · obtain ⟨c0, hc0, rfl⟩ := List.mem_map.1 hc
          rw [← hfeed c0 (h1 c0 hc0)]
          exact a c0 hc0
        · rw [b]
          exact List.map_congr_left (fun c hc => by rw [hfeed c (h1 c hc)]; rfl)

/-- If a collector raises, the ones before it have seen the event and the ones after it have not. -/
theorem C72_exception (on : Collectors C) (e : Event) (cs cs' : List C) (err : Err)
    (h : dispatch on e cs = (cs', .error err)) :
    ∃ pre c post, cs = pre ++ c :: post ∧ (∀ x ∈ pre, (on e x).2 = .ok ()) ∧ (on e c).2 = .error err ∧
      cs' = (pre.map fun x => (on e x).1) ++ (on e c).1 :: post := by
  induction cs generalizing cs' with
  | nil => simp [dispatch] at h
  | cons c cs ih =>
    simp only [dispatch] at h
    rcases hr : on e c with ⟨c1, er | u⟩
    · rw [hr] at h
      simp only [Prod.mk.injEq, Except.error.injEq] at h
      obtain ⟨rfl, rfl⟩ := h
      exact ⟨[], c, cs, rfl, by simp, by rw [hr], by simp [hr]⟩
    · rw [hr] at h
      simp only [Prod.mk.injEq] at h
      obtain ⟨pre, x, post, h1, h2, h3, h4⟩ := ih (dispatch on e cs).1 (by rw [← h.2])
      refine ⟨c :: pre, x, post, by rw [h1]; rfl, ?_, h3, ?_⟩
      · intro y hy
        rcases List.mem_cons.1 hy with rfl | hy
        · rw [hr]
        · exact h2 y hy
      · rw [← h.1, h4, List.map_cons, hr]; rfl

theorem issue_append (on : Collectors C) (es fs : List Event) (cs cs1 cs2 : List C)
    (h1 : Spec.issue on es cs = (cs1, .ok ())) (h2 : Spec.issue on fs cs1 = (cs2, .ok ())) :
    Spec.issue on (es ++ fs) cs = (cs2, .ok ()) := by
  induction es generalizing cs with
  | nil =>
    simp only [Spec.issue, Prod.mk.injEq, and_true] at h1
    subst h1
    exact h2
  | cons e es ih =>
    simp only [Spec.issue, List.cons_append] at h1 ⊢
    rcases hd : dispatch on e cs with ⟨cs', _ | u⟩
    · rw [hd] at h1; simp at h1
    · rw [hd] at h1
      exact ih cs' h1

/-! ## Episodes -/

/-- The steps of an episode: `(action, outcome)`, in order. After every step that is not terminal the agent
is asked for the next action; the environment may be rendered. -/
inductive Spec.Steps (G : GymEnv V) (A : Agent S) : V → S → ℤ → List (ℤ × StepOut) → V → S → ℤ → Prop
  | nil (v : V) (s : S) (a : ℤ) : Spec.Steps G A v s a [] v s a
  | last {v v1 v2 : V} {s : S} {a : ℤ} {out : StepOut} (hstep : G.step a v = (v1, .ok out)) (ht : out.terminal = true)
      (hr : v2 = v1 ∨ v2 = G.render v1) : Spec.Steps G A v s a [(a, out)] v2 s a
  | cons {v v1 v2 v3 : V} {s s1 s3 : S} {a a1 a3 : ℤ} {out : StepOut} {t : List (ℤ × StepOut)}
      (hstep : G.step a v = (v1, .ok out)) (ht : out.terminal = false) (hr : v2 = v1 ∨ v2 = G.render v1)
      (ha : A.step s out.reward out.obs = (s1, .ok a1)) (rest : Spec.Steps G A v2 s1 a1 t v3 s3 a3) :
      Spec.Steps G A v s a ((a, out) :: t) v3 s3 a3

/-- The statistics of the steps, numbered from `i`. -/
def Spec.stats : ℤ → List (ℤ × StepOut) → List Stat
  | _, [] => []
  | i, x :: t => ⟨i, x.1, x.2.reward, x.2.terminal⟩ :: Spec.stats (i + 1) t

/-- The last reward (0 if there was no step). -/
def Spec.lastReward (t : List (ℤ × StepOut)) : ℝ := (t.getLast?.map (·.2.reward)).getD 0

/-- Whether the last step was terminal. -/
def Spec.lastTerminal (t : List (ℤ × StepOut)) : Bool := (t.getLast?.map (·.2.terminal)).getD false

/-- What the collectors are told about an episode with steps `t` and pending action `a` at its end. -/
def Spec.events (t : List (ℤ × StepOut)) (a : ℤ) : List Event :=
  .beginEpisode :: (Spec.stats 0 t).map .step ++
    [.endEpisode ⟨t.length, a, Spec.lastReward t, Spec.lastTerminal t⟩]

/-- An episode as it should be: reset, first action, steps until a terminal one or the maximal number. -/
def Spec.Episode' (G : GymEnv V) (A : Agent S) (maxLen : ℤ) (v : V) (s : S) (t : List (ℤ × StepOut)) (a : ℤ) (v' : V)
    (s' : S) : Prop :=
  ∃ v0 obs s0 a0 s1, G.reset v = (v0, .ok obs) ∧ A.beginEpisode s obs = (s0, .ok a0) ∧
    Spec.Steps G A v0 s0 a0 t v' s1 a ∧ s' = A.endEpisode s1 (Spec.lastReward t) (Spec.lastTerminal t) ∧
    (t.length : ℤ) ≤ max maxLen 0 ∧ (Spec.lastTerminal t = false → t.length = maxLen.toNat)

theorem lastReward_cons (x : ℤ × StepOut) (t : List (ℤ × StepOut)) :
    Spec.lastReward (x :: t) = if t = [] then x.2.reward else Spec.lastReward t := by
  cases t <;> simp [Spec.lastReward, List.getLast?_cons_cons]

theorem lastTerminal_cons (x : ℤ × StepOut) (t : List (ℤ × StepOut)) :
    Spec.lastTerminal (x :: t) = if t = [] then x.2.terminal else Spec.lastTerminal t := by
  cases t <;> simp [Spec.lastTerminal, List.getLast?_cons_cons]

theorem episodeLoop_spec (G : GymEnv V) (A : Agent S) (on : Collectors C) (maxLen period : ℤ) (n : ℕ) :
    ∀ (i : ℤ) (x x' : Run V S C) (k k' : EpisodeEnd), episodeLoop G A on maxLen period n i x k = (x', .ok k') →
    ∃ t, Spec.Steps G A x.env x.agent k.action t x'.env x'.agent k'.action ∧
      Spec.issue on ((Spec.stats i t).map .step) x.cols = (x'.cols, .ok ()) ∧ t.length ≤ n ∧
      k'.reward = (if t = [] then k.reward else Spec.lastReward t) ∧
      k'.terminal = (if t = [] then k.terminal else Spec.lastTerminal t) ∧
      (if Spec.lastTerminal t then k'.final = i + t.length else k'.final = k.final ∧ t.length = n) := by
  induction n with
  | zero =>
    intro i x x' k k' h
    simp only [episodeLoop, Prod.mk.injEq, Except.ok.injEq] at h
    obtain ⟨rfl, rfl⟩ := h
    exact ⟨[], .nil _ _ _, rfl, le_rfl, rfl, rfl, by simp [Spec.lastTerminal]⟩
  | succ n ih =>
    intro i x x' k k' h
    rw [episodeLoop] at h
    simp only at h
    rcases hs : G.step k.action x.env with ⟨v1, _ | out⟩
    · rw [hs] at h; simp at h
    rw [hs] at h
    simp only at h
    by_cases hp : period = 0
    · rw [if_pos hp] at h; simp at h
    rw [if_neg hp] at h
    obtain ⟨v2, hv2, hx2⟩ : ∃ v2, (v2 = v1 ∨ v2 = G.render v1) ∧
        (if Int.fmod i period = 0 then ({ x with env := G.render v1 } : Run V S C) else { x with env := v1 }) =
          { x with env := v2 } := by
      split
      · exact ⟨_, Or.inr rfl, rfl⟩
      · exact ⟨_, Or.inl rfl, rfl⟩
    rw [hx2] at h
    simp only [Run.send] at h
    rcases hd : dispatch on (.step ⟨i, k.action, out.reward, out.terminal⟩) x.cols with ⟨cs1, _ | u⟩
    · rw [hd] at h; simp at h
    rw [hd] at h
    simp only at h
    rcases ht : out.terminal with _ | _
    · rw [ht] at h hd
      simp only [Bool.false_eq_true, if_false] at h
      rcases ha : A.step x.agent out.reward out.obs with ⟨s1, _ | a1⟩
      · rw [ha] at h; simp at h
      rw [ha] at h
      simp only at h
      obtain ⟨t, h1, h2, h3, h4, h5, h6⟩ := ih _ _ _ _ _ h
      simp only at h1 h2 h4 h5 h6
      refine ⟨(k.action, out) :: t, .cons hs ht hv2 ha h1, ?_, by simpa using h3, ?_, ?_, ?_⟩
      · simp only [Spec.stats, List.map_cons, Spec.issue, ht, hd]
        exact h2
      · rw [if_neg (by simp), lastReward_cons, h4]
      · rw [if_neg (by simp), lastTerminal_cons, h5, ht]
      · rw [lastTerminal_cons]
        by_cases htn : t = []
        · subst htn
          simp only [if_true, ht, Bool.false_eq_true, if_false]
          simp only [Spec.lastTerminal, List.getLast?_nil, Option.map_none, Option.getD_none, Bool.false_eq_true, if_false,
            List.length_nil] at h6
          exact ⟨h6.1, by rw [List.length_singleton]; omega⟩
        · rw [if_neg htn]
          cases hl : Spec.lastTerminal t
          · rw [hl] at h6
            simp only [Bool.false_eq_true, if_false] at h6 ⊢
            exact ⟨h6.1, by rw [List.length_cons, h6.2]⟩
          · rw [hl] at h6
            simp only [if_true, List.length_cons] at h6 ⊢
            rw [h6]; push_cast; ring
    · rw [ht] at h hd
      simp only [if_true, Prod.mk.injEq, Except.ok.injEq] at h
      obtain ⟨rfl, rfl⟩ := h
      refine ⟨[(k.action, out)], .last hs ht hv2, ?_, by simp, ?_, ?_, ?_⟩
      · simp only [Spec.stats, List.map_cons, List.map_nil, Spec.issue, ht, hd]
      · simp [Spec.lastReward]
      · simp [Spec.lastTerminal, ht]
      · simp [Spec.lastTerminal, ht]

/-- A successful call of `_run_one_episode` plays an episode and tells every collector about it: the beginning,
every step once in order with the action that was flown, and the end. -/
theorem runEpisode_spec (G : GymEnv V) (A : Agent S) (on : Collectors C) (maxLen period : ℤ) (hm : 0 ≤ maxLen)
    (x x' : Run V S C) (h : runEpisode G A on maxLen period x = (x', .ok ())) :
    ∃ t a, Spec.Episode' G A maxLen x.env x.agent t a x'.env x'.agent ∧
      Spec.issue on (Spec.events t a) x.cols = (x'.cols, .ok ()) := by
  unfold runEpisode at h
  simp only [Run.send] at h
  rcases hb : dispatch on .beginEpisode x.cols with ⟨cs1, _ | u⟩
  · rw [hb] at h; simp at h
  rw [hb] at h
  simp only at h
  rcases hr : G.reset x.env with ⟨v0, _ | obs⟩
  · rw [hr] at h; simp at h
  rw [hr] at h
  simp only at h
  rcases hq : A.beginEpisode x.agent obs with ⟨s0, _ | a⟩
  · rw [hq] at h; simp at h
  rw [hq] at h
  simp only at h
  generalize hk : ({ action := a, reward := 0, terminal := false, final := maxLen } : EpisodeEnd) = k at h
  generalize hx : ({ env := v0, agent := s0, cols := cs1 } : Run V S C) = y at h
  rcases hl : episodeLoop G A on maxLen period maxLen.toNat 0 y k with ⟨x3, _ | k'⟩
  · rw [hl] at h; simp at h
  rw [hl] at h
  simp only at h
  obtain ⟨t, h1, h2, h3, h4, h5, h6⟩ := episodeLoop_spec G A on maxLen period _ _ _ _ _ _ hl
  subst hk hx
  simp only at h1 h2 h4 h5 h6
  rcases hd : dispatch on (.endEpisode ⟨k'.final, k'.action, k'.reward, k'.terminal⟩) x3.cols with ⟨cs2, _ | u⟩
  · rw [hd] at h; simp at h
  rw [hd] at h
  simp only [Prod.mk.injEq, and_true] at h
  subst h
  have hrew : k'.reward = Spec.lastReward t := by
    rw [h4]; split
    · rename_i h; rw [h]; simp [Spec.lastReward]
    · rfl
  have hter : k'.terminal = Spec.lastTerminal t := by
    rw [h5]; split
    · rename_i h; rw [h]; simp [Spec.lastTerminal]
    · rfl
  have hfin : k'.final = t.length := by
    cases hl : Spec.lastTerminal t
    · rw [hl] at h6
      simp only [Bool.false_eq_true, if_false] at h6
      rw [h6.1, h6.2]; omega
    · rw [hl] at h6
      simp only [if_true] at h6
      omega
  refine ⟨t, k'.action, ⟨v0, obs, s0, a, x3.agent, hr, hq, h1, by rw [hrew, hter], by omega, ?_⟩, ?_⟩
  · intro hl
    rw [hl] at h6
    exact h6.2
  · unfold Spec.events
    rw [List.cons_append]
    simp only [Spec.issue, hb]
    refine issue_append on _ _ _ _ _ h2 ?_
    rw [hrew, hter, hfin] at hd
    simp only [Spec.issue, hd]

/-! ## What the collectors make of an episode -/

theorem feed_append (on : Collectors C) (es fs : List Event) (c : C) :
    Spec.feed on (es ++ fs) c = match Spec.feed on es c with
      | (c', .error e) => (c', .error e)
      | (c', .ok ()) => Spec.feed on fs c' := by
  induction es generalizing c with
  | nil => rfl
  | cons e es ih =>
    simp only [List.cons_append, Spec.feed]
    rcases on e c with ⟨c1, _ | u⟩
    · rfl
    · exact ih c1

theorem countAction_ok {counts n' : List ℝ} {a : ℤ} (h : countAction counts a = .ok n') :
    n'.length = counts.length ∧ n'.sum = counts.sum + 1 ∧ ((∀ x ∈ counts, 0 ≤ x) → ∀ x ∈ n', 0 ≤ x) ∧
    (0 ≤ a → a < counts.length ∧ ∀ j : ℕ, n'.getD j 0 = counts.getD j 0 + if (j : ℤ) = a then 1 else 0) := by
  unfold countAction at h
  split at h
  · cases h
  · rename_i i hi
    have hn := (Except.ok.inj h).symm
    subst hn
    have hlt : i < counts.length := by
      unfold npIndex at hi
      split at hi
      · rw [← Option.some.inj hi]; omega
      · split at hi
        · rw [← Option.some.inj hi]; omega
        · cases hi
    have hsum : ∀ (l : List ℝ) (i : ℕ), i < l.length → (l.set i (l.getD i 0 + 1)).sum = l.sum + 1 := by
      intro l
      induction l with
      | nil => intro i h; simp at h
      | cons y l ih =>
        intro i h
        cases i with
        | zero => simp; ring
        | succ i =>
          have := ih i (by simpa using h)
          simp only [List.set_cons_succ, List.sum_cons, List.getD_cons_succ]
          rw [this]; ring
    refine ⟨by simp, hsum _ _ hlt, ?_, ?_⟩
    · intro hc x hx
      rcases List.mem_or_eq_of_mem_set hx with hx | rfl
      · exact hc x hx
      · have : 0 ≤ counts.getD i 0 := by
          rw [List.getD_eq_getElem _ _ hlt]
          exact hc _ (List.getElem_mem hlt)
        linarith
    · intro ha
      have hia : (i : ℤ) = a ∧ a < counts.length := by
        unfold npIndex at hi
        split at hi
        · rename_i hc
          rw [← Option.some.inj hi]
          omega
        · rw [if_neg (by omega)] at hi; cases hi
      refine ⟨hia.2, fun j => ?_⟩
      by_cases hj : j = i
      · subst hj
        rw [if_pos hia.1]
        simp [List.getD, List.getElem?_set, hlt]
      · rw [if_neg (by omega)]
        simp [List.getD, List.getElem?_set, Ne.symm hj]

theorem console_write {c c' : Console} {l : Line} (h : c.write l = (c', .ok ())) :
    c'.log = c.log ++ [l] ∧ c'.counts = c.counts ∧ c'.episode = c.episode ∧ c'.numActions = c.numActions ∧
    c'.fine = c.fine ∧ c'.file = c.file ∧ (c.file = true → c'.logFile = c.logFile.map (· ++ [l])) := by
  unfold Console.write at h
  split at h
  · split at h
    · simp at h
    · rename_i f hf
      simp only [Prod.mk.injEq, and_true] at h
      subst h
      simp [hf]
  · rename_i hf
    simp only [Prod.mk.injEq, and_true] at h
    subst h
    simp [hf]

/-- The effect of the step events on the console collector. -/
theorem console_steps (t : List (ℤ × StepOut)) : ∀ (i : ℤ) (c c' : Console) (n : List ℝ) (r : ℝ), c.counts = some (n, r) →
    n.length = c.numActions → Spec.feed Console.on ((Spec.stats i t).map .step) c = (c', .ok ()) →
    ∃ n' lines, c'.counts = some (n', r + (t.map (·.2.reward)).sum) ∧ n'.length = n.length ∧ n'.sum = n.sum + t.length ∧
      ((∀ x ∈ n, 0 ≤ x) → ∀ x ∈ n', 0 ≤ x) ∧ (∀ x ∈ t, 0 ≤ x.1 ∧ x.1 < c.numActions) ∧
      (∀ j : ℕ, n'.getD j 0 = n.getD j 0 + (t.countP fun x => x.1 = (j : ℤ))) ∧
      c'.log = c.log ++ lines.map .step ∧ lines.Sublist (Spec.stats i t) ∧ (c.fine = false → lines = []) ∧
      c'.episode = c.episode ∧ c'.numActions = c.numActions ∧ c'.fine = c.fine ∧ c'.file = c.file ∧
      (c.file = true → c'.logFile = c.logFile.map (· ++ lines.map .step)) := by
  induction t with
  | nil =>
    intro i c c' n r hc hn h
    simp only [Spec.stats, List.map_nil, Spec.feed, Prod.mk.injEq, and_true] at h
    subst h
    refine ⟨n, [], by simp [hc], rfl, by simp, fun h => h, by simp, by simp, by simp, by simp [Spec.stats], by simp, rfl, rfl,
      rfl, rfl, by simp⟩
  | cons x t ih =>
    intro i c c' n r hc hn h
    simp only [Spec.stats, List.map_cons, Spec.feed] at h
    have key : ∃ c1 n1 lines, Console.on (.step ⟨i, x.1, x.2.reward, x.2.terminal⟩) c = (c1, .ok ()) ∧
        c1.counts = some (n1, r + x.2.reward) ∧ countAction n x.1 = .ok n1 ∧ 0 ≤ x.1 ∧ x.1 < c.numActions ∧
        c1.log = c.log ++ lines.map .step ∧ lines.Sublist [⟨i, x.1, x.2.reward, x.2.terminal⟩] ∧
        (c.fine = false → lines = []) ∧ c1.episode = c.episode ∧
        c1.numActions = c.numActions ∧ c1.fine = c.fine ∧ c1.file = c.file ∧
        (c.file = true → c1.logFile = c.logFile.map (· ++ lines.map .step)) := by
      rcases hon : Console.on (.step ⟨i, x.1, x.2.reward, x.2.terminal⟩) c with ⟨c1, _ | u⟩
      · rw [hon] at h; simp at h
      · refine ⟨c1, ?_⟩
        simp only [Console.on, hc] at hon
        by_cases hv : x.1 < 0 ∨ x.1 ≥ c.numActions
        · rw [if_pos hv] at hon; simp at hon
        · rw [if_neg hv] at hon
          rcases hca : countAction n x.1 with e | n1
          · rw [hca] at hon; simp at hon
          · rw [hca] at hon
            simp only at hon
            refine ⟨n1, ?_⟩
            cases hfine : c.fine
            · rw [hfine] at hon
              simp only [Bool.false_eq_true, if_false, Prod.mk.injEq, and_true] at hon
              subst hon
              exact ⟨[], rfl, rfl, rfl, by omega, by omega, by simp, by simp, by simp, rfl, rfl, by simp [hfine], rfl, by simp⟩
            · rw [hfine] at hon
              simp only [if_true] at hon
              split at hon
              · simp at hon
              · split at hon
                · obtain ⟨w1, w2, w3, w4, w5, w6, w7⟩ := console_write hon
                  exact ⟨[⟨i, x.1, x.2.reward, x.2.terminal⟩], rfl, w2, rfl, by omega, by omega, by rw [w1]; rfl, by simp,
                    by simp, w3, w4, by rw [w5], w6, w7⟩
                · simp only [Prod.mk.injEq, and_true] at hon
                  subst hon
                  exact ⟨[], rfl, rfl, rfl, by omega, by omega, by simp, by simp, by simp, rfl, rfl, by simp [hfine], rfl, by simp⟩
    obtain ⟨c1, n1, l1, k1, k2, k3, k4, k5, k6, k7, k8, k9, k10, k11, k12, k13⟩ := key
    rw [k1] at h
    simp only at h
    obtain ⟨q1, q2, q3, q4⟩ := countAction_ok k3
    obtain ⟨n', l2, e1, e2, e3, e4, e5, e6, e7, e8, e9, e10, e11, e12, e13, e14⟩ :=
      ih (i + 1) c1 c' n1 _ k2 (by rw [q1, hn, k10]) h
    refine ⟨n', l1 ++ l2, ?_, by rw [e2, q1], ?_, fun hp => e4 (q3 hp), ?_, ?_, ?_, ?_, ?_, by rw [e10, k9], by rw [e11, k10],
      by rw [e12, k11], by rw [e13, k12], ?_⟩
    · rw [e1, List.map_cons, List.sum_cons, add_assoc]
    · rw [e3, q2, List.length_cons]; push_cast; ring
    · intro y hy
      rcases List.mem_cons.1 hy with rfl | hy
      · exact ⟨k4, k5⟩
      · have := e5 y hy; rw [k10] at this; exact this
    · intro j
      rw [e6, (q4 k4).2, List.countP_cons]
      by_cases hj : (j : ℤ) = x.1
      · simp [hj]; ring
      · simp [hj, Ne.symm hj]
    · rw [e7, k6]; simp
    · have := k7.append e8
      simpa [Spec.stats] using this
    · intro hf
      rw [k8 hf, e9 (by rw [k11]; exact hf)]; rfl
    · intro hf
      rw [e14 (by rw [k12]; exact hf), k13 hf]
      cases c.logFile <;> simp

/-- The line the console collector reports for an episode. -/
theorem console_episode (t : List (ℤ × StepOut)) (a : ℤ) (c c' : Console)
    (h : Spec.feed Console.on (Spec.events t a) c = (c', .ok ())) :
    ∃ (n : List ℝ) (lines : List Stat), c'.log = c.log ++ lines.map .step ++
        [.episode c.episode ((t.map (·.2.reward)).sum + Spec.lastReward t) t.length (n.map (· / n.sum))] ∧
      (c.fine = false → lines = []) ∧ c'.episode = c.episode + 1 ∧ c'.numActions = c.numActions ∧
      n.length = c.numActions ∧ n.sum = t.length + 1 ∧ (∀ x ∈ n, 0 ≤ x) ∧ (∀ x ∈ t, 0 ≤ x.1 ∧ x.1 < c.numActions) ∧
      (0 ≤ a → ∀ j : ℕ, n.getD j 0 = (t.countP fun x => x.1 = (j : ℤ)) + if (j : ℤ) = a then 1 else 0) := by
  unfold Spec.events at h
  rw [List.cons_append] at h
  simp only [Spec.feed, Console.on] at h
  rw [feed_append] at h
  generalize hc0 : ({ c with counts := some (List.replicate c.numActions 0, 0) } : Console) = c0 at h
  rcases hs : Spec.feed Console.on ((Spec.stats 0 t).map .step) c0 with ⟨c1, _ | u⟩
  · rw [hs] at h; simp at h
  rw [hs] at h
  simp only [Spec.feed] at h
  obtain ⟨n1, lines, e1, e2, e3, e4, e5, e6, e7, e8, e9, e10, e11, e12, e13, e14⟩ :=
    console_steps t 0 c0 c1 (List.replicate c.numActions 0) 0 (by rw [← hc0]) (by rw [← hc0]; simp) hs
  subst hc0
  simp only at e5 e7 e9 e10 e11
  simp only [Console.on, e1] at h
  rcases hca : countAction n1 a with e | n2
  · rw [hca] at h; simp at h
  rw [hca] at h
  simp only at h
  obtain ⟨q1, q2, q3, q4⟩ := countAction_ok hca
  revert h
  generalize hw : Console.write _ _ = w
  obtain ⟨c2, _ | u⟩ := w
  · intro h; simp at h
  intro h
  simp only [Prod.mk.injEq, and_true] at h
  obtain ⟨w1, w2, w3, w4, w5, w6, w7⟩ := console_write hw
  simp only at w1 w3 w4
  subst h
  refine ⟨n2, lines, ?_, e9, ?_, ?_, ?_, ?_, ?_, e5, ?_⟩
  · simp only
    rw [w1, e7, e10, zero_add]
  · simp only; rw [e10]
  · simp only; rw [w4, e11]
  · rw [q1, e2]; simp
  · rw [q2, e3]; simp
  · exact q3 (e4 (by simp))
  · intro ha j
    rw [(q4 ha).2, e6]
    simp [List.getD, List.getElem?_replicate]
    split <;> simp

theorem pickle_steps (t : List (ℤ × StepOut)) : ∀ (i : ℤ) (c c' : Pickle) (l : List Stat), c.stats = some l →
    Spec.feed Pickle.on ((Spec.stats i t).map .step) c = (c', .ok ()) →
    c' = { c with stats := some (l ++ Spec.stats i t) } := by
  induction t with
  | nil =>
    intro i c c' l hc h
    simp only [Spec.stats, List.map_nil, Spec.feed, Prod.mk.injEq, and_true] at h
    subst h
    simp [Spec.stats, ← hc]
  | cons x t ih =>
    intro i c c' l hc h
    simp only [Spec.stats, List.map_cons, Spec.feed, Pickle.on, hc] at h
    rw [ih _ _ _ _ rfl h]
    simp [Spec.stats]

/-- The file the pickle collector writes for an episode. -/
theorem pickle_episode (t : List (ℤ × StepOut)) (a : ℤ) (c c' : Pickle)
    (h : Spec.feed Pickle.on (Spec.events t a) c = (c', .ok ())) :
    c'.episode = c.episode + 1 ∧
    c'.files = Function.update c.files c.episode
      (some (Spec.stats 0 t ++ [⟨t.length, a, Spec.lastReward t, Spec.lastTerminal t⟩])) := by
  unfold Spec.events at h
  rw [List.cons_append] at h
  simp only [Spec.feed, Pickle.on] at h
  rw [feed_append] at h
  rcases hs : Spec.feed Pickle.on ((Spec.stats 0 t).map .step) { c with stats := some [] } with ⟨c1, _ | u⟩
  · rw [hs] at h; simp at h
  rw [hs] at h
  have := pickle_steps t 0 _ c1 [] rfl hs
  subst this
  simp only [Spec.feed, Pickle.on, Prod.mk.injEq, and_true] at h
  subst h
  simp

theorem tensorboard_steps (t : List (ℤ × StepOut)) : ∀ (i : ℤ) (c c' : Tensorboard) (r : ℝ), c.reward = some r →
    Spec.feed Tensorboard.on ((Spec.stats i t).map .step) c = (c', .ok ()) →
    c'.reward = some (r + (t.map (·.2.reward)).sum) ∧ c'.episode = c.episode ∧
      (∀ g, c.globalStep = some g → c'.globalStep = some (g + t.length)) ∧
      ∃ q, c'.points = c.points ++ q ∧ (∀ x ∈ q, x.1 = .fineGrainedReward) := by
  induction t with
  | nil =>
    intro i c c' r hc h
    simp only [Spec.stats, List.map_nil, Spec.feed, Prod.mk.injEq, and_true] at h
    subst h
    exact ⟨by simp [hc], rfl, by simp, [], by simp, by simp⟩
  | cons x t ih =>
    intro i c c' r hc h
    simp only [Spec.stats, List.map_cons, Spec.feed, Tensorboard.on] at h
    rcases hg : c.globalStep with _ | g
    · rw [hg] at h; simp at h
    rw [hg] at h
    simp only [hc] at h
    by_cases hf : c.fine = true ∧ c.frequency = 0
    · rw [if_pos hf] at h; simp at h
    rw [if_neg hf] at h
    simp only at h
    obtain ⟨a1, a2, a3, q, a4, a5⟩ := ih _ _ _ _ rfl h
    refine ⟨?_, ?_, ?_, ?_⟩
    · rw [a1, List.map_cons, List.sum_cons, add_assoc]
    · rw [a2]; simp only; split <;> rfl
    · intro g' hg'
      rw [a3 (g + 1) rfl]
      have : g = g' := Option.some.inj hg'
      subst this
      rw [List.length_cons]; push_cast; congr 1; ring
    · rw [a4]
      simp only
      split
      · exact ⟨_, by simp only [List.append_assoc]; rfl, by
          intro y hy
          rcases List.mem_append.1 hy with hy | hy
          · rw [List.mem_singleton] at hy; rw [hy]
          · exact a5 y hy⟩
      · exact ⟨q, rfl, a5⟩

/-- The points the tensorboard collector adds for an episode. -/
theorem tensorboard_episode (t : List (ℤ × StepOut)) (a : ℤ) (c c' : Tensorboard)
    (h : Spec.feed Tensorboard.on (Spec.events t a) c = (c', .ok ())) :
    c'.episode = c.episode + 1 ∧ ∃ q, (∀ x ∈ q, x.1 = .fineGrainedReward) ∧ c'.points = c.points ++ q ++
      [(.episodeReward, (t.map (·.2.reward)).sum + Spec.lastReward t, c.episode), (.episodeLength, (t.length : ℝ), c.episode)] := by
  unfold Spec.events at h
  rw [List.cons_append] at h
  simp only [Spec.feed, Tensorboard.on] at h
  rw [feed_append] at h
  rcases hs : Spec.feed Tensorboard.on ((Spec.stats 0 t).map .step) { c with reward := some 0 } with ⟨c1, _ | u⟩
  · rw [hs] at h; simp at h
  rw [hs] at h
  obtain ⟨a1, a2, a3, q, a4, a5⟩ := tensorboard_steps t 0 _ c1 0 rfl hs
  simp only at a2 a3 a4
  simp only [Spec.feed, Tensorboard.on, a1] at h
  rcases hg : c1.globalStep with _ | g
  · rw [hg] at h; simp at h
  rw [hg] at h
  simp only [Prod.mk.injEq, and_true] at h
  subst h
  refine ⟨by simp only; rw [a2], ?_⟩
  simp only
  rw [zero_add, a2]
  split
  · refine ⟨q ++ [(.fineGrainedReward, Spec.lastReward t, g)], ?_, ?_⟩
    · intro y hy
      rcases List.mem_append.1 hy with hy | hy
      · exact a5 y hy
      · rw [List.mem_singleton] at hy; rw [hy]
    · simp only [a4, List.append_assoc, Int.cast_natCast]
  · exact ⟨q, a5, by simp only [a4, Int.cast_natCast]⟩

theorem feed_console (es : List Event) (c : Console) :
    Spec.feed Obj.on es (.console c) = (.console (Spec.feed Console.on es c).1, (Spec.feed Console.on es c).2) := by
  induction es generalizing c with
  | nil => rfl
  | cons e es ih =>
    simp only [Spec.feed, Obj.on]
    rcases h : Console.on e c with ⟨c1, _ | u⟩
    · rfl
    · exact ih c1

theorem feed_pickle (es : List Event) (c : Pickle) :
    Spec.feed Obj.on es (.pickle c) = (.pickle (Spec.feed Pickle.on es c).1, (Spec.feed Pickle.on es c).2) := by
  induction es generalizing c with
  | nil => rfl
  | cons e es ih =>
    simp only [Spec.feed, Obj.on]
    rcases h : Pickle.on e c with ⟨c1, _ | u⟩
    · rfl
    · exact ih c1

theorem feed_tensorboard (es : List Event) (c : Tensorboard) :
    Spec.feed Obj.on es (.tensorboard c) =
      (.tensorboard (Spec.feed Tensorboard.on es c).1, (Spec.feed Tensorboard.on es c).2) := by
  induction es generalizing c with
  | nil => rfl
  | cons e es ih =>
    simp only [Spec.feed, Obj.on]
    rcases h : Tensorboard.on e c with ⟨c1, _ | u⟩
    · rfl
    · exact ih c1

/-- What becomes of the collector at position `j`. -/
theorem issue_at {on : Collectors C} {es : List Event} {cs cs' : List C} (h : Spec.issue on es cs = (cs', .ok ())) (j : ℕ)
    (c : C) (hc : cs[j]? = some c) : ∃ c', cs'[j]? = some c' ∧ Spec.feed on es c = (c', .ok ()) := by
  obtain ⟨h1, h2⟩ := (C72_all_events on es cs cs').1 h
  refine ⟨(Spec.feed on es c).1, by rw [h2, List.getElem?_map, hc]; rfl, ?_⟩
  rw [← h1 c (List.mem_of_getElem? hc)]

theorem console_at {es : List Event} {cs cs' : List Obj} (h : Spec.issue Obj.on es cs = (cs', .ok ())) (j : ℕ)
    (c : Console) (hc : cs[j]? = some (.console c)) :
    ∃ c', cs'[j]? = some (.console c') ∧ Spec.feed Console.on es c = (c', .ok ()) := by
  obtain ⟨c', h1, h2⟩ := issue_at h j _ hc
  rw [feed_console] at h2
  simp only [Prod.mk.injEq] at h2
  exact ⟨_, by rw [h1, ← h2.1], by rw [← h2.2]⟩

theorem pickle_at {es : List Event} {cs cs' : List Obj} (h : Spec.issue Obj.on es cs = (cs', .ok ())) (j : ℕ)
    (c : Pickle) (hc : cs[j]? = some (.pickle c)) :
    ∃ c', cs'[j]? = some (.pickle c') ∧ Spec.feed Pickle.on es c = (c', .ok ()) := by
  obtain ⟨c', h1, h2⟩ := issue_at h j _ hc
  rw [feed_pickle] at h2
  simp only [Prod.mk.injEq] at h2
  exact ⟨_, by rw [h1, ← h2.1], by rw [← h2.2]⟩

theorem tensorboard_at {es : List Event} {cs cs' : List Obj} (h : Spec.issue Obj.on es cs = (cs', .ok ())) (j : ℕ)
    (c : Tensorboard) (hc : cs[j]? = some (.tensorboard c)) :
    ∃ c', cs'[j]? = some (.tensorboard c') ∧ Spec.feed Tensorboard.on es c = (c', .ok ()) := by
  obtain ⟨c', h1, h2⟩ := issue_at h j _ hc
  rw [feed_tensorboard] at h2
  simp only [Prod.mk.injEq] at h2
  exact ⟨_, by rw [h1, ← h2.1], by rw [← h2.2]⟩

/-! ## C69 -/

/-- The reported reward of an episode (full claim: the sum of its rewards). `report t` is the reward reported for
the steps `t`. -/
def Spec.ReportsEpisode (report : List (ℤ × StepOut) → ℝ) (t : List (ℤ × StepOut)) (cs cs' : List Obj) : Prop :=
  (∀ (j : ℕ) (c : Console), cs[j]? = some (.console c) → ∃ c' lines dist, cs'[j]? = some (.console c') ∧
    c'.log = c.log ++ List.map Line.step lines ++ [.episode c.episode (report t) t.length dist] ∧
    (c.fine = false → lines = []) ∧ c'.episode = c.episode + 1) ∧
  (∀ (j : ℕ) (c : Tensorboard), cs[j]? = some (.tensorboard c) → ∃ c' q, cs'[j]? = some (.tensorboard c') ∧
    (∀ x ∈ q, x.1 = Curve.fineGrainedReward) ∧
    c'.points = c.points ++ q ++ [(.episodeReward, report t, c.episode), (.episodeLength, (t.length : ℝ), c.episode)] ∧
    c'.episode = c.episode + 1)

/-- Full statement: `Spec.ReportsEpisode (fun t => (t.map (·.2.reward)).sum) t x.cols x'.cols`. What holds: for every
environment, agent, set of collectors and every completed episode, the reported length is the number of
environment steps, but the reported reward counts the last reward twice. -/
theorem C69_reported_partial (G : GymEnv V) (A : Agent S) (maxLen period : ℤ) (hm : 0 ≤ maxLen) (x x' : Run V S Obj)
    (h : runEpisode G A Obj.on maxLen period x = (x', .ok ())) :
    ∃ t a, Spec.Episode' G A maxLen x.env x.agent t a x'.env x'.agent ∧
      Spec.ReportsEpisode (fun t => (t.map (·.2.reward)).sum + Spec.lastReward t) t x.cols x'.cols := by
  obtain ⟨t, a, h1, h2⟩ := runEpisode_spec G A Obj.on maxLen period hm x x' h
  refine ⟨t, a, h1, ?_, ?_⟩
  · intro j c hc
    obtain ⟨c', h3, h4⟩ := console_at h2 j c hc
    obtain ⟨n, lines, e1, e2, e3, _⟩ := console_episode t a c c' h4
    exact ⟨c', lines, _, h3, e1, e2, e3⟩
  · intro j c hc
    obtain ⟨c', h3, h4⟩ := tensorboard_at h2 j c hc
    obtain ⟨e1, q, e2, e3⟩ := tensorboard_episode t a c c' h4
    exact ⟨c', q, h3, e2, e3, e1⟩

/-- A run to try things on: the environment counts down from 2 and pays the action as reward. -/
noncomputable def toyRun : Run ℤ Unit Obj where
  env := 2
  agent := ()
  cols := [.console { numActions := 3, episode := 0, fine := false, frequency := 1, counts := none, log := [], file := false
                      logFile := none },
           .pickle { episode := 0, stats := none, files := fun _ => none },
           .tensorboard { episode := 0, fine := false, frequency := 1, globalStep := some 0, reward := none, points := [] }]

/-- The steps of the episode of `toyRun`. -/
noncomputable def toySteps : List (ℤ × StepOut) :=
  [(1, { obs := [], reward := 1, terminal := false
         info := { outOfPower := false, envelopeBurst := false, zeropressure := false, timeElapsed := 0 } }),
   (2, { obs := [], reward := 2, terminal := true
         info := { outOfPower := true, envelopeBurst := false, zeropressure := false, timeElapsed := 0 } })]

/-- The result of `toyRun`: rewards 1 and 2 were received, 5 is reported; the record has three entries. -/
noncomputable def toyRun' : Run ℤ Unit Obj where
  env := 0
  agent := ()
  cols := [.console { numActions := 3, episode := 1, fine := false, frequency := 1, counts := some ([0, 1, 2], 5)
                      log := [.episode 0 5 2 [0, 1 / 3, 2 / 3]], file := false, logFile := none },
           .pickle { episode := 1, stats := some [⟨0, 1, 1, false⟩, ⟨1, 2, 2, true⟩, ⟨2, 2, 2, true⟩]
                     files := Function.update (fun _ => none) 0
                       (some [⟨0, 1, 1, false⟩, ⟨1, 2, 2, true⟩, ⟨2, 2, 2, true⟩]) },
           .tensorboard { episode := 1, fine := false, frequency := 1, globalStep := some 3, reward := some 5
                          points := [(.episodeReward, 5, 0), (.episodeLength, 2, 0)] }]

theorem toyRun_result : runEpisode toyEnv toyAgent Obj.on 10 1 toyRun = (toyRun', .ok ()) := by
  have e : Int.toNat 10 = 8 + 1 + 1 := rfl
  unfold runEpisode toyRun toyRun'
  simp only [Run.send, dispatch, Obj.on, Console.on, Pickle.on, Tensorboard.on, toyEnv, toyAgent, e, episodeLoop, countAction,
    npIndex, Console.write]
  have e2 : Int.toNat 2 = 2 := rfl
  have e3 : List.replicate 3 (0:ℝ) = [0, 0, 0] := rfl
  norm_num [Run.send, dispatch, Obj.on, Console.on, Pickle.on, Tensorboard.on, countAction, npIndex, Console.write, e2, e3]

theorem toySteps_episode : Spec.Episode' toyEnv toyAgent 10 2 () toySteps 2 0 () := by
  refine ⟨2, [], (), 1, (), rfl, rfl, ?_, rfl, by simp [toySteps], by simp [toySteps, Spec.lastTerminal]⟩
  refine .cons (v1 := 1) (v2 := 1) (s1 := ()) (a1 := 2) ?_ rfl (Or.inl rfl) rfl (.last (v1 := 0) ?_ rfl (Or.inl rfl))
  · simp [toyEnv]
  · simp [toyEnv]

/-- The sum of the rewards received is not what is reported. -/
theorem C69_double_count : ∃ (x x' : Run ℤ Unit Obj) (t : List (ℤ × StepOut)) (a : ℤ),
    runEpisode toyEnv toyAgent Obj.on 10 1 x = (x', .ok ()) ∧
    Spec.Episode' toyEnv toyAgent 10 x.env x.agent t a x'.env x'.agent ∧
    ¬ Spec.ReportsEpisode (fun t => (t.map (·.2.reward)).sum) t x.cols x'.cols := by
  refine ⟨toyRun, toyRun', toySteps, 2, toyRun_result, toySteps_episode, ?_⟩
  rintro ⟨h, _⟩
  obtain ⟨c', lines, dist, h1, h2, h3, h4⟩ := h 0 _ rfl
  simp only [toyRun', List.getElem?_cons_zero, Option.some.injEq, Obj.console.injEq] at h1
  subst h1
  rw [h3 rfl] at h2
  simp only [List.map_nil, List.append_nil, List.nil_append, List.cons.injEq, Line.episode.injEq] at h2
  have := h2.1.2.1
  norm_num [toySteps] at this

/-! ## C70 -/

/-- Full statement: the file has exactly one entry per environment step, `Spec.stats 0 t`. What holds: those entries,
in order, come first; one more is appended at the end. Other files are not touched. -/
theorem C70_record_partial (G : GymEnv V) (A : Agent S) (maxLen period : ℤ) (hm : 0 ≤ maxLen) (x x' : Run V S Obj)
    (h : runEpisode G A Obj.on maxLen period x = (x', .ok ())) :
    ∃ t a, Spec.Episode' G A maxLen x.env x.agent t a x'.env x'.agent ∧
      ∀ (j : ℕ) (c : Pickle), x.cols[j]? = some (.pickle c) → ∃ c' s, x'.cols[j]? = some (.pickle c') ∧
        c'.episode = c.episode + 1 ∧ c'.files c.episode = some (Spec.stats 0 t ++ [s]) ∧
        s = ⟨t.length, a, Spec.lastReward t, Spec.lastTerminal t⟩ ∧
        (∀ e ≠ c.episode, c'.files e = c.files e) ∧
        (Spec.stats 0 t).length = t.length ∧
        ∀ (k : ℕ) (y : ℤ × StepOut), t[k]? = some y →
          (Spec.stats 0 t)[k]? = some ⟨k, y.1, y.2.reward, y.2.terminal⟩ := by
  obtain ⟨t, a, h1, h2⟩ := runEpisode_spec G A Obj.on maxLen period hm x x' h
  have hlen : ∀ (t : List (ℤ × StepOut)) (i : ℤ), (Spec.stats i t).length = t.length := by
    intro t
    induction t with
    | nil => intro i; rfl
    | cons y t ih => intro i; simp [Spec.stats, ih]
  have hget : ∀ (t : List (ℤ × StepOut)) (i : ℤ) (k : ℕ) (y : ℤ × StepOut), t[k]? = some y →
      (Spec.stats i t)[k]? = some ⟨i + k, y.1, y.2.reward, y.2.terminal⟩ := by
    intro t
    induction t with
    | nil => intro i k y h; simp at h
    | cons z t ih =>
      intro i k y h
      cases k with
      | zero => simp only [List.getElem?_cons_zero, Option.some.injEq] at h; subst h; simp [Spec.stats]
      | succ k =>
        simp only [List.getElem?_cons_succ] at h
        simp only [Spec.stats, List.getElem?_cons_succ, ih _ _ _ h]
        congr 2; push_cast; ring
  refine ⟨t, a, h1, fun j c hc => ?_⟩
  obtain ⟨c', h3, h4⟩ := pickle_at h2 j c hc
  obtain ⟨e1, e2⟩ := pickle_episode t a c c' h4
  refine ⟨c', _, h3, e1, by rw [e2]; simp, rfl, fun e he => by rw [e2]; simp [he], hlen _ _, fun k y hy => ?_⟩
  rw [hget _ _ _ _ hy, zero_add]

/-- An episode of two steps leaves a record of three transitions, the last of which never happened. -/
theorem C70_extra : ∃ (x x' : Run ℤ Unit Obj) (t : List (ℤ × StepOut)) (a : ℤ) (c' : Pickle) (l : List Stat),
    runEpisode toyEnv toyAgent Obj.on 10 1 x = (x', .ok ()) ∧
    Spec.Episode' toyEnv toyAgent 10 x.env x.agent t a x'.env x'.agent ∧ x'.cols[1]? = some (.pickle c') ∧
    c'.files 0 = some l ∧ t.length = 2 ∧ l.length = 3 :=
  ⟨toyRun, toyRun', toySteps, 2, _, _, toyRun_result, toySteps_episode, rfl, by simp; rfl, rfl, rfl⟩

/-! ## C71 -/

/-- Full statement: the reported action distribution has non-negative entries that sum to 1, *and invalid actions
raise*. What holds: the first part for every completed episode; every action flown was valid. Moreover each
entry is the number of times the action was flown, plus one for the action that was pending at the end, over the
number of steps plus one. -/
theorem C71_distribution_partial (G : GymEnv V) (A : Agent S) (maxLen period : ℤ) (hm : 0 ≤ maxLen) (x x' : Run V S Obj)
    (h : runEpisode G A Obj.on maxLen period x = (x', .ok ())) :
    ∃ t a, Spec.Episode' G A maxLen x.env x.agent t a x'.env x'.agent ∧
      ∀ (j : ℕ) (c : Console), x.cols[j]? = some (.console c) → ∃ c' reward dist, x'.cols[j]? = some (.console c') ∧
        c'.log.getLast? = some (.episode c.episode reward t.length dist) ∧ dist.length = c.numActions ∧
        (∀ p ∈ dist, 0 ≤ p) ∧ dist.sum = 1 ∧ (∀ y ∈ t, 0 ≤ y.1 ∧ y.1 < c.numActions) ∧
        (0 ≤ a → ∀ i : ℕ, i < c.numActions → dist[i]? =
          some ((((t.countP fun y => y.1 = (i : ℤ) : ℕ) : ℝ) + if (i : ℤ) = a then 1 else 0) / ((t.length : ℝ) + 1))) := by
  obtain ⟨t, a, h1, h2⟩ := runEpisode_spec G A Obj.on maxLen period hm x x' h
  refine ⟨t, a, h1, fun j c hc => ?_⟩
  obtain ⟨c', h3, h4⟩ := console_at h2 j c hc
  obtain ⟨n, lines, e1, e2, e3, e4, e5, e6, e7, e8, e9⟩ := console_episode t a c c' h4
  have hpos : (0:ℝ) < n.sum := by rw [e6]; positivity
  refine ⟨c', _, _, h3, by rw [e1, List.getLast?_append]; rfl, by rw [List.length_map, e5], ?_, ?_, e8, ?_⟩
  · intro p hp
    obtain ⟨q, hq, rfl⟩ := List.mem_map.1 hp
    exact div_nonneg (e7 q hq) hpos.le
  · have : ∀ (l : List ℝ) (s : ℝ), (l.map (· / s)).sum = l.sum / s := by
      intro l s
      induction l with
      | nil => simp
      | cons y l ih => simp only [List.map_cons, List.sum_cons, ih]; ring
    rw [this, div_self hpos.ne']
  · intro ha i hi
    rw [List.getElem?_map, e6]
    have h0 := e9 ha i
    rw [List.getD_eq_getElem?_getD] at h0
    have hlt : i < n.length := by rw [e5]; exact hi
    rw [List.getElem?_eq_getElem hlt] at h0 ⊢
    simp only [Option.getD_some] at h0
    rw [Option.map_some, h0]

/-- An invalid action that is flown raises ValueError. -/
theorem C71_invalid_raises (c : Console) (s : Stat) (n : List ℝ) (r : ℝ) (hc : c.counts = some (n, r))
    (hs : s.action < 0 ∨ s.action ≥ c.numActions) : (Console.on (.step s) c).2 = .error .value := by
  simp [Console.on, hc, hs]

/-- But a negative action that is pending at the end of an episode is silently counted as another one. -/
theorem C71_negative_pending : ∃ c c' : Console, c.numActions = 3 ∧
    Spec.feed Console.on (Spec.events [] (-1)) c = (c', .ok ()) ∧ c'.log = [.episode 0 0 0 [0, 0, 1]] := by
  refine ⟨{ numActions := 3, episode := 0, fine := false, frequency := 1, counts := none, log := [], file := false
            logFile := none },
          { numActions := 3, episode := 1, fine := false, frequency := 1, counts := some ([0, 0, 1], 0)
            log := [.episode 0 0 0 [0, 0, 1]], file := false, logFile := none }, rfl, ?_, rfl⟩
  simp [Spec.events, Spec.feed, Console.on, Spec.stats, countAction, npIndex, Console.write, Spec.lastReward]

/-- The three collectors of `toyRun` get through the episode, each in the state it would have reached alone. -/
example : Spec.issue Obj.on (Spec.events toySteps 2) toyRun.cols = (toyRun'.cols, .ok ()) ∧
    toyRun'.cols = toyRun.cols.map fun c => (Spec.feed Obj.on (Spec.events toySteps 2) c).1 := by
  have h : Spec.issue Obj.on (Spec.events toySteps 2) toyRun.cols = (toyRun'.cols, .ok ()) := by
    simp only [Spec.events, toySteps, Spec.stats, List.map_cons, List.map_nil, List.cons_append, List.nil_append, Spec.issue,
      toyRun, toyRun', dispatch, Obj.on, Console.on, Pickle.on, Tensorboard.on, countAction, npIndex, Console.write,
      Spec.lastReward, Spec.lastTerminal]
    have e2 : Int.toNat 2 = 2 := rfl
    have e3 : List.replicate 3 (0:ℝ) = [0, 0, 0] := rfl
    norm_num [dispatch, Obj.on, Console.on, Pickle.on, Tensorboard.on, countAction, npIndex, Console.write, e2, e3]
  exact ⟨h, ((C72_all_events _ _ _ _).1 h).2⟩

/-! ## C65 -/

/-- Episodes played one after the other; each is given by its steps and the action pending at its end. Nothing
but the episodes happens to environment, agent and collectors. -/
inductive Spec.Played (G : GymEnv V) (A : Agent S) (on : Collectors C) (maxLen : ℤ) :
    List (List (ℤ × StepOut) × ℤ) → Run V S C → Run V S C → Prop
  | nil (x : Run V S C) : Spec.Played G A on maxLen [] x x
  | cons {x x1 x2 : Run V S C} {t : List (ℤ × StepOut)} {a : ℤ} {ts : List (List (ℤ × StepOut) × ℤ)}
      (he : Spec.Episode' G A maxLen x.env x.agent t a x1.env x1.agent)
      (hc : Spec.issue on (Spec.events t a) x.cols = (x1.cols, .ok ())) (rest : Spec.Played G A on maxLen ts x1 x2) :
      Spec.Played G A on maxLen ((t, a) :: ts) x x2

/-- Iterations `i, i + 1, …`, given by their episodes; after each one the agent is saved under its number. -/
inductive Spec.Trained (G : GymEnv V) (A : Agent S) (Z : Saver S D) (on : Collectors C) (maxLen : ℤ) :
    ℤ → List (List (List (ℤ × StepOut) × ℤ)) → Run V S C → D → Run V S C → D → Prop
  | nil (i : ℤ) (x : Run V S C) (d : D) : Spec.Trained G A Z on maxLen i [] x d x d
  | cons {i : ℤ} {x x1 x2 : Run V S C} {d d1 d2 : D} {ts : List (List (ℤ × StepOut) × ℤ)}
      {its : List (List (List (ℤ × StepOut) × ℤ))} (hp : Spec.Played G A on maxLen ts x x1)
      (hs : Z.save i x1.agent d = (d1, .ok ())) (rest : Spec.Trained G A Z on maxLen (i + 1) its x1 d1 x2 d2) :
      Spec.Trained G A Z on maxLen i (ts :: its) x d x2 d2

theorem runEpisodes_spec (G : GymEnv V) (A : Agent S) (on : Collectors C) (maxLen period : ℤ) (hm : 0 ≤ maxLen) (n : ℕ) :
    ∀ x x' : Run V S C, runEpisodes G A on maxLen period n x = (x', .ok ()) →
      ∃ ts, ts.length = n ∧ Spec.Played G A on maxLen ts x x' := by
  induction n with
  | zero =>
    intro x x' h
    simp only [runEpisodes, Prod.mk.injEq, and_true] at h
    subst h
    exact ⟨[], rfl, .nil _⟩
  | succ n ih =>
    intro x x' h
    simp only [runEpisodes] at h
    rcases hr : runEpisode G A on maxLen period x with ⟨x1, _ | u⟩
    · rw [hr] at h; simp at h
    rw [hr] at h
    simp only at h
    obtain ⟨ts, h1, h2⟩ := ih x1 x' h
    obtain ⟨t, a, h3, h4⟩ := runEpisode_spec G A on maxLen period hm x x1 hr
    exact ⟨(t, a) :: ts, by simp [h1], .cons h3 h4 h2⟩

theorem runIterations_spec (G : GymEnv V) (A : Agent S) (Z : Saver S D) (on : Collectors C) (maxLen period episodes : ℤ)
    (hm : 0 ≤ maxLen) (n : ℕ) : ∀ (i : ℤ) (x x' : Run V S C) (d d' : D),
    runIterations G A Z on maxLen period episodes n i x d = (x', d', .ok ()) →
    ∃ its, its.length = n ∧ (∀ it ∈ its, it.length = episodes.toNat) ∧ Spec.Trained G A Z on maxLen i its x d x' d' := by
  induction n with
  | zero =>
    intro i x x' d d' h
    simp only [runIterations, Prod.mk.injEq, and_true] at h
    obtain ⟨rfl, rfl⟩ := h
    exact ⟨[], rfl, by simp, .nil _ _ _⟩
  | succ n ih =>
    intro i x x' d d' h
    simp only [runIterations] at h
    rcases hr : runEpisodes G A on maxLen period episodes.toNat x with ⟨x1, _ | u⟩
    · rw [hr] at h; simp at h
    rw [hr] at h
    simp only at h
    rcases hw : Z.save i x1.agent d with ⟨d1, _ | u⟩
    · rw [hw] at h; simp at h
    rw [hw] at h
    simp only at h
    obtain ⟨its, h1, h2, h3⟩ := ih _ _ _ _ _ h
    obtain ⟨ts, h4, h5⟩ := runEpisodes_spec G A on maxLen period hm _ x x1 hr
    refine ⟨ts :: its, by simp [h1], ?_, .cons h5 hw h3⟩
    intro it hit
    rcases List.mem_cons.1 hit with rfl | hit
    · exact h4
    · exact h2 it hit

theorem played_issue {G : GymEnv V} {A : Agent S} {on : Collectors C} {maxLen : ℤ} {ts : List (List (ℤ × StepOut) × ℤ)}
    {x x' : Run V S C} (h : Spec.Played G A on maxLen ts x x') :
    Spec.issue on (ts.flatMap fun e => Spec.events e.1 e.2) x.cols = (x'.cols, .ok ()) := by
  induction h with
  | nil x => rfl
  | cons he hc rest ih =>
    rw [List.flatMap_cons]
    exact issue_append _ _ _ _ _ _ hc ih

theorem trained_issue {G : GymEnv V} {A : Agent S} {Z : Saver S D} {on : Collectors C} {maxLen i : ℤ}
    {its : List (List (List (ℤ × StepOut) × ℤ))} {x x' : Run V S C} {d d' : D}
    (h : Spec.Trained G A Z on maxLen i its x d x' d') :
    Spec.issue on (its.flatten.flatMap fun e => Spec.events e.1 e.2) x.cols = (x'.cols, .ok ()) := by
  induction h with
  | nil i x d => rfl
  | cons hp hs rest ih =>
    rw [List.flatten_cons, List.flatMap_append]
    exact issue_append _ _ _ _ _ _ (played_issue hp) ih

/-- Training runs every remaining iteration once, in order, with the configured number of episodes, and saves
after each: for every agent and checkpointing scheme, if the latest checkpoint is `last` (−1 or less: none) then a
completed run consists of iterations `max (last + 1) 0, …, iterations - 1`. The collectors see the beginning, all
episodes, and the end; they are created with the number of the first episode. -/
theorem C65_each_once (G : GymEnv V) (A : Agent S) (Z : Saver S D) (on : Collectors C) (mk : ℤ → List C)
    (maxLen period episodes iterations : ℤ) (hm : 0 ≤ maxLen) (v : V) (s : S) (d d' : D) (x' : Run V S C)
    (h : runTraining G A Z on mk maxLen period episodes iterations v s d = (x', d', .ok ())) :
    ∃ s1 last cs its x2, Z.reload d s = (s1, .ok last) ∧
      dispatch on .preTraining (mk (max (last + 1) 0 * episodes)) = (cs, .ok ()) ∧
      its.length = (iterations - max (last + 1) 0).toNat ∧ (∀ it ∈ its, it.length = episodes.toNat) ∧
      Spec.Trained G A Z on maxLen (max (last + 1) 0) its { env := v, agent := A.setMode s1 true, cols := cs } d x2 d' ∧
      x'.env = x2.env ∧ x'.agent = x2.agent ∧
      Spec.issue on (.preTraining :: (its.flatten.flatMap fun e => Spec.events e.1 e.2) ++ [.endTraining])
        (mk (max (last + 1) 0 * episodes)) = (x'.cols, .ok ()) := by
  unfold runTraining at h
  simp only [Run.send] at h
  rcases hq : Z.reload d s with ⟨s1, _ | last⟩
  · rw [hq] at h; simp at h
  rw [hq] at h
  simp only at h
  rcases hp : dispatch on .preTraining (mk (max (last + 1) 0 * episodes)) with ⟨cs, _ | u⟩
  · rw [hp] at h; simp at h
  rw [hp] at h
  simp only at h
  generalize hx : ({ env := v, agent := A.setMode s1 true, cols := cs } : Run V S C) = y at h
  rcases hr : runIterations G A Z on maxLen period episodes (iterations - max (last + 1) 0).toNat (max (last + 1) 0) y d
    with ⟨x2, d2, _ | u⟩
  · rw [hr] at h; simp at h
  rw [hr] at h
  simp only [Prod.mk.injEq] at h
  obtain ⟨h1, rfl, h3⟩ := h
  obtain ⟨its, i1, i2, i3⟩ := runIterations_spec G A Z on maxLen period episodes hm _ _ _ _ _ _ hr
  refine ⟨s1, last, cs, its, x2, rfl, hp, i1, i2, by rw [hx]; exact i3, by rw [← h1], by rw [← h1], ?_⟩
  rw [List.cons_append]
  simp only [Spec.issue, hp]
  refine issue_append on _ _ _ x2.cols _ ?_ ?_
  · have := trained_issue i3
    rw [← hx] at this
    exact this
  · have hd : dispatch on .endTraining x2.cols = (x'.cols, .ok ()) := Prod.ext (by rw [← h1]) h3
    simp only [Spec.issue, hd]

/-- C65. An agent without checkpointing of its own (the random agent, StationSeeker): it reports that no checkpoint was found (−1, as
documented) and stays as it is, whatever the directory contains, and writes nothing there; so every training starts from iteration 0
with the agent as it was given, and the directory is the same afterwards. -/
theorem C65_without_checkpoints (G : GymEnv V) (A : Agent S) (on : Collectors C) (mk : ℤ → List C)
    (maxLen period episodes iterations : ℤ) (hm : 0 ≤ maxLen) (v : V) (s : S) (d d' : D) (x' : Run V S C)
    (h : runTraining G A baseSaver on mk maxLen period episodes iterations v s d = (x', d', .ok ())) :
    (baseSaver : Saver S D).reload d s = (s, .ok (-1)) ∧ d' = d ∧
    ∃ cs its x2, dispatch on .preTraining (mk 0) = (cs, .ok ()) ∧
      its.length = iterations.toNat ∧ (∀ it ∈ its, it.length = episodes.toNat) ∧
      Spec.Trained G A baseSaver on maxLen 0 its { env := v, agent := A.setMode s true, cols := cs } d x2 d' ∧
      x'.env = x2.env ∧ x'.agent = x2.agent := by
  obtain ⟨s1, last, cs, its, x2, h1, h2, h3, h4, h5, h6, h7, -⟩ :=
    C65_each_once G A baseSaver on mk maxLen period episodes iterations hm v s d d' x' h
  have hr : (baseSaver : Saver S D).reload d s = (s, .ok (-1)) := rfl
  rw [hr] at h1
  obtain ⟨rfl, hl⟩ := Prod.mk.inj h1
  obtain rfl : -1 = last := Except.ok.inj hl
  have same : ∀ {i : ℤ} {its : List (List (List (ℤ × StepOut) × ℤ))} {x x2 : Run V S C} {d d' : D},
      Spec.Trained G A baseSaver on maxLen i its x d x2 d' → d' = d := by
    intro i its x x2 d d' ht
    induction ht with
    | nil => rfl
    | cons hp hs rest ih => rw [ih]; exact (Prod.mk.inj hs).1.symm
  refine ⟨hr, same h5, cs, its, x2, ?_, ?_, h4, ?_, h6, h7⟩
  · simpa using h2
  · simpa using h3
  · simpa using h5

theorem pickle_episodes (ts : List (List (ℤ × StepOut) × ℤ)) : ∀ c c' : Pickle,
    Spec.feed Pickle.on (ts.flatMap fun e => Spec.events e.1 e.2) c = (c', .ok ()) →
    c'.episode = c.episode + ts.length ∧
    (∀ e, (c.episode ≤ e ∧ e < c.episode + ts.length) → ∃ t a, ts[(e - c.episode).toNat]? = some (t, a) ∧
      c'.files e = some (Spec.stats 0 t ++ [⟨t.length, a, Spec.lastReward t, Spec.lastTerminal t⟩])) ∧
    ∀ e, ¬ (c.episode ≤ e ∧ e < c.episode + ts.length) → c'.files e = c.files e := by
  induction ts with
  | nil =>
    intro c c' h
    simp only [List.flatMap_nil, Spec.feed, Prod.mk.injEq, and_true] at h
    subst h
    refine ⟨by simp, fun e he => ?_, fun _ _ => rfl⟩
    simp at he
    omega
  | cons x ts ih =>
    intro c c' h
    rw [List.flatMap_cons, feed_append] at h
    rcases hf : Spec.feed Pickle.on (Spec.events x.1 x.2) c with ⟨c1, _ | u⟩
    · rw [hf] at h; simp at h
    rw [hf] at h
    simp only at h
    obtain ⟨e1, e2⟩ := pickle_episode x.1 x.2 c c1 hf
    obtain ⟨i1, i2, i3⟩ := ih c1 c' h
    rw [e1] at i1 i2 i3
    refine ⟨by rw [i1, List.length_cons]; push_cast; ring, fun e he => ?_, fun e he => ?_⟩
    · rw [List.length_cons] at he
      push_cast at he
      by_cases hec : e = c.episode
      · subst hec
        refine ⟨x.1, x.2, by simp, ?_⟩
        rw [i3 _ (by omega), e2]
        simp
      · obtain ⟨t, a, j1, j2⟩ := i2 e (by omega)
        refine ⟨t, a, ?_, j2⟩
        have : (e - c.episode).toNat = (e - (c.episode + 1)).toNat + 1 := by omega
        rw [this, List.getElem?_cons_succ]
        exact j1
    · rw [List.length_cons] at he
      push_cast at he
      rw [i3 e (by omega), e2, Function.update_of_ne (by omega)]

/-- Consequently, with a pickle collector, a completed run leaves one record for each of the episodes
`start · E, …, N · E - 1` — every episode of every remaining iteration — and touches no record of an earlier one. -/
theorem C65_records (G : GymEnv V) (A : Agent S) (Z : Saver S D) (mk : ℤ → List Obj) (maxLen period episodes iterations : ℤ)
    (hm : 0 ≤ maxLen) (he : 0 ≤ episodes) (v : V) (s : S) (d d' : D) (x' : Run V S Obj)
    (h : runTraining G A Z Obj.on mk maxLen period episodes iterations v s d = (x', d', .ok ())) :
    ∃ s1 last, Z.reload d s = (s1, .ok last) ∧ ∀ (start : ℤ), start = max (last + 1) 0 →
      ∀ (j : ℕ) (c : Pickle), (mk (start * episodes))[j]? = some (.pickle c) → c.episode = start * episodes →
        ∃ c', x'.cols[j]? = some (.pickle c') ∧ c'.episode = max start iterations * episodes ∧
          (∀ e, start * episodes ≤ e → e < iterations * episodes → c'.files e ≠ none) ∧
          (∀ e, e < start * episodes ∨ iterations * episodes ≤ e → c'.files e = c.files e) := by
  obtain ⟨s1, last, cs, its, x2, h1, h2, h3, h4, h5, h6, h7, h8⟩ :=
    C65_each_once G A Z Obj.on mk maxLen period episodes iterations hm v s d d' x' h
  refine ⟨s1, last, h1, ?_⟩
  rintro start rfl j c hc hep
  obtain ⟨c', g1, g2⟩ := pickle_at h8 j c hc
  rw [List.cons_append] at g2
  simp only [Spec.feed, Pickle.on] at g2
  rw [feed_append] at g2
  rcases hf : Spec.feed Pickle.on (its.flatten.flatMap fun e => Spec.events e.1 e.2) c with ⟨c1, _ | u⟩
  · rw [hf] at g2; simp at g2
  rw [hf] at g2
  simp only [Spec.feed, Pickle.on, Prod.mk.injEq, and_true] at g2
  subst g2
  obtain ⟨i1, i2, i3⟩ := pickle_episodes _ _ _ hf
  have hlen : (its.flatten.length : ℤ) = (iterations - max (last + 1) 0).toNat * episodes := by
    have : ∀ l : List (List (List (ℤ × StepOut) × ℤ)), (∀ it ∈ l, it.length = episodes.toNat) →
        (l.flatten.length : ℤ) = l.length * episodes := by
      intro l
      induction l with
      | nil => simp
      | cons y l ih =>
        intro hl
        rw [List.flatten_cons, List.length_append, List.length_cons]
        push_cast
        rw [ih (fun it hit => hl it (List.mem_cons_of_mem _ hit)), hl y (List.mem_cons_self ..)]
        rw [Int.toNat_of_nonneg he]; ring
    rw [this its h4, h3]
  rw [hlen, hep] at i1 i2 i3
  generalize hst : max (last + 1) 0 = start at *
  have hsum : start * episodes + ((iterations - start).toNat : ℤ) * episodes = max start iterations * episodes := by
    rcases le_total start iterations with hle | hle
    · rw [Int.toNat_of_nonneg (by omega), max_eq_right hle]; ring
    · rw [Int.toNat_of_nonpos (by omega), max_eq_left hle]; simp
  rw [hsum] at i1 i2 i3
  have hge : iterations * episodes ≤ max start iterations * episodes := mul_le_mul_of_nonneg_right (le_max_right _ _) he
  refine ⟨c1, g1, i1, fun e h1 h2 => ?_, fun e hout => ?_⟩
  · obtain ⟨t, a, _, j2⟩ := i2 e ⟨h1, by omega⟩
    rw [j2]; simp
  · apply i3
    rcases hout with hout | hout
    · omega
    · rcases le_total start iterations with hle | hle
      · rw [max_eq_right hle]; omega
      · rw [max_eq_left hle]; omega

/-- A saver for the toy agent: the directory is the list of saved iterations; the latest is the first. -/
def toySaver : Saver Unit (List ℤ) where
  save i _ d := (i :: d, .ok ())
  reload d s := (s, .ok (d.headD (-1)))

/-- Iteration 0 is there already; of three iterations with two episodes each, 1 and 2 are run and saved, and the
records 2, …, 5 are written: four episodes of one step each take the environment from 5 to 1. -/
example : ∃ x', runTraining toyEnv toyAgent toySaver Obj.on
      (fun e => [.pickle { episode := e, stats := none, files := fun _ => none }]) 1 1 2 3 5 () [0] =
        (x', [2, 1, 0], .ok ()) ∧ x'.env = 1 := by
  have e : Int.toNat 1 = 0 + 1 := rfl
  have e' : Int.toNat 2 = 0 + 1 + 1 := rfl
  refine ⟨?_, ?_, ?_⟩
  rotate_left
  · unfold runTraining
    norm_num [Run.send, dispatch, Obj.on, Pickle.on, toyEnv, toyAgent, toySaver, e, e', episodeLoop, runEpisode, runEpisodes,
      runIterations]
    rfl
  · rfl

end BLE
