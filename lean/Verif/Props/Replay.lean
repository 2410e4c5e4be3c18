import Verif.Model.Replay
import Verif.Props.Agents
import Verif.Props.Train

/-!
# C149: what the learning agents learn from
-/

namespace BLE

variable {V S K P O X C D : Type}

/-! ## Flights and true samples -/

/-- The steps of the environment from a state on: every step before the last is not terminal; the environment may be rendered in between. -/
inductive Spec.Route (G : GymEnv V) : V → List (ℤ × StepOut) → Prop
  | nil (v : V) : Spec.Route G v []
  | cons {v v1 v2 : V} {a : ℤ} {out : StepOut} {t : List (ℤ × StepOut)} (hstep : G.step a v = (v1, .ok out))
      (ht : t = [] ∨ out.terminal = false) (hr : v2 = v1 ∨ v2 = G.render v1) (rest : Spec.Route G v2 t) : Spec.Route G v ((a, out) :: t)

/-- A flight: the first observation after a reset and the steps. -/
def Spec.Sortie (G : GymEnv V) (f : List ℝ × List (ℤ × StepOut)) : Prop := ∃ v v0, G.reset v = (v0, .ok f.1) ∧ Spec.Route G v0 f.2

/-- Observation number `k` of a flight. -/
def Spec.obsAt (f : List ℝ × List (ℤ × StepOut)) (k : ℕ) : List ℝ := (f.1 :: f.2.map (·.2.obs)).getD k []

/-- A true `n`-step transition of the flight: from step `k` on, `n` steps none of which is terminal, or at most `n` up to the terminal
one. -/
def Spec.TrueSample (γ : ℝ) (n : ℕ) (f : List ℝ × List (ℤ × StepOut)) (x : NStep) : Prop :=
  ∃ k m, 0 < m ∧ m ≤ n ∧ k + m ≤ f.2.length ∧ x.obs = Spec.obsAt f k ∧ (∀ y, f.2[k]? = some y → x.action = y.1) ∧
    x.reward = ∑ j ∈ Finset.range m, γ ^ j * ((f.2[k + j]?.map (·.2.reward)).getD 0) ∧
    ((x.terminal = false ∧ m = n ∧ x.nextObs = Spec.obsAt f (k + n) ∧ ∀ j < n, ∀ y, f.2[k + j]? = some y → y.2.terminal = false) ∨
      (x.terminal = true ∧ ∃ y, f.2[k + m - 1]? = some y ∧ y.2.terminal = true))

/-! ## What an episode adds to the memory -/

/-- One entry for every step. -/
def Spec.entries : List ℝ → List (ℤ × StepOut) → List Stored
  | _, [] => []
  | o, x :: t => ⟨o, x.1, x.2.reward, x.2.terminal, x.2.terminal⟩ :: Spec.entries x.2.obs t

theorem train_keeps (N : DopaNet K P O) (d : Dopa K P O) : (d.trainStep N).1.memory = d.memory ∧ (d.trainStep N).1.obs = d.obs ∧
    (d.trainStep N).1.eval = d.eval := by
  unfold Dopa.trainStep
  simp only
  split <;> simp

theorem begin_keeps (N : DopaNet K P O) (d : Dopa K P O) (o : List ℝ) : (d.begin N o).1.memory = d.memory ∧
    (d.begin N o).1.obs = o ∧ (d.begin N o).1.eval = d.eval := by
  unfold Dopa.begin Dopa.select
  have h := train_keeps N { d with obs := o }
  simp only at h
  split_ifs
  · simp
  · simp only
    split <;> simp [h]

theorem step_adds (N : DopaNet K P O) (d : Dopa K P O) (a : ℤ) (r : ℝ) (o : List ℝ) (he : d.eval = false) :
    (d.step N a r o).1.memory = d.memory ++ [⟨d.obs, a, r, false, false⟩] ∧ (d.step N a r o).1.obs = o ∧
    (d.step N a r o).1.eval = false := by
  unfold Dopa.step Dopa.select
  rw [he]
  have h := train_keeps N { d with obs := o, eval := false, memory := d.memory ++ [(⟨d.obs, a, r, false, false⟩ : Stored)] }
  simp only [Bool.false_eq_true, if_false]
  simp only at h
  split <;> simp [h]

theorem agent_begin (N : DopaNet K P O) (E : Explorer X) (s s' : Quantile (Dopa K P O) X) (o : List ℝ) (a : ℤ)
    (h : (dopamineAgent N E).beginEpisode s o = (s', .ok a)) :
    s'.core = (s.core.begin N o).1 ∧ s'.action = a ∧ s'.eval = s.eval := by
  simp only [dopamineAgent, quantileAgent] at h
  rcases hc : (s.core.begin N o).2 with e | b
  · rw [hc] at h; cases h
  rw [hc] at h
  simp only at h
  split_ifs at h with he
  · simp only [Prod.mk.injEq, Except.ok.injEq] at h
    obtain ⟨rfl, rfl⟩ := h
    exact ⟨rfl, rfl, rfl⟩
  · rcases hx : (E.beginEpisode s.explorer o b).2 with e | c
    · rw [hx] at h; cases h
    · rw [hx] at h
      simp only [Prod.mk.injEq, Except.ok.injEq] at h
      obtain ⟨rfl, rfl⟩ := h
      exact ⟨rfl, rfl, rfl⟩

theorem agent_step (N : DopaNet K P O) (E : Explorer X) (s s' : Quantile (Dopa K P O) X) (r : ℝ) (o : List ℝ) (a : ℤ)
    (h : (dopamineAgent N E).step s r o = (s', .ok a)) :
    s'.core = (s.core.step N s.action r o).1 ∧ s'.action = a ∧ s'.eval = s.eval := by
  simp only [dopamineAgent, quantileAgent] at h
  rcases hc : (s.core.step N s.action r o).2 with e | b
  · rw [hc] at h; cases h
  rw [hc] at h
  simp only at h
  split_ifs at h with he
  · simp only [Prod.mk.injEq, Except.ok.injEq] at h
    obtain ⟨rfl, rfl⟩ := h
    exact ⟨rfl, rfl, rfl⟩
  · rcases hx : (E.step s.explorer r o b).2 with e | c
    · rw [hx] at h; cases h
    · rw [hx] at h
      simp only [Prod.mk.injEq, Except.ok.injEq] at h
      obtain ⟨rfl, rfl⟩ := h
      exact ⟨rfl, rfl, rfl⟩

/-- The entry added at the end of an episode that ran out of steps. -/
def Spec.extra (f : List ℝ × List (ℤ × StepOut)) (a : ℤ) : List Stored :=
  if Spec.lastTerminal f.2 then [] else [⟨Spec.obsAt f f.2.length, a, Spec.lastReward f.2, false, true⟩]

theorem steps_memory (G : GymEnv V) (N : DopaNet K P O) (E : Explorer X) {v v' : V} {s s' : Quantile (Dopa K P O) X} {a a' : ℤ}
    {t : List (ℤ × StepOut)} (h : Spec.Steps G (dopamineAgent N E) v s a t v' s' a') (he : s.core.eval = false) (ha : s.action = a) :
    Spec.Route G v t ∧ s'.core.eval = false ∧ s'.eval = s.eval ∧
    s'.core.memory ++ [⟨s'.core.obs, s'.action, Spec.lastReward t, Spec.lastTerminal t, true⟩] =
      s.core.memory ++ Spec.entries s.core.obs t ++ Spec.extra (s.core.obs, t) a' := by
  induction h with
  | nil v s a => exact ⟨.nil _, he, rfl, by simp [Spec.entries, Spec.extra, Spec.lastTerminal, Spec.lastReward, Spec.obsAt, ha]⟩
  | @last v v1 v2 s a out hstep ht hr =>
    refine ⟨.cons hstep (.inl rfl) hr (.nil _), he, rfl, ?_⟩
    simp [Spec.entries, Spec.extra, Spec.lastTerminal, Spec.lastReward, ht, ha]
  | @cons v v1 v2 v3 s s1 s3 a a1 a3 out t hstep ht hr hA rest ih =>
    obtain ⟨q1, q2, q3⟩ := agent_step N E _ _ _ _ _ hA
    obtain ⟨m1, m2, m3⟩ := step_adds N s.core s.action out.reward out.obs he
    rw [← q1] at m1 m2 m3
    obtain ⟨r0, r1, r2, r3⟩ := ih m3 q2
    refine ⟨.cons hstep (.inr ht) hr r0, r1, r2.trans q3, ?_⟩
    have hL : Spec.lastTerminal ((a, out) :: t) = Spec.lastTerminal t := by
      rw [lastTerminal_cons]
      split_ifs with h
      · subst h; simp [ht, Spec.lastTerminal]
      · rfl
    by_cases htn : t = []
    · subst htn
      cases rest
      simp [Spec.entries, Spec.extra, Spec.lastTerminal, Spec.lastReward, Spec.obsAt, ht, m1, m2, ha, q2]
    · have hR : Spec.lastReward ((a, out) :: t) = Spec.lastReward t := by rw [lastReward_cons, if_neg htn]
      rw [hL, hR, r3, m1, m2, ha]
      simp only [Spec.entries, Spec.extra, hL, hR, ht, Spec.obsAt, List.length_cons, List.map_cons, List.getD_cons_succ,
        List.append_assoc, List.cons_append, List.nil_append]

theorem episode_memory (G : GymEnv V) (N : DopaNet K P O) (E : Explorer X) (maxLen : ℤ) {v v' : V} {s s' : Quantile (Dopa K P O) X}
    {t : List (ℤ × StepOut)} {a : ℤ} (hm : 0 ≤ maxLen) (he : s.core.eval = false)
    (h : Spec.Episode' G (dopamineAgent N E) maxLen v s t a v' s') :
    ∃ o, Spec.Sortie G (o, t) ∧ (t.length : ℤ) ≤ maxLen ∧ (Spec.lastTerminal t = false → (t.length : ℤ) = maxLen) ∧
      s'.core.eval = false ∧ s'.core.memory = s.core.memory ++ (Spec.entries o t ++ Spec.extra (o, t) a) := by
  obtain ⟨v0, obs, s0, a0, s1, h1, h2, h3, h4, h5, h6⟩ := h
  obtain ⟨q1, q2, q3⟩ := agent_begin N E _ _ _ _ h2
  obtain ⟨m1, m2, m3⟩ := begin_keeps N s.core obs
  rw [← q1] at m1 m2 m3
  obtain ⟨r0, r1, r2, r3⟩ := steps_memory G N E h3 (m3.trans he) q2
  refine ⟨obs, ⟨_, v0, h1, r0⟩, by omega, fun hl => by have := h6 hl; omega, ?_, ?_⟩
  · rw [h4]
    simp [dopamineAgent, quantileAgent, Dopa.finish, r1]
  · rw [h4]
    simp only [dopamineAgent, quantileAgent, Dopa.finish, r1, Bool.false_eq_true, if_false]
    rw [r3, m1, m2, List.append_assoc]

/-- C149. A training flight adds to the memory one entry for every step, in order, with the observation the action was chosen on, the action
flown and the reward received for it; and, if the flight was cut off by the limit on its length, an extra entry with the last observation
and the action that was not flown any more, marked as the end of an episode that is not terminal. -/
theorem C149_memory (G : GymEnv V) (N : DopaNet K P O) (E : Explorer X) (on : Collectors C) (maxLen period : ℤ) (hm : 0 ≤ maxLen)
    (x x' : Run V (Quantile (Dopa K P O) X) C) (he : x.agent.core.eval = false)
    (h : runEpisode G (dopamineAgent N E) on maxLen period x = (x', .ok ())) :
    ∃ f a, Spec.Sortie G f ∧ (f.2.length : ℤ) ≤ maxLen ∧ (Spec.lastTerminal f.2 = false → (f.2.length : ℤ) = maxLen) ∧
      x'.agent.core.eval = false ∧ x'.agent.core.memory = x.agent.core.memory ++ (Spec.entries f.1 f.2 ++ Spec.extra f a) := by
  obtain ⟨t, a, h', -⟩ := runEpisode_spec G _ on maxLen period hm x x' h
  obtain ⟨o, q⟩ := episode_memory G N E maxLen hm he h'
  exact ⟨(o, t), a, q⟩

/-! ## What can be sampled -/

theorem entries_length (o : List ℝ) (t : List (ℤ × StepOut)) : (Spec.entries o t).length = t.length := by
  induction t generalizing o with
  | nil => rfl
  | cons x t ih => simp [Spec.entries, ih]

theorem entries_get (o : List ℝ) (t : List (ℤ × StepOut)) (p : ℕ) (y : ℤ × StepOut) (h : t[p]? = some y) :
    (Spec.entries o t)[p]? = some ⟨Spec.obsAt (o, t) p, y.1, y.2.reward, y.2.terminal, y.2.terminal⟩ := by
  induction t generalizing o p with
  | nil => simp at h
  | cons x t ih =>
    cases p with
    | zero => simp at h; subst h; simp [Spec.entries, Spec.obsAt]
    | succ p =>
      rw [List.getElem?_cons_succ] at h
      simp only [Spec.entries, List.getElem?_cons_succ]
      rw [ih x.2.obs p h]
      simp [Spec.obsAt]

theorem route_end {G : GymEnv V} {v : V} {t : List (ℤ × StepOut)} (h : Spec.Route G v t) (p : ℕ) (y : ℤ × StepOut)
    (hp : t[p]? = some y) (hy : y.2.terminal = true) : p + 1 = t.length := by
  induction h generalizing p with
  | nil => simp at hp
  | @cons v v1 v2 a out t hstep ht hr rest ih =>
    cases p with
    | zero =>
      simp at hp
      subst hp
      rcases ht with rfl | ht
      · rfl
      · rw [ht] at hy; cases hy
    | succ p =>
      rw [List.getElem?_cons_succ] at hp
      rw [List.length_cons, ← ih p hp]

theorem last_terminal_true {t : List (ℤ × StepOut)} (h : Spec.lastTerminal t = true) :
    ∃ y, t[t.length - 1]? = some y ∧ y.2.terminal = true ∧ 0 < t.length := by
  unfold Spec.lastTerminal at h
  rcases hl : t.getLast? with _ | y
  · rw [hl] at h; simp at h
  · rw [hl] at h
    refine ⟨y, by rw [← List.getLast?_eq_getElem?, hl], by simpa using h, ?_⟩
    rcases t with _ | _
    · simp at hl
    · simp

theorem last_terminal_false {G : GymEnv V} {v : V} {t : List (ℤ × StepOut)} (hr : Spec.Route G v t) (h : Spec.lastTerminal t = false)
    (p : ℕ) (y : ℤ × StepOut) (hp : t[p]? = some y) : y.2.terminal = false := by
  by_contra hy
  rw [Bool.not_eq_false] at hy
  have e := route_end hr p y hp hy
  unfold Spec.lastTerminal at h
  rw [List.getLast?_eq_getElem?, ← e, Nat.add_sub_cancel, hp] at h
  simp [hy] at h

theorem trajectory_le (e : ℕ → Stored) (n : ℕ) : trajectoryLength e n ≤ n := by
  induction n generalizing e with
  | zero => exact le_rfl
  | succ n ih =>
    unfold trajectoryLength
    split_ifs
    · omega
    · have := ih fun j => e (j + 1); omega

theorem trajectory_congr (e e' : ℕ → Stored) (n : ℕ) (h : ∀ j < n, e j = e' j) : trajectoryLength e n = trajectoryLength e' n := by
  induction n generalizing e e' with
  | zero => rfl
  | succ n ih =>
    unfold trajectoryLength
    rw [h 0 (by omega), ih (fun j => e (j + 1)) (fun j => e' (j + 1)) fun j hj => h (j + 1) (by omega)]

theorem trajectory_full (e : ℕ → Stored) (n : ℕ) (h : ∀ j < n, (e j).terminal = false) : trajectoryLength e n = n := by
  induction n generalizing e with
  | zero => rfl
  | succ n ih =>
    unfold trajectoryLength
    rw [h 0 (by omega), ih (fun j => e (j + 1)) fun j hj => h (j + 1) (by omega)]
    simp

theorem trajectory_cut (e : ℕ → Stored) (n q : ℕ) (hq : q < n) (h : ∀ j < q, (e j).terminal = false) (ht : (e q).terminal = true) :
    trajectoryLength e n = q + 1 := by
  induction n generalizing e q with
  | zero => omega
  | succ n ih =>
    unfold trajectoryLength
    cases q with
    | zero => rw [ht]; simp
    | succ q =>
      rw [h 0 (by omega), ih (fun j => e (j + 1)) q (by omega) (fun j hj => h (j + 1) (by omega)) ht]
      simp

theorem sample_congr (γ : ℝ) (n : ℕ) (m m' : List Stored) (i i' : ℕ) (h : ∀ j ≤ n, m.getD (i + j) default = m'.getD (i' + j) default) :
    nStepSample γ n m i = nStepSample γ n m' i' := by
  have ht : trajectoryLength (fun j => m.getD (i + j) default) n = trajectoryLength (fun j => m'.getD (i' + j) default) n :=
    trajectory_congr _ _ _ fun j hj => h j hj.le
  have hle := trajectory_le (fun j => m'.getD (i' + j) default) n
  unfold nStepSample
  simp only
  rw [ht]
  congr 1
  · rw [h 0 (by omega)]
  · rw [h 0 (by omega)]
  · apply Finset.sum_congr rfl
    intro j hj
    rw [Finset.mem_range] at hj
    rw [h j (by omega)]
  · rw [h _ hle]
  · rw [Bool.eq_iff_iff]
    simp only [List.any_eq_true, List.mem_range]
    constructor
    · rintro ⟨j, hj, hh⟩; exact ⟨j, hj, by rw [← h j hj.le]; exact hh⟩
    · rintro ⟨j, hj, hh⟩; exact ⟨j, hj, by rw [h j hj.le]; exact hh⟩

theorem sample_true {G : GymEnv V} (γ : ℝ) (n : ℕ) (hn : 0 < n) (o : List ℝ) (t : List (ℤ × StepOut)) (a : ℤ) {v : V}
    (hr : Spec.Route G v t) (rest : List Stored) (k : ℕ) (hk : k < (Spec.entries o t ++ Spec.extra (o, t) a).length)
    (hv : ∀ j < n, ((Spec.entries o t ++ Spec.extra (o, t) a ++ rest).getD (k + j) default).episodeEnd = true →
      ((Spec.entries o t ++ Spec.extra (o, t) a ++ rest).getD (k + j) default).terminal = true) :
    Spec.TrueSample γ n (o, t) (nStepSample γ n (Spec.entries o t ++ Spec.extra (o, t) a ++ rest) k) := by
  have hg : ∀ p y, t[p]? = some y → (Spec.entries o t ++ Spec.extra (o, t) a ++ rest).getD p default =
      ⟨Spec.obsAt (o, t) p, y.1, y.2.reward, y.2.terminal, y.2.terminal⟩ := by
    intro p y hp
    have hlt : p < t.length := (List.getElem?_eq_some_iff.1 hp).1
    rw [List.getD_eq_getElem?_getD, List.append_assoc, List.getElem?_append_left (by rw [entries_length]; exact hlt), entries_get o t p y hp]
    rfl
  have hy : ∀ p, p < t.length → ∃ y, t[p]? = some y := fun p hp => ⟨t[p], List.getElem?_eq_getElem hp⟩
  have hx : Spec.lastTerminal t = false → (Spec.entries o t ++ Spec.extra (o, t) a ++ rest).getD t.length default =
      ⟨Spec.obsAt (o, t) t.length, a, Spec.lastReward t, false, true⟩ := by
    intro hl
    unfold Spec.extra
    simp only [hl, Bool.false_eq_true, if_false]
    rw [List.getD_eq_getElem?_getD, List.append_assoc, List.getElem?_append_right (by rw [entries_length]), entries_length, Nat.sub_self]
    rfl
  generalize hM : Spec.entries o t ++ Spec.extra (o, t) a ++ rest = M at *
  have hsum : ∀ m, k + m ≤ t.length → ∑ j ∈ Finset.range m, γ ^ j * (M.getD (k + j) default).reward =
      ∑ j ∈ Finset.range m, γ ^ j * ((t[k + j]?.map (·.2.reward)).getD 0) := by
    intro m hm
    apply Finset.sum_congr rfl
    intro j hj
    rw [Finset.mem_range] at hj
    obtain ⟨y, hy⟩ := hy (k + j) (by omega)
    rw [hg _ _ hy, hy]
    rfl
  cases hl : Spec.lastTerminal t
  · have hnt := last_terminal_false hr hl
    rw [List.length_append, entries_length] at hk
    simp only [Spec.extra, hl, Bool.false_eq_true, if_false, List.length_singleton] at hk
    have hkn : k + n ≤ t.length := by
      by_contra hc
      have := hv (t.length - k) (by omega)
      rw [show k + (t.length - k) = t.length by omega, hx hl] at this
      simp at this
    have hno : ∀ j < n, (M.getD (k + j) default).terminal = false := by
      intro j hj
      obtain ⟨y, hy⟩ := hy (k + j) (by omega)
      rw [hg _ _ hy]
      exact hnt _ _ hy
    have hm := trajectory_full (fun j => M.getD (k + j) default) n hno
    refine ⟨k, n, hn, le_rfl, hkn, ?_, ?_, ?_, .inl ⟨?_, rfl, ?_, fun j hj y hy => hnt _ _ hy⟩⟩
    · obtain ⟨y, hy⟩ := hy k (by omega)
      unfold nStepSample
      simp only [Nat.add_zero]
      rw [hg _ _ hy]
    · intro y hy
      unfold nStepSample
      simp only [Nat.add_zero]
      rw [hg _ _ hy]
    · unfold nStepSample
      simp only [hm]
      exact hsum n hkn
    · unfold nStepSample
      simp only [List.any_eq_false, List.mem_range]
      intro j hj
      rw [hno j hj]
      simp
    · unfold nStepSample
      simp only [hm]
      rcases Nat.lt_or_ge (k + n) t.length with h | h
      · obtain ⟨y, hy⟩ := hy (k + n) h
        rw [hg _ _ hy]
      · rw [show k + n = t.length by omega, hx hl]
  · obtain ⟨y, hy1, hy2, hy3⟩ := last_terminal_true hl
    have hkT : k < t.length := by
      rw [List.length_append, entries_length] at hk
      simpa [Spec.extra, hl] using hk
    have hbefore : ∀ p, p + 1 < t.length → (M.getD p default).terminal = false := by
      intro p hp
      obtain ⟨z, hz⟩ := hy p (by omega)
      rw [hg _ _ hz]
      by_contra hc
      have := route_end hr p z hz (by simpa using hc)
      omega
    have ho : (M.getD k default).obs = Spec.obsAt (o, t) k := by
      obtain ⟨z, hz⟩ := hy k hkT
      rw [hg _ _ hz]
    have hact : ∀ z, t[k]? = some z → (M.getD k default).action = z.1 := by
      intro z hz
      rw [hg _ _ hz]
    rcases Nat.lt_or_ge (k + n) t.length with hkn | hkn
    · have hno : ∀ j < n, (M.getD (k + j) default).terminal = false := fun j hj => hbefore _ (by omega)
      have hm := trajectory_full (fun j => M.getD (k + j) default) n hno
      refine ⟨k, n, hn, le_rfl, hkn.le, ho, hact, ?_, .inl ⟨?_, rfl, ?_, ?_⟩⟩
      · unfold nStepSample
        simp only [hm]
        exact hsum n hkn.le
      · unfold nStepSample
        simp only [List.any_eq_false, List.mem_range]
        intro j hj
        rw [hno j hj]
        simp
      · unfold nStepSample
        simp only [hm]
        obtain ⟨z, hz⟩ := hy (k + n) hkn
        rw [hg _ _ hz]
      · intro j hj z hz
        have := hno j hj
        rw [hg _ _ hz] at this
        exact this
    · have hq : (M.getD (k + (t.length - 1 - k)) default).terminal = true := by
        rw [show k + (t.length - 1 - k) = t.length - 1 by omega, hg _ _ hy1]
        exact hy2
      have hm := trajectory_cut (fun j => M.getD (k + j) default) n (t.length - 1 - k) (by omega)
        (fun j hj => hbefore _ (by omega)) hq
      refine ⟨k, t.length - 1 - k + 1, by omega, by omega, by simp only; omega, ho, hact, ?_, .inr ⟨?_, y, ?_, hy2⟩⟩
      · unfold nStepSample
        simp only [hm]
        exact hsum _ (by omega)
      · unfold nStepSample
        simp only [List.any_eq_true, List.mem_range]
        exact ⟨_, by omega, hq⟩
      · rw [show k + (t.length - 1 - k + 1) - 1 = t.length - 1 by omega]
        exact hy1

/-- The memory after flights with pending actions at their ends. -/
def Spec.memoryOf (fs : List ((List ℝ × List (ℤ × StepOut)) × ℤ)) : List Stored :=
  fs.flatMap fun g => Spec.entries g.1.1 g.1.2 ++ Spec.extra g.1 g.2

theorem samples_true {G : GymEnv V} (γ : ℝ) (n : ℕ) (hn : 0 < n) (fs : List ((List ℝ × List (ℤ × StepOut)) × ℤ))
    (hf : ∀ g ∈ fs, Spec.Sortie G g.1) (i : ℕ) (hi : i < (Spec.memoryOf fs).length)
    (hv : ∀ j < n, ((Spec.memoryOf fs).getD (i + j) default).episodeEnd = true → ((Spec.memoryOf fs).getD (i + j) default).terminal = true) :
    ∃ g ∈ fs, Spec.TrueSample γ n g.1 (nStepSample γ n (Spec.memoryOf fs) i) := by
  induction fs generalizing i with
  | nil => simp [Spec.memoryOf] at hi
  | cons g fs ih =>
    have e : Spec.memoryOf (g :: fs) = Spec.entries g.1.1 g.1.2 ++ Spec.extra g.1 g.2 ++ Spec.memoryOf fs := by
      simp [Spec.memoryOf]
    rw [e] at hi hv ⊢
    rcases Nat.lt_or_ge i (Spec.entries g.1.1 g.1.2 ++ Spec.extra g.1 g.2).length with h | h
    · obtain ⟨v, v0, -, hr⟩ := hf g (by simp)
      exact ⟨g, by simp, sample_true γ n hn g.1.1 g.1.2 g.2 hr _ i h hv⟩
    · have hs : ∀ j, (Spec.entries g.1.1 g.1.2 ++ Spec.extra g.1 g.2 ++ Spec.memoryOf fs).getD (i + j) default =
          (Spec.memoryOf fs).getD (i - (Spec.entries g.1.1 g.1.2 ++ Spec.extra g.1 g.2).length + j) default := by
        intro j
        rw [List.getD_eq_getElem?_getD, List.getElem?_append_right (by omega), List.getD_eq_getElem?_getD]
        congr 2
        omega
      rw [List.length_append] at hi
      obtain ⟨q, hq1, hq2⟩ := ih (fun g hg => hf g (by simp [hg])) (i - (Spec.entries g.1.1 g.1.2 ++ Spec.extra g.1 g.2).length)
        (by omega) (fun j hj => by rw [← hs j]; exact hv j hj)
      exact ⟨q, by simp [hq1], by rw [sample_congr γ n _ _ i _ fun j _ => hs j]; exact hq2⟩

theorem played_memory (G : GymEnv V) (N : DopaNet K P O) (E : Explorer X) (on : Collectors C) (maxLen : ℤ) (hm : 0 ≤ maxLen)
    {ts : List (List (ℤ × StepOut) × ℤ)} {x x' : Run V (Quantile (Dopa K P O) X) C} (he : x.agent.core.eval = false)
    (h : Spec.Played G (dopamineAgent N E) on maxLen ts x x') :
    ∃ fs : List ((List ℝ × List (ℤ × StepOut)) × ℤ), fs.map (fun g => (g.1.2, g.2)) = ts ∧ (∀ g ∈ fs, Spec.Sortie G g.1) ∧
      x'.agent.core.eval = false ∧ x'.agent.core.memory = x.agent.core.memory ++ Spec.memoryOf fs := by
  induction h with
  | nil x => exact ⟨[], rfl, by simp, he, by simp [Spec.memoryOf]⟩
  | @cons x x1 x2 t a ts hE hc rest ih =>
    obtain ⟨o, q1, -, -, q2, q3⟩ := episode_memory G N E maxLen hm he hE
    obtain ⟨fs, r1, r2, r3, r4⟩ := ih q2
    refine ⟨((o, t), a) :: fs, by simp [r1], ?_, r3, ?_⟩
    · intro g hg
      rcases List.mem_cons.1 hg with rfl | hg
      · exact q1
      · exact r2 g hg
    · rw [r4, q3]
      simp [Spec.memoryOf]

theorem trained_memory (G : GymEnv V) (N : DopaNet K P O) (E : Explorer X) (Z : Saver (Quantile (Dopa K P O) X) D) (on : Collectors C)
    (maxLen : ℤ) (hm : 0 ≤ maxLen) {i : ℤ} {its : List (List (List (ℤ × StepOut) × ℤ))} {x x' : Run V (Quantile (Dopa K P O) X) C}
    {d d' : D} (he : x.agent.core.eval = false) (h : Spec.Trained G (dopamineAgent N E) Z on maxLen i its x d x' d') :
    ∃ fs : List ((List ℝ × List (ℤ × StepOut)) × ℤ), fs.map (fun g => (g.1.2, g.2)) = its.flatten ∧ (∀ g ∈ fs, Spec.Sortie G g.1) ∧
      x'.agent.core.memory = x.agent.core.memory ++ Spec.memoryOf fs := by
  induction h with
  | nil => exact ⟨[], rfl, by simp, by simp [Spec.memoryOf]⟩
  | cons hp hs rest ih =>
    obtain ⟨fs, q1, q2, q3, q4⟩ := played_memory G N E on maxLen hm he hp
    obtain ⟨fs', r1, r2, r3⟩ := ih q3
    refine ⟨fs ++ fs', by simp [q1, r1], ?_, ?_⟩
    · intro g hg
      rcases List.mem_append.1 hg with hg | hg
      · exact q2 g hg
      · exact r2 g hg
    · rw [r3, q4]
      simp [Spec.memoryOf]

/-- C149. Whatever the Dopamine agents can sample at any time during a training run is a true `n`-step transition of one of its flights:
observation, the action flown on it, the discounted rewards of the next steps, and the observation after `n` steps, or fewer rewards up to
the terminal step. Neither the steps of different flights nor the extra entries of flights that were cut off are ever mixed in. (The
agent starts with an empty memory.) -/
theorem C149_samples (G : GymEnv V) (N : DopaNet K P O) (E : Explorer X) (Z : Saver (Quantile (Dopa K P O) X) D) (on : Collectors C)
    (mk : ℤ → List C) (maxLen period episodes iterations : ℤ) (hm : 0 ≤ maxLen) (hn : 0 < N.horizon) (v : V)
    (s : Quantile (Dopa K P O) X) (d d' : D) (hs : (Z.reload d s).1.core.memory = []) (x' : Run V (Quantile (Dopa K P O) X) C)
    (h : runTraining G (dopamineAgent N E) Z on mk maxLen period episodes iterations v s d = (x', d', .ok ())) :
    ∃ fs : List (List ℝ × List (ℤ × StepOut)), (∀ f ∈ fs, Spec.Sortie G f) ∧
      ∀ memory capacity i, memory <+: x'.agent.core.memory → validIndex capacity N.horizon memory i →
        ∃ f ∈ fs, Spec.TrueSample N.γ N.horizon f (nStepSample N.γ N.horizon memory i) := by
  unfold runTraining at h
  simp only [Run.send] at h
  rcases hq : (Z.reload d s).2 with e | last
  · rw [hq] at h; simp at h
  rw [hq] at h
  simp only at h
  rcases hp : dispatch on .preTraining (mk (max (last + 1) 0 * episodes)) with ⟨cs, _ | u⟩
  · rw [hp] at h; simp at h
  rw [hp] at h
  simp only at h
  generalize hx : ({ env := v, agent := (dopamineAgent N E).setMode (Z.reload d s).1 true, cols := cs } :
    Run V (Quantile (Dopa K P O) X) C) = x at h
  rcases hr : runIterations G (dopamineAgent N E) Z on maxLen period episodes (iterations - max (last + 1) 0).toNat (max (last + 1) 0)
    x d with ⟨x1, d1, _ | u⟩
  · rw [hr] at h; simp at h
  rw [hr] at h
  simp only [Prod.mk.injEq] at h
  obtain ⟨h1, -, -⟩ := h
  obtain ⟨its, -, -, hT⟩ := runIterations_spec G _ Z on maxLen period episodes hm _ _ _ _ _ _ hr
  obtain ⟨fs, -, q2, q3⟩ := trained_memory G N E Z on maxLen hm (by rw [← hx]; rfl) hT
  have hmem : x'.agent.core.memory = Spec.memoryOf fs := by
    rw [← h1]
    simp only
    rw [q3, ← hx]
    simp only [dopamineAgent]
    rw [hs]
    rfl
  refine ⟨fs.map (·.1), ?_, ?_⟩
  · intro f hf
    obtain ⟨g, hg, rfl⟩ := List.mem_map.1 hf
    exact q2 g hg
  · intro memory capacity i hpre hv
    rw [hmem] at hpre
    obtain ⟨tl, htl⟩ := hpre
    obtain ⟨-, v1, v2⟩ := hv
    have hg : ∀ j ≤ N.horizon, memory.getD (i + j) default = (Spec.memoryOf fs).getD (i + j) default := by
      intro j hj
      rw [← htl, List.getD_eq_getElem?_getD, List.getD_eq_getElem?_getD, List.getElem?_append_left (by omega)]
    obtain ⟨g, g1, g2⟩ := samples_true N.γ N.horizon hn fs q2 i (by rw [← htl, List.length_append]; omega)
      (fun j hj => by rw [← hg j hj.le]; exact v2 j hj)
    exact ⟨g.1, List.mem_map.2 ⟨g, g1, rfl⟩, by rw [sample_congr N.γ N.horizon memory _ i i hg]; exact g2⟩

/-! ## Evaluation -/

theorem evalLoop_keeps (G : GymEnv V) (A : Agent S) (I : S → Prop) (hI : ∀ s r o, I s → I (A.step s r o).1) (period : ℤ) (paths : Bool)
    (n : ℕ) : ∀ v s a k, I s → I (evalLoop G A period paths n v s a k).2.1 := by
  induction n with
  | zero => intro v s a k h; exact h
  | succ n ih =>
    intro v s a k h
    rw [evalLoop]
    simp only
    split
    · exact h
    · split
      · exact hI _ _ _ h
      · split
        · exact hI _ _ _ h
        · split_ifs
          · exact hI _ _ _ h
          all_goals first | exact hI _ _ _ h | exact ih _ _ _ _ (hI _ _ _ h)

theorem evalAgent_keeps (G : GymEnv V) (A : Agent S) (I : S → Prop) (hb : ∀ s o, I s → I (A.beginEpisode s o).1)
    (hI : ∀ s r o, I s → I (A.step s r o).1) (he : ∀ s r t, I s → I (A.endEpisode s r t)) (suite : Suite) (period : ℤ) (paths : Bool)
    (v : V) (s : S) (h : I (A.setMode s false)) :
    (evalAgent G A suite period paths v s).2.1 = s ∨ I (evalAgent G A suite period paths v s).2.1 := by
  unfold evalAgent
  by_cases hm : suite.maxLen > 0
  swap
  · rw [if_pos hm]; exact .inl rfl
  · right
    rw [if_neg (by simpa using hm)]
    generalize A.setMode s false = s at h
    generalize suite.seeds = seeds
    induction seeds generalizing v s with
    | nil => exact h
    | cons seed seeds ih =>
      have hf : I (evalFlight G A suite.maxLen period paths seed v s).2.1 := by
        unfold evalFlight
        simp only
        split
        · exact h
        · split
          · exact hb _ _ h
          · have hl := fun o k a => evalLoop_keeps G A I hI period paths suite.maxLen.toNat (G.reset (G.seed seed v)).1 (A.beginEpisode s o).1 a k (hb s o h)
            split
            · exact hl _ _ _
            · split_ifs
              · exact hl _ _ _
              · split
                · exact hl _ _ _
                · exact he _ _ _ (hl _ _ _)
      rw [evalFlights]
      simp only
      split
      · exact hf
      · exact ih _ _ hf

/-- C149. Evaluating an agent, also if the evaluation raises, changes nothing of what the agent has learned: parameters, target parameters,
optimiser, step count, memory and exploration of the Dopamine agents; parameters and optimiser of the MLP agent. -/
theorem C149_evaluation (G : GymEnv V) (suite : Suite) (period : ℤ) (paths : Bool) (v : V) :
    (∀ (N : DopaNet K P O) (E : Explorer X) (s : Quantile (Dopa K P O) X),
      let s' := (evalAgent G (dopamineAgent N E) suite period paths v s).2.1
      s'.core.learner = s.core.learner ∧ s'.core.memory = s.core.memory ∧ s'.explorer = s.explorer) ∧
    ∀ (act : P → List ℝ → ℤ) (learn : P → O → List ℝ → ℤ → ℝ → List ℝ → ℤ → P × O) (s : Mlp P O),
      let s' := (evalAgent G (mlpAgent act learn) suite period paths v s).2.1
      s'.params = s.params ∧ s'.opt = s.opt := by
  constructor
  · intro N E s
    simp only
    have hsel : ∀ d : Dopa K P O, (d.select N).1.learner = d.learner ∧ (d.select N).1.memory = d.memory ∧ (d.select N).1.eval = d.eval :=
      fun d => ⟨rfl, rfl, rfl⟩
    refine Or.elim (evalAgent_keeps G (dopamineAgent N E) (fun s' => s'.core.learner = s.core.learner ∧ s'.core.memory = s.core.memory ∧
      s'.explorer = s.explorer ∧ s'.eval = true ∧ s'.core.eval = true) ?_ ?_ ?_ suite period paths v s ⟨rfl, rfl, rfl, rfl, rfl⟩)
      (fun h => by rw [h]; exact ⟨rfl, rfl, rfl⟩) (fun h => ⟨h.1, h.2.1, h.2.2.1⟩)
    · rintro x o ⟨h1, h2, h3, h4, h5⟩
      have hb : Dopa.begin N x.core o = Dopa.select N { x.core with obs := o } := by simp [Dopa.begin, h5]
      simp only [dopamineAgent, quantileAgent, hb, Dopa.select, h4, if_true]
      exact ⟨h1, h2, h3, by first | exact h4 | trivial, by first | exact h5 | trivial⟩
    · rintro x r o ⟨h1, h2, h3, h4, h5⟩
      have hb : Dopa.step N x.core x.action r o = Dopa.select N { x.core with obs := o } := by simp [Dopa.step, h5]
      simp only [dopamineAgent, quantileAgent, hb, Dopa.select, h4, if_true]
      exact ⟨h1, h2, h3, by first | exact h4 | trivial, by first | exact h5 | trivial⟩
    · rintro x r t ⟨h1, h2, h3, h4, h5⟩
      simp only [dopamineAgent, quantileAgent, Dopa.finish, h5, if_true]
      exact ⟨h1, h2, h3, by first | exact h4 | trivial, by first | exact h5 | trivial⟩
  · intro act learn s
    simp only
    refine Or.elim (evalAgent_keeps G (mlpAgent act learn) (fun s' => s'.params = s.params ∧ s'.opt = s.opt ∧ s'.train = false) ?_ ?_ ?_
      suite period paths v s ⟨rfl, rfl, rfl⟩) (fun h => by rw [h]; exact ⟨rfl, rfl⟩) (fun h => ⟨h.1, h.2.1⟩)
    · rintro x o h
      exact h
    · rintro x r o ⟨h1, h2, h3⟩
      simp only [mlpAgent, h3, Bool.false_eq_true, if_false]
      exact ⟨h1, h2, by first | exact h3 | trivial⟩
    · intro x r t h
      exact h

/-! ## The MLP agent -/

theorem steps_route {G : GymEnv V} {A : Agent S} {v v' : V} {s s' : S} {a a' : ℤ} {t : List (ℤ × StepOut)}
    (h : Spec.Steps G A v s a t v' s' a') : Spec.Route G v t := by
  induction h with
  | nil v s a => exact .nil _
  | last hstep ht hr => exact .cons hstep (.inl rfl) hr (.nil _)
  | cons hstep ht hr hA rest ih => exact .cons hstep (.inr ht) hr ih

theorem steps_episode (G : GymEnv V) (A : Agent S) (s : S) (o : List ℝ) {v v' : V} {s0 s1 : S} {a0 a1 : ℤ} {t : List (ℤ × StepOut)}
    (h : Spec.Steps G A v s0 a0 t v' s1 a1) : ∀ (xs : List (ℝ × List ℝ)) (as : List ℤ), Spec.Episode A s o xs s0 (as ++ [a0]) →
    ∃ as', Spec.Episode A s o (xs ++ ((if Spec.lastTerminal t then t.dropLast else t).map fun x => (x.2.reward, x.2.obs))) s1
      (as ++ as') ∧ as' = t.map (·.1) ++ (if Spec.lastTerminal t then [] else [a1]) := by
  induction h with
  | nil v s a => intro xs as h; exact ⟨[a], by simpa [Spec.lastTerminal] using h, by simp [Spec.lastTerminal]⟩
  | @last v v1 v2 s a out hstep ht hr =>
    intro xs as h
    exact ⟨[a], by simpa [Spec.lastTerminal, ht] using h, by simp [Spec.lastTerminal, ht]⟩
  | @cons v v1 v2 v3 s s1 s3 a a1 a3 out t hstep ht hr hA rest ih =>
    intro xs as h
    obtain ⟨as', q1, q2⟩ := ih (xs ++ [(out.reward, out.obs)]) (as ++ [a]) (.next h hA)
    have hL : Spec.lastTerminal ((a, out) :: t) = Spec.lastTerminal t := by
      rw [lastTerminal_cons]
      split_ifs with h
      · subst h; simp [ht, Spec.lastTerminal]
      · rfl
    refine ⟨a :: as', ?_, ?_⟩
    · rw [hL]
      have e : ((if Spec.lastTerminal t then ((a, out) :: t).dropLast else (a, out) :: t).map fun x => (x.2.reward, x.2.obs)) =
          (out.reward, out.obs) :: ((if Spec.lastTerminal t then t.dropLast else t).map fun x => (x.2.reward, x.2.obs)) := by
        split_ifs with hl
        · rcases t with _ | ⟨y, t⟩
          · simp [Spec.lastTerminal] at hl
          · simp
        · simp
      rw [e]
      simpa using q1
    · rw [hL, q2]
      simp

/-- C149. In a training flight the MLP agent makes one update for every step but a terminal one: update `i` from observation `i`, the action
flown on it, its reward, the next observation and the action chosen on that. So the step that ends a flight is never learned from. -/
theorem C149_mlp (G : GymEnv V) (act : P → List ℝ → ℤ) (learn : P → O → List ℝ → ℤ → ℝ → List ℝ → ℤ → P × O) (on : Collectors C)
    (maxLen period : ℤ) (hm : 0 ≤ maxLen) (x x' : Run V (Mlp P O) C) (ht : x.agent.train = true)
    (h : runEpisode G (mlpAgent act learn) on maxLen period x = (x', .ok ())) :
    ∃ (f : List ℝ × List (ℤ × StepOut)) (pending : ℤ) (θ : ℕ → P × O),
      let updates := if Spec.lastTerminal f.2 then f.2.length - 1 else f.2.length
      Spec.Sortie G f ∧ θ 0 = (x.agent.params, x.agent.opt) ∧ θ updates = (x'.agent.params, x'.agent.opt) ∧
      ∀ i < updates, ∀ y, f.2[i]? = some y → θ (i + 1) = learn (θ i).1 (θ i).2 (Spec.obsAt f i) y.1 y.2.reward (Spec.obsAt f (i + 1))
        ((f.2.map (·.1) ++ [pending]).getD (i + 1) 0) := by
  obtain ⟨t, a, ⟨v0, obs, s0, a0, s1, h1, h2, h3, h4, h5, h6⟩, -⟩ := runEpisode_spec G _ on maxLen period hm x x' h
  obtain ⟨as, q1, q2⟩ := steps_episode G _ x.agent obs h3 [] [] (.start h2)
  rw [List.nil_append, List.nil_append] at q1
  obtain ⟨θ, r1, r2, -, r3⟩ := C89_updates act learn _ _ ht _ _ _ q1
  have hs : x'.agent = s1 := by rw [h4]; rfl
  refine ⟨(obs, t), a, θ, ?_⟩
  simp only
  have hlen : ((if Spec.lastTerminal t then t.dropLast else t).map fun x => (x.2.reward, x.2.obs)).length =
      if Spec.lastTerminal t then t.length - 1 else t.length := by
    split_ifs <;> simp
  rw [hlen] at r2 r3
  rw [hs]
  refine ⟨⟨_, v0, h1, steps_route h3⟩, r1, r2, ?_⟩
  intro i hi y hy
  obtain ⟨r4, -⟩ := r3 i hi
  have hpre : ∀ j < (if Spec.lastTerminal t then t.length - 1 else t.length),
      ((if Spec.lastTerminal t then t.dropLast else t))[j]? = t[j]? := by
    intro j hj
    split_ifs at hj ⊢
    · rw [List.getElem?_dropLast, if_pos hj]
    · rfl
  have hobs : ∀ j ≤ (if Spec.lastTerminal t then t.length - 1 else t.length),
      Spec.obsOf obs ((if Spec.lastTerminal t then t.dropLast else t).map fun x => (x.2.reward, x.2.obs)) j = Spec.obsAt (obs, t) j := by
    intro j hj
    unfold Spec.obsOf Spec.obsAt
    cases j with
    | zero => rfl
    | succ j =>
      simp only [List.getD_eq_getElem?_getD, List.getElem?_cons_succ, List.getElem?_map]
      rw [hpre j (by omega)]
      cases t[j]? <;> rfl
  have hrew : (((if Spec.lastTerminal t then t.dropLast else t).map fun x => (x.2.reward, x.2.obs)).getD i (0, [])).1 = y.2.reward := by
    rw [List.getD_eq_getElem?_getD, List.getElem?_map, hpre i hi, hy]
    rfl
  have hlt : i < t.length := (List.getElem?_eq_some_iff.1 hy).1
  have ha1 : as.getD i 0 = y.1 := by
    rw [q2, List.getD_eq_getElem?_getD, List.getElem?_append_left (by simpa using hlt), List.getElem?_map, hy]
    rfl
  have ha2 : as.getD (i + 1) 0 = (t.map (·.1) ++ [a]).getD (i + 1) 0 := by
    rw [q2]
    split_ifs at hi ⊢ with hl
    · rw [List.append_nil, List.getD_eq_getElem?_getD, List.getD_eq_getElem?_getD, List.getElem?_append_left (by simp; omega)]
    · rfl
  rw [hobs i (by omega), hobs (i + 1) (by omega), hrew, ha1, ha2] at r4
  exact r4

/-! ## Examples -/

/-- A countdown whose observation is the number left and whose reward is the action. -/
noncomputable def tallyEnv : GymEnv ℤ where
  seed s _ := s
  reset v := (v, .ok [(v : ℝ)])
  step a v := (v - 1, .ok { obs := [((v - 1 : ℤ) : ℝ)], reward := a, terminal := v - 1 = 0
                            info := { outOfPower := v - 1 = 0, envelopeBurst := false, zeropressure := false, timeElapsed := 0 } })
  balloon v := .ok { demo with x := v, y := 0 }
  render v := v
  radius _ := 1

/-- A Dopamine agent that acts 0, 1, 2, …. -/
def tallyNet : DopaNet ℕ Unit Unit where
  cfg := .stock
  γ := 1
  horizon := 2
  learn _ _ _ _ := ((), ())
  indices _ _ k := ([], k)
  act _ _ _ k _ := (k, k + 1)

/-- A run of it with `left` steps to go. -/
def tallyRun (left : ℤ) : Run ℤ (Quantile (Dopa ℕ Unit Unit) Unit) Unit where
  env := left
  agent := ⟨⟨⟨(), (), (), 0⟩, [], [], false, 0⟩, (), 0, false⟩
  cols := []

/-- The memory left by a flight of two steps that was cut off. -/
def tallyMemory : List Stored := [⟨[5], 0, 0, false, false⟩, ⟨[4], 1, 1, false, false⟩, ⟨[3], 2, 1, false, true⟩]

/-- A flight cut off after two steps leaves three entries, the last with action 2, which was not flown, and the reward of action 1. -/
example : runEpisode tallyEnv (dopamineAgent tallyNet noExploration) (fun _ c => (c, .ok ())) 2 1 (tallyRun 5) =
    (⟨3, ⟨⟨⟨(), (), (), 3⟩, tallyMemory, [3], false, 3⟩, (), 2, false⟩, []⟩, .ok ()) := by
  have e : Int.toNat 2 = 0 + 1 + 1 := rfl
  have t : ∀ (n : ℤ) (mem : List Stored) (o : List ℝ) (k : ℕ), (mem.length : ℤ) ≤ 500 →
      Dopa.trainStep tallyNet ⟨⟨(), (), (), n⟩, mem, o, false, k⟩ = (⟨⟨(), (), (), n + 1⟩, mem, o, false, k⟩, .ok ()) := by
    intro n mem o k h
    have h' : ¬ ((mem.length : ℤ) > 500) := by omega
    simp [Dopa.trainStep, Learner.trainStep, tallyNet, TrainCfg.stock, h', bind, pure, Except.bind, Except.pure]
  norm_num [runEpisode, tallyRun, Run.send, dispatch, dopamineAgent, quantileAgent, noExploration, tallyEnv, e, episodeLoop, Dopa.begin,
    Dopa.step, Dopa.finish, Dopa.select, t, tallyMemory]
  simp [tallyNet]

/-- A whole training run of one such flight. -/
example : runTraining tallyEnv (dopamineAgent tallyNet noExploration) baseSaver (fun _ (c : Unit) => (c, .ok ())) (fun _ => []) 2 1 1 1 5
    (tallyRun 5).agent () = (⟨3, ⟨⟨⟨(), (), (), 3⟩, tallyMemory, [3], false, 3⟩, (), 2, false⟩, []⟩, (), .ok ()) := by
  have e : Int.toNat 2 = 0 + 1 + 1 := rfl
  have e1 : Int.toNat 1 = 0 + 1 := rfl
  have t : ∀ (n : ℤ) (mem : List Stored) (o : List ℝ) (k : ℕ), (mem.length : ℤ) ≤ 500 →
      Dopa.trainStep tallyNet ⟨⟨(), (), (), n⟩, mem, o, false, k⟩ = (⟨⟨(), (), (), n + 1⟩, mem, o, false, k⟩, .ok ()) := by
    intro n mem o k h
    have h' : ¬ ((mem.length : ℤ) > 500) := by omega
    simp [Dopa.trainStep, Learner.trainStep, tallyNet, TrainCfg.stock, h', bind, pure, Except.bind, Except.pure]
  norm_num [runTraining, runIterations, runEpisodes, baseSaver, runEpisode, tallyRun, Run.send, dispatch, dopamineAgent, quantileAgent,
    noExploration, tallyEnv, e, e1, episodeLoop, Dopa.begin, Dopa.step, Dopa.finish, Dopa.select, t, tallyMemory]
  simp [tallyNet]

/-- Its first entry may be sampled with a horizon of two, and yields the two rewards and the observation after them; the extra one may
not be sampled. -/
example : validIndex 100 2 tallyMemory 0 ∧ ¬ validIndex 100 1 (tallyMemory ++ tallyMemory) 2 ∧
    nStepSample 1 2 tallyMemory 0 = ⟨[5], 0, 1, [3], false⟩ := by
  refine ⟨⟨by decide, by decide, ?_⟩, ?_, ?_⟩
  · intro j hj
    interval_cases j <;> simp [tallyMemory]
  · rintro ⟨-, -, h⟩
    have := h 0 (by norm_num)
    simp [tallyMemory] at this
  · simp [nStepSample, tallyMemory, trajectoryLength, Finset.sum_range_succ, List.range_succ]

/-- An MLP agent that counts its updates makes one in a flight of two steps that ends, and two in one that is cut off. -/
example : (∃ x', runEpisode tallyEnv (mlpAgent (fun (_ : ℕ) _ => 0) fun p (_ : Unit) _ _ _ _ _ => (p + 1, ())) (fun _ (c : Unit) => (c, .ok ()))
      10 1 ⟨2, ⟨0, (), true, none⟩, []⟩ = (x', .ok ()) ∧ x'.agent.params = 1) ∧
    ∃ x', runEpisode tallyEnv (mlpAgent (fun (_ : ℕ) _ => 0) fun p (_ : Unit) _ _ _ _ _ => (p + 1, ())) (fun _ (c : Unit) => (c, .ok ()))
      2 1 ⟨5, ⟨0, (), true, none⟩, []⟩ = (x', .ok ()) ∧ x'.agent.params = 2 := by
  have e : Int.toNat 2 = 0 + 1 + 1 := rfl
  have e' : Int.toNat 10 = 8 + 1 + 1 := rfl
  constructor
  · refine ⟨⟨0, ⟨1, (), true, some ([1], 0)⟩, []⟩, ?_, rfl⟩
    norm_num [runEpisode, Run.send, dispatch, mlpAgent, tallyEnv, e', episodeLoop]
  · refine ⟨⟨3, ⟨2, (), true, some ([3], 0)⟩, []⟩, ?_, rfl⟩
    norm_num [runEpisode, Run.send, dispatch, mlpAgent, tallyEnv, e, episodeLoop]

end BLE
