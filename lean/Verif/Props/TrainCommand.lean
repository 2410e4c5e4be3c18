import Verif.Model.TrainCommand
import Verif.Props.Train
import Verif.Props.Commands

/-!
# C126, C127 — the training command and its records
-/

namespace BLE

variable {Γ V S C D I : Type}

/-! ## What every training run preserves, whether it succeeds or fails -/

section Invariant
variable (on : Collectors C) (P : List C → Prop) (hP : ∀ e cs, P cs → P (dispatch on e cs).1)
include hP

theorem send_inv (e : Event) (x : Run V S C) (h : P x.cols) : P (x.send on e).1.cols := hP e _ h

theorem episodeLoop_inv (G : GymEnv V) (A : Agent S) (maxLen period : ℤ) (n : ℕ) :
    ∀ (i : ℤ) (x : Run V S C) (k : EpisodeEnd), P x.cols → P (episodeLoop G A on maxLen period n i x k).1.cols := by
  induction n with
  | zero => intro i x k h; exact h
  | succ n ih =>
    intro i x k h
    rw [episodeLoop]
    simp only
    split
    · exact h
    split
    · exact h
    split
    · rename_i hd
      split <;> exact hP _ _ h
    split
    · split <;> exact hP _ _ h
    split
    · split <;> exact hP _ _ h
    · apply ih
      split <;> exact hP _ _ h

theorem runEpisode_inv (G : GymEnv V) (A : Agent S) (maxLen period : ℤ) (x : Run V S C) (h : P x.cols) :
    P (runEpisode G A on maxLen period x).1.cols := by
  unfold runEpisode
  simp only
  split
  · exact hP _ _ h
  split
  · exact hP _ _ h
  split
  · exact hP _ _ h
  split
  · exact episodeLoop_inv on P hP G A maxLen period _ _ _ _ (hP _ _ h)
  · exact hP _ _ (episodeLoop_inv on P hP G A maxLen period _ _ _ _ (hP _ _ h))

theorem runEpisodes_inv (G : GymEnv V) (A : Agent S) (maxLen period : ℤ) (n : ℕ) :
    ∀ x : Run V S C, P x.cols → P (runEpisodes G A on maxLen period n x).1.cols := by
  induction n with
  | zero => intro x h; exact h
  | succ n ih =>
    intro x h
    simp only [runEpisodes]
    split
    · exact runEpisode_inv on P hP G A maxLen period x h
    · exact ih _ (runEpisode_inv on P hP G A maxLen period x h)

theorem runIterations_inv (G : GymEnv V) (A : Agent S) (Z : Saver S D) (maxLen period episodes : ℤ) (n : ℕ) :
    ∀ (i : ℤ) (x : Run V S C) (d : D), P x.cols → P (runIterations G A Z on maxLen period episodes n i x d).1.cols := by
  induction n with
  | zero => intro i x d h; exact h
  | succ n ih =>
    intro i x d h
    simp only [runIterations]
    have := runEpisodes_inv on P hP G A maxLen period episodes.toNat x h
    split
    · exact this
    split
    · exact this
    · exact ih _ _ _ this

/-- Whatever the event handlers preserve holds of the collectors after training, also if training failed. -/
theorem runTraining_inv (G : GymEnv V) (A : Agent S) (Z : Saver S D) (mk : ℤ → List C) (maxLen period episodes iterations : ℤ)
    (v : V) (s : S) (d : D) :
    (∃ s1 e, Z.reload d s = (s1, .error e) ∧ (runTraining G A Z on mk maxLen period episodes iterations v s d).1.cols = []) ∨
    ∃ s1 last, Z.reload d s = (s1, .ok last) ∧
      (P (dispatch on .preTraining (mk (max (last + 1) 0 * episodes))).1 →
        P (runTraining G A Z on mk maxLen period episodes iterations v s d).1.cols) := by
  unfold runTraining
  rcases hq : Z.reload d s with ⟨s1, e | last⟩
  · exact Or.inl ⟨s1, e, rfl, rfl⟩
  · refine Or.inr ⟨s1, last, rfl, fun h => ?_⟩
    simp only
    split
    · exact h
    · split
      · exact runIterations_inv on P hP G A Z maxLen period episodes _ _ _ _ h
      · exact hP _ _ (runIterations_inv on P hP G A Z maxLen period episodes _ _ _ _ h)

end Invariant

/-- What holds of every collector and is preserved by its handlers is preserved by dispatching. -/
theorem dispatch_forall2 {A : Type} (on : Collectors C) (R : A → C → Prop) (hR : ∀ e a c, R a c → R a (on e c).1) (e : Event) :
    ∀ (as : List A) (cs : List C), List.Forall₂ R as cs → List.Forall₂ R as (dispatch on e cs).1 := by
  intro as cs h
  induction h with
  | nil => exact .nil
  | cons h1 h2 ih =>
    simp only [dispatch]
    split
    · exact .cons (hR _ _ _ h1) h2
    · exact .cons (hR _ _ _ h1) ih

/-! ## C126: the records -/

/-- The episodes recorded before episode `E` are untouched: the same pickles, and the same points of the two episode curves. -/
structure Spec.Keeps (E : ℤ) (r r' : Records) : Prop where
  pickles : ∀ e < E, r'.pickles e = r.pickles e
  /-- nothing is taken away from the curves -/
  points : r.points <+: r'.points
  /-- and nothing is added to the episode curves below `E` -/
  episodes : ∀ p ∈ r'.points.drop r.points.length, p.1 ≠ .fineGrainedReward → E ≤ p.2.2

/-- What one collector, constructed from records `r` for episode `E`, may look like later. -/
def laterObj (E : ℤ) (r : Records) : CollectorClass → Obj → Prop
  | .console, .console c => E ≤ c.episode ∧ (c.file = true → ∃ l, c.logFile = some l) ∧
      ∀ l, c.logFile = some l → ∀ n w len dist, Line.episode n w len dist ∈ l → E ≤ n
  | .pickle, .pickle c => E ≤ c.episode ∧ ∀ e < E, c.files e = r.pickles e
  | .tensorboard, .tensorboard c => E ≤ c.episode ∧ ∃ l, c.points = r.points ++ l ∧ ∀ p ∈ l, p.1 ≠ .fineGrainedReward → E ≤ p.2.2
  | _, _ => False

theorem consoleWrite_later (E : ℤ) (r : Records) (c : Console) (l : Line) (hl : ∀ n w len dist, l = .episode n w len dist → E ≤ n)
    (h : laterObj E r .console (.console c)) : laterObj E r .console (.console (c.write l).1) := by
  obtain ⟨h1, h2, h3⟩ := h
  unfold Console.write
  split
  · rename_i hf
    split
    · exact ⟨h1, h2, h3⟩
    · rename_i f hf2
      refine ⟨h1, fun _ => ⟨_, rfl⟩, ?_⟩
      intro l' hl' n w len dist hm
      simp only [Option.some.injEq] at hl'
      subst hl'
      rcases List.mem_append.1 hm with hm | hm
      · exact h3 f hf2 n w len dist hm
      · exact hl n w len dist (List.mem_singleton.1 hm).symm
  · exact ⟨h1, h2, h3⟩

theorem laterObj_on (E : ℤ) (r : Records) (e : Event) (k : CollectorClass) (o : Obj) (h : laterObj E r k o) :
    laterObj E r k (Obj.on e o).1 := by
  cases k <;> cases o <;> try exact h.elim
  · rename_i c
    simp only [Obj.on]
    obtain ⟨h1, h2, h3⟩ := h
    have base : ∀ c', c'.episode = c.episode → c'.file = c.file → c'.logFile = c.logFile → laterObj E r .console (.console c') := by
      intro c' e1 e2 e3
      refine ⟨by rw [e1]; exact h1, by rw [e2, e3]; exact h2, by rw [e3]; exact h3⟩
    cases e with
    | preTraining =>
      simp only [Console.on]
      refine ⟨h1, ?_, ?_⟩
      · intro hf
        rw [if_pos hf]
        exact ⟨_, rfl⟩
      · intro l hl
        simp only at hl
        split at hl
        · simp only [Option.some.injEq] at hl
          subst hl
          simp
        · exact h3 l hl
    | beginEpisode => exact base _ rfl rfl rfl
    | endTraining => exact base _ rfl rfl rfl
    | step s =>
      simp only [Console.on]
      split
      · exact ⟨h1, h2, h3⟩
      split
      · exact base _ rfl rfl rfl
      split
      · exact base _ rfl rfl rfl
      split
      · split
        · exact base _ rfl rfl rfl
        split
        · exact consoleWrite_later E r _ _ (by intro n w len dist hh; cases hh) (base _ rfl rfl rfl)
        · exact base _ rfl rfl rfl
      · exact base _ rfl rfl rfl
    | endEpisode s =>
      rcases hc : c.counts with _ | ⟨n, t⟩
      · simp only [Console.on, hc]
        exact ⟨h1, h2, h3⟩
      simp only [Console.on, hc]
      rcases ha : countAction n s.action with e | n'
      · exact base _ rfl rfl rfl
      simp only
      have hw := consoleWrite_later E r { c with counts := some (n', t + s.reward) }
        (.episode c.episode (t + s.reward) s.step (n'.map (· / n'.sum))) (by
          intro n w len dist hh
          cases hh
          exact h1) (base _ rfl rfl rfl)
      split
      · exact hw
      · obtain ⟨q1, q2, q3⟩ := hw
        exact ⟨by show E ≤ c.episode + 1; omega, q2, q3⟩
  · rename_i c
    simp only [Obj.on]
    obtain ⟨h1, h2⟩ := h
    cases e with
    | preTraining => exact ⟨h1, h2⟩
    | beginEpisode => exact ⟨h1, h2⟩
    | endTraining => exact ⟨h1, h2⟩
    | step s =>
      simp only [Pickle.on]
      split <;> exact ⟨h1, h2⟩
    | endEpisode s =>
      simp only [Pickle.on]
      split
      · exact ⟨h1, h2⟩
      · refine ⟨by show E ≤ c.episode + 1; omega, fun e he => ?_⟩
        simp only
        rw [Function.update_of_ne (by omega)]
        exact h2 e he
  · rename_i c
    simp only [Obj.on]
    obtain ⟨h1, l, h2, h3⟩ := h
    have more : ∀ (m : List (Curve × ℝ × ℤ)), (∀ p ∈ m, p.1 ≠ .fineGrainedReward → E ≤ p.2.2) →
        ∃ l', c.points ++ m = r.points ++ l' ∧ ∀ p ∈ l', p.1 ≠ .fineGrainedReward → E ≤ p.2.2 := by
      intro m hm
      refine ⟨l ++ m, by rw [h2, List.append_assoc], ?_⟩
      intro p hp
      rcases List.mem_append.1 hp with hp | hp
      · exact h3 p hp
      · exact hm p hp
    cases e with
    | preTraining => exact ⟨h1, l, h2, h3⟩
    | beginEpisode => exact ⟨h1, l, h2, h3⟩
    | endTraining => exact ⟨h1, l, h2, h3⟩
    | step s =>
      simp only [Tensorboard.on]
      split
      · exact ⟨h1, l, h2, h3⟩
      split
      · exact ⟨h1, l, h2, h3⟩
      have fine : ∀ g : ℤ, ∀ p ∈ [(Curve.fineGrainedReward, s.reward, g)], p.1 ≠ .fineGrainedReward → E ≤ p.2.2 := by
        intro g p hp hn
        rw [List.mem_singleton.1 hp] at hn
        exact absurd rfl hn
      split
      · split
        · exact ⟨h1, more _ (fine _)⟩
        · exact ⟨h1, l, h2, h3⟩
      · split
        · exact ⟨h1, more _ (fine _)⟩
        · exact ⟨h1, l, h2, h3⟩
    | endEpisode s =>
      simp only [Tensorboard.on]
      split
      · exact ⟨h1, l, h2, h3⟩
      have fine : ∀ g : ℤ, ∀ p ∈ [(Curve.fineGrainedReward, s.reward, g)], p.1 ≠ .fineGrainedReward → E ≤ p.2.2 := by
        intro g p hp hn
        rw [List.mem_singleton.1 hp] at hn
        exact absurd rfl hn
      split
      · split
        · exact ⟨h1, more _ (fine _)⟩
        · exact ⟨h1, l, h2, h3⟩
      · refine ⟨by show E ≤ c.episode + 1; omega, ?_⟩
        simp only
        split
        · rw [List.append_assoc]
          refine more _ ?_
          intro p hp hn
          rcases List.mem_append.1 hp with hp | hp
          · exact fine _ p hp hn
          · simp only [List.mem_cons, List.not_mem_nil, or_false] at hp
            rcases hp with rfl | rfl <;> exact h1
        · refine more _ ?_
          intro p hp hn
          simp only [List.mem_cons, List.not_mem_nil, or_false] at hp
          rcases hp with rfl | rfl <;> exact h1

theorem new_later (g : CollectorCfg) (r : Records) (n : ℕ) (E : ℤ) (k : CollectorClass) :
    laterObj E r k (Obj.on .preTraining (newCollector g r n E k)).1 ∧ (Obj.on .preTraining (newCollector g r n E k)).2 = .ok () := by
  cases k
  · simp only [newCollector, Obj.on, Console.on, laterObj, and_true]
    refine ⟨le_refl _, fun h => ⟨_, if_pos h⟩, ?_⟩
    intro l hl
    split at hl <;> simp_all
  · exact ⟨⟨le_refl _, fun _ _ => rfl⟩, rfl⟩
  · exact ⟨⟨le_refl _, [], (List.append_nil _).symm, by simp⟩, rfl⟩

theorem news_later (g : CollectorCfg) (r : Records) (n : ℕ) (E : ℤ) (ks : List CollectorClass) :
    List.Forall₂ (laterObj E r) ks (dispatch Obj.on .preTraining (ks.map (newCollector g r n E))).1 ∧
    (dispatch Obj.on .preTraining (ks.map (newCollector g r n E))).2 = .ok () := by
  induction ks with
  | nil => exact ⟨.nil, rfl⟩
  | cons k ks ih =>
    obtain ⟨h1, h2⟩ := new_later g r n E k
    simp only [List.map_cons, dispatch, h2]
    exact ⟨.cons h1 ih.1, ih.2⟩

theorem keeps_update {E : ℤ} {r r1 : Records} {k : CollectorClass} {o : Obj} (h : Spec.Keeps E r r1) (ho : laterObj E r k o) :
    Spec.Keeps E r (r1.update o) := by
  cases k <;> cases o <;> try exact ho.elim
  · rename_i c
    simp only [Records.update]
    split
    · exact ⟨h.pickles, h.points, h.episodes⟩
    · exact h
  · exact ⟨ho.2, h.points, h.episodes⟩
  · obtain ⟨-, l, h1, h2⟩ := ho
    refine ⟨h.pickles, ⟨l, h1.symm⟩, ?_⟩
    simp only [Records.update, h1, List.drop_left]
    exact h2

theorem keeps_after {E : ℤ} {r : Records} {ks : List CollectorClass} {os : List Obj} (h : List.Forall₂ (laterObj E r) ks os) :
    ∀ r1, Spec.Keeps E r r1 → Spec.Keeps E r (r1.after os) := by
  induction h with
  | nil => intro r1 h; exact h
  | cons h1 _ ih => intro r1 h; exact ih _ (keeps_update h h1)

/-- A console log without lines about episodes before `E`. -/
def Spec.LogFrom (E : ℤ) (r : Records) : Prop :=
  ∃ l, r.consoleLog = some l ∧ ∀ n w len dist, Line.episode n w len dist ∈ l → E ≤ n

theorem logFrom_update {E : ℤ} {r r1 : Records} {k : CollectorClass} {o : Obj} (h : Spec.LogFrom E r1) (ho : laterObj E r k o) :
    Spec.LogFrom E (r1.update o) := by
  cases k <;> cases o <;> try exact ho.elim
  · rename_i c
    simp only [Records.update]
    split
    · rename_i l hl
      exact ⟨l, rfl, ho.2.2 l hl⟩
    · exact h
  · exact h
  · exact h

/-- The collectors keep what their constructors were given. -/
def consoleFiles : Obj → Prop
  | .console c => c.file = true
  | _ => True

theorem consoleWrite_file (c : Console) (l : Line) : (c.write l).1.file = c.file := by
  unfold Console.write
  split <;> try split
  all_goals rfl

theorem consoleFiles_on (e : Event) (o : Obj) (h : consoleFiles o) : consoleFiles (Obj.on e o).1 := by
  cases o with
  | pickle c => trivial
  | tensorboard c => trivial
  | console c =>
    have h : c.file = true := h
    show (Console.on e c).1.file = true
    cases e with
    | preTraining => exact h
    | beginEpisode => exact h
    | endTraining => exact h
    | step s =>
      simp only [Console.on]
      split
      · exact h
      split
      · exact h
      split
      · exact h
      split
      · split
        · exact h
        split
        · rw [consoleWrite_file]; exact h
        · exact h
      · exact h
    | endEpisode s =>
      simp only [Console.on]
      split
      · exact h
      split
      · exact h
      split
      · rw [consoleWrite_file]; exact h
      · show (Console.write _ _).1.file = true
        rw [consoleWrite_file]; exact h

theorem logFrom_after {E : ℤ} {r : Records} {ks : List CollectorClass} {os : List Obj}
    (h : List.Forall₂ (fun k o => laterObj E r k o ∧ consoleFiles o) ks os) :
    ∀ r1, Spec.LogFrom E r1 ∨ .console ∈ ks → Spec.LogFrom E (r1.after os) := by
  induction h with
  | nil =>
    rintro r1 (h | h)
    · exact h
    · cases h
  | @cons k o ks os h1 _ ih =>
    intro r1 h
    apply ih
    rcases h with h | h
    · exact .inl (logFrom_update h h1.1)
    · by_cases hk : CollectorClass.console = k
      · subst hk
        cases o <;> try exact h1.1.elim
        rename_i c
        obtain ⟨l, hl⟩ := h1.1.2.1 h1.2
        refine .inl ⟨l, ?_, h1.1.2.2 l hl⟩
        simp only [Records.update, hl]
      · rcases List.mem_cons.1 h with h | h
        · exact (hk h).elim
        · exact .inr h

/-- A training command got as far as constructing its collectors: it was set up, and the latest checkpoint of its directory was
reloaded. `E` is the number of its first episode. -/
def Spec.Resumes (M : Trainer Γ V S D I) (fl : TrainFlags) (d : TrainDisk D I) (g : Γ) (E : ℤ) : Prop :=
  ∃ w r k v s s1 last, trainSetup M fl = .ok (g, w, r, k, v, s) ∧
    (M.saver g k).reload (d.runs (runDir fl.agent fl.run)).2 s = (s1, .ok last) ∧ E = max (last + 1) 0 * fl.episodes

theorem resumes_unique {M : Trainer Γ V S D I} {fl : TrainFlags} {d : TrainDisk D I} {g g' : Γ} {E E' : ℤ}
    (h : Spec.Resumes M fl d g E) (h' : Spec.Resumes M fl d g' E') : g = g' ∧ E = E' := by
  obtain ⟨w, r, k, v, s, s1, last, h1, h2, rfl⟩ := h
  obtain ⟨w', r', k', v', s', s1', last', q1, q2, rfl⟩ := h'
  rw [h1] at q1; cases q1; rw [h2] at q2; cases q2
  exact ⟨rfl, rfl⟩

/-- The collectors of a command after it. -/
theorem trainMain_cols (M : Trainer Γ V S D I) (fl : TrainFlags) (d : TrainDisk D I) (R : CollectorClass → Obj → Prop)
    (hR : ∀ e k o, R k o → R k (Obj.on e o).1) :
    ((∀ g E, ¬ Spec.Resumes M fl d g E) ∧ ∃ e, trainMain M fl d = (d, .error e)) ∨
    ∃ g E, Spec.Resumes M fl d g E ∧
      ((∀ k, R k (Obj.on .preTraining (newCollector (M.collectors g) (d.runs (runDir fl.agent fl.run)).1 3 E k)).1) →
        ∃ cols, List.Forall₂ R (collectorData fl.collectors) cols ∧
          ((trainMain M fl d).1.runs (runDir fl.agent fl.run)).1 = (d.runs (runDir fl.agent fl.run)).1.after cols) := by
  unfold trainMain
  rcases hs : trainSetup M fl with e | ⟨g, w, r, k, v, s⟩
  · refine .inl ⟨?_, e, rfl⟩
    rintro g E ⟨w, r, k, v, s, s1, last, h1, -⟩
    rw [hs] at h1; cases h1
  simp only
  set mk := fun ep => (collectorData fl.collectors).map
    (newCollector (M.collectors g) (d.runs (runDir fl.agent fl.run)).1 3 ep) with hmk
  rcases runTraining_inv Obj.on (fun cs => List.Forall₂ R (collectorData fl.collectors) cs)
    (fun e cs h => dispatch_forall2 Obj.on R hR e _ _ h) (M.gym g w r) (M.agent g k) (M.saver g k) mk fl.maxLen
    fl.renderPeriod fl.episodes fl.iterations v s (d.runs (runDir fl.agent fl.run)).2 with ⟨s1, e, h1, h2⟩ | ⟨s1, last, h1, h2⟩
  · left
    have : runTraining (M.gym g w r) (M.agent g k) (M.saver g k) Obj.on mk fl.maxLen fl.renderPeriod fl.episodes fl.iterations v s
        (d.runs (runDir fl.agent fl.run)).2 = ({ env := v, agent := s1, cols := [] }, (d.runs (runDir fl.agent fl.run)).2, .error e) := by
      unfold runTraining
      rw [h1]
    rw [this]
    refine ⟨?_, e, ?_⟩
    · rintro g' E ⟨w', r', k', v', s', s1', last, q1, q2, -⟩
      rw [hs] at q1; cases q1; rw [h1] at q2; cases q2
    simp only [Records.after, List.foldl_nil, Prod.mk.eta, Function.update_eq_self]
  · right
    refine ⟨g, _, ⟨w, r, k, v, s, s1, last, hs, h1, rfl⟩, fun hn => ?_⟩
    refine ⟨_, h2 ?_, ?_⟩
    · have : ∀ ks : List CollectorClass, List.Forall₂ R ks (dispatch Obj.on .preTraining (ks.map
          (newCollector (M.collectors g) (d.runs (runDir fl.agent fl.run)).1 3 (max (last + 1) 0 * fl.episodes)))).1 := by
        intro ks
        induction ks with
        | nil => exact .nil
        | cons k ks ih =>
          simp only [List.map_cons, dispatch, (new_later _ _ _ _ k).2]
          exact .cons (hn k) ih
      exact this _
    · split <;> simp only [Function.update_self]

/-- C126 (partial). Whatever happens during a training command, also if it raises: either nothing on disk has changed, or it has
resumed at an episode `E`, and everything recorded about earlier episodes is as before: the pickled records, the points of the
curves, and the episode curves have got no further points below `E`. Missing from the full property: the console log
(`C126_console_lost`) and the positions of the fine-grained curve (`C126_fine_restarts`). -/
theorem C126_kept_partial (M : Trainer Γ V S D I) (fl : TrainFlags) (d : TrainDisk D I) :
    (∃ e, trainMain M fl d = (d, .error e)) ∨
    ∃ g E, Spec.Resumes M fl d g E ∧
      Spec.Keeps E (d.runs (runDir fl.agent fl.run)).1 ((trainMain M fl d).1.runs (runDir fl.agent fl.run)).1 := by
  by_cases hex : ∃ g E, Spec.Resumes M fl d g E
  · right
    obtain ⟨g, E, hg⟩ := hex
    refine ⟨g, E, hg, ?_⟩
    rcases trainMain_cols M fl d (laterObj E (d.runs (runDir fl.agent fl.run)).1) (fun e k o h => laterObj_on _ _ e k o h) with
      ⟨h, -⟩ | ⟨g', E', hg', h3⟩
    · exact (h g E hg).elim
    · obtain ⟨rfl, rfl⟩ := resumes_unique hg hg'
      obtain ⟨cols, c1, c2⟩ := h3 fun k => (new_later _ _ _ _ k).1
      rw [c2]
      exact keeps_after c1 _ ⟨fun _ _ => rfl, List.prefix_rfl, by simp⟩
  · left
    rcases trainMain_cols M fl d (fun _ _ => True) (fun _ _ _ _ => trivial) with ⟨-, h⟩ | ⟨g, E, h, -⟩
    · exact h
    · exact (hex ⟨g, E, h⟩).elim

/-- The full property is false of the code, whatever is trained and whatever happens: a command that resumes at episode `E` with a
console collector that saves to a file leaves a console log that says nothing about any episode before `E`. -/
theorem C126_console_lost (M : Trainer Γ V S D I) (fl : TrainFlags) (d : TrainDisk D I) (g : Γ) (E : ℤ)
    (h : Spec.Resumes M fl d g E) (hc : "console" ∈ fl.collectors) (hf : (M.collectors g).saveToFile = true) :
    Spec.LogFrom E ((trainMain M fl d).1.runs (runDir fl.agent fl.run)).1 := by
  have hmem : CollectorClass.console ∈ collectorData fl.collectors := by
    unfold collectorData
    exact List.mem_filterMap.2 ⟨_, hc, rfl⟩
  rcases trainMain_cols M fl d (fun k o => laterObj E (d.runs (runDir fl.agent fl.run)).1 k o ∧ consoleFiles o)
    (fun e k o h => ⟨laterObj_on _ _ e k o h.1, consoleFiles_on e o h.2⟩) with ⟨h', -⟩ | ⟨g', E', h', h3⟩
  · exact (h' g E h).elim
  · obtain ⟨rfl, rfl⟩ := resumes_unique h h'
    obtain ⟨cols, c1, c2⟩ := h3 fun k => ⟨(new_later _ _ _ _ k).1, by
      cases k
      · exact hf
      · trivial
      · trivial⟩
    rw [c2]
    exact logFrom_after c1 _ (.inr hmem)

theorem tensorboard_mono (e : Event) (c : Tensorboard) : c.points <+: (Tensorboard.on e c).1.points := by
  cases e <;> simp only [Tensorboard.on]
  · exact List.prefix_rfl
  · exact List.prefix_rfl
  · split
    · exact List.prefix_rfl
    split
    · exact List.prefix_rfl
    split
    · split
      · exact List.prefix_append _ _
      · exact List.prefix_rfl
    · split
      · exact List.prefix_append _ _
      · exact List.prefix_rfl
  · split
    · exact List.prefix_rfl
    split
    · split
      · exact List.prefix_append _ _
      · exact List.prefix_rfl
    · split
      · rw [List.append_assoc]; exact List.prefix_append _ _
      · exact List.prefix_append _ _
  · exact List.prefix_rfl

theorem tensorboard_feed_mono (es : List Event) : ∀ c : Tensorboard, c.points <+: (Spec.feed Tensorboard.on es c).1.points := by
  induction es with
  | nil => intro c; exact List.prefix_rfl
  | cons e es ih =>
    intro c
    have := tensorboard_mono e c
    rcases h : Tensorboard.on e c with ⟨c', e' | u⟩
    · rw [h] at this
      simp only [Spec.feed, h]
      exact this
    · rw [h] at this
      simp only [Spec.feed, h]
      exact this.trans (ih c')

/-- The first episode of a session with a fine-grained tensorboard collector has a point at position 0. -/
theorem tensorboard_first (c c' : Tensorboard) (hf : c.fine = true) (t : List (ℤ × StepOut)) (a : ℤ) (rest : List Event)
    (h : Spec.feed Tensorboard.on (.preTraining :: (Spec.events t a ++ rest)) c = (c', .ok ())) :
    ∃ w l, c'.points = c.points ++ (.fineGrainedReward, w, 0) :: l := by
  have mono : ∀ (es : List Event) (c1 c2 : Tensorboard) (w : ℝ), (Spec.feed Tensorboard.on es c1) = (c2, .ok ()) →
      (c.points ++ [(.fineGrainedReward, w, 0)] <+: c1.points) → ∃ w l, c2.points = c.points ++ (.fineGrainedReward, w, 0) :: l := by
    intro es c1 c2 w h1 h2
    have := tensorboard_feed_mono es c1
    rw [h1] at this
    obtain ⟨l, hl⟩ := h2.trans this
    exact ⟨w, l, by rw [← hl, List.append_assoc]; rfl⟩
  simp only [Spec.feed, Spec.events, Tensorboard.on, List.cons_append] at h
  cases t with
  | nil =>
    simp only [Spec.stats, List.map_nil, List.nil_append, List.cons_append, Spec.feed, Tensorboard.on, hf, if_true] at h
    exact mono _ _ _ (Spec.lastReward []) h (List.prefix_append _ _)
  | cons x t =>
    simp only [Spec.stats, List.map_cons, List.cons_append, Spec.feed, Tensorboard.on, hf] at h
    by_cases h0 : c.frequency = 0
    · simp [h0] at h
    simp only [h0, and_false, if_false, Int.zero_fmod, and_self, if_true] at h
    exact mono _ _ _ _ h List.prefix_rfl

/-- The curves after the work of the collectors are those of one of them. -/
theorem after_points (P : List (Curve × ℝ × ℤ) → Prop) (os : List Obj) : (∀ c, .tensorboard c ∈ os → P c.points) →
    ∀ r1 : Records, (P r1.points ∨ ∃ c, .tensorboard c ∈ os) → P (r1.after os).points := by
  induction os with
  | nil =>
    rintro - r1 (h | ⟨c, h⟩)
    · exact h
    · cases h
  | cons o os ih =>
    intro ho r1 h
    apply ih fun c hc => ho c (List.mem_cons_of_mem _ hc)
    have rest : (∃ c, Obj.tensorboard c ∈ o :: os) → (∀ c, o ≠ .tensorboard c) → ∃ c, Obj.tensorboard c ∈ os := by
      rintro ⟨c, hc⟩ hn
      rcases List.mem_cons.1 hc with hc | hc
      · exact (hn c hc.symm).elim
      · exact ⟨c, hc⟩
    cases o with
    | console c =>
      rcases h with h | h
      · left
        unfold Records.update
        simp only
        split <;> exact h
      · exact .inr (rest h (by simp))
    | pickle c => exact h.imp id fun h => rest h (by simp)
    | tensorboard c => exact .inl (ho c (List.mem_cons_self ..))

/-- The pickled records after the work of the collectors are those of one of them. -/
theorem after_pickles (P : (ℤ → Option (List Stat)) → Prop) (os : List Obj) : (∀ c, .pickle c ∈ os → P c.files) →
    ∀ r1 : Records, (P r1.pickles ∨ ∃ c, .pickle c ∈ os) → P (r1.after os).pickles := by
  induction os with
  | nil =>
    rintro - r1 (h | ⟨c, h⟩)
    · exact h
    · cases h
  | cons o os ih =>
    intro ho r1 h
    apply ih fun c hc => ho c (List.mem_cons_of_mem _ hc)
    have rest : (∃ c, Obj.pickle c ∈ o :: os) → (∀ c, o ≠ .pickle c) → ∃ c, Obj.pickle c ∈ os := by
      rintro ⟨c, hc⟩ hn
      rcases List.mem_cons.1 hc with hc | hc
      · exact (hn c hc.symm).elim
      · exact ⟨c, hc⟩
    cases o with
    | console c =>
      rcases h with h | h
      · left
        unfold Records.update
        simp only
        split <;> exact h
      · exact .inr (rest h (by simp))
    | tensorboard c => exact h.imp id fun h => rest h (by simp)
    | pickle c => exact .inl (ho c (List.mem_cons_self ..))

/-- What a command that succeeded has done. -/
theorem trainMain_ok (M : Trainer Γ V S D I) (fl : TrainFlags) (d d' : TrainDisk D I) (h : trainMain M fl d = (d', .ok ())) :
    ∃ g w r k v s x dd, trainSetup M fl = .ok (g, w, r, k, v, s) ∧
      runTraining (M.gym g w r) (M.agent g k) (M.saver g k) Obj.on
        (fun ep => (collectorData fl.collectors).map (newCollector (M.collectors g) (d.runs (runDir fl.agent fl.run)).1 3 ep))
        fl.maxLen fl.renderPeriod fl.episodes fl.iterations v s (d.runs (runDir fl.agent fl.run)).2 = (x, dd, .ok ()) ∧
      d'.runs = Function.update d.runs (runDir fl.agent fl.run) ((d.runs (runDir fl.agent fl.run)).1.after x.cols, dd) ∧
      d'.image = (match M.picture g w r x.env with | some i => some i | none => d.image) := by
  unfold trainMain at h
  rcases hs : trainSetup M fl with e | ⟨g, w, r, k, v, s⟩
  · rw [hs] at h; cases h
  rw [hs] at h
  simp only at h
  rcases hq : runTraining (M.gym g w r) (M.agent g k) (M.saver g k) Obj.on
        (fun ep => (collectorData fl.collectors).map (newCollector (M.collectors g) (d.runs (runDir fl.agent fl.run)).1 3 ep))
        fl.maxLen fl.renderPeriod fl.episodes fl.iterations v s (d.runs (runDir fl.agent fl.run)).2 with ⟨x, dd, e | u⟩
  · rw [hq] at h; cases h
  rw [hq] at h
  simp only [Prod.mk.injEq, and_true] at h
  subst h
  exact ⟨g, w, r, k, v, s, x, dd, rfl, hq, rfl, rfl⟩

/-- The collectors of a session that succeeded. -/
theorem cols_mem {on : Collectors Obj} {es : List Event} {ks : List CollectorClass} {f : CollectorClass → Obj} {os : List Obj}
    (h : Spec.issue on es (ks.map f) = (os, .ok ())) (o : Obj) : o ∈ os ↔ ∃ k ∈ ks, Spec.feed on es (f k) = (o, .ok ()) := by
  obtain ⟨h1, h2⟩ := (C72_all_events on es _ os).1 h
  rw [h2]
  simp only [List.mem_map, exists_exists_and_eq_and]
  constructor
  · rintro ⟨k, hk, rfl⟩
    exact ⟨k, hk, Prod.ext rfl (h1 _ (List.mem_map_of_mem hk))⟩
  · rintro ⟨k, hk, e⟩
    exact ⟨k, hk, by rw [e]⟩

theorem class_of_pickle {es : List Event} {g : CollectorCfg} {r : Records} {n : ℕ} {E : ℤ} {k : CollectorClass} {c : Pickle}
    (h : Spec.feed Obj.on es (newCollector g r n E k) = (.pickle c, .ok ())) :
    k = .pickle ∧ Spec.feed Pickle.on es { episode := E, stats := none, files := r.pickles } = (c, .ok ()) := by
  cases k with
  | console => simp only [newCollector, feed_console, Prod.mk.injEq, reduceCtorEq, false_and] at h
  | tensorboard => simp only [newCollector, feed_tensorboard, Prod.mk.injEq, reduceCtorEq, false_and] at h
  | pickle =>
    simp only [newCollector, feed_pickle, Prod.mk.injEq, Obj.pickle.injEq] at h
    exact ⟨rfl, Prod.ext h.1 h.2⟩

theorem class_of_board {es : List Event} {g : CollectorCfg} {r : Records} {n : ℕ} {E : ℤ} {k : CollectorClass} {c : Tensorboard}
    (h : Spec.feed Obj.on es (newCollector g r n E k) = (.tensorboard c, .ok ())) :
    k = .tensorboard ∧ Spec.feed Tensorboard.on es { episode := E, fine := g.boardFine, frequency := g.boardFrequency, globalStep := none,
                                                     reward := none, points := r.points } = (c, .ok ()) := by
  cases k with
  | console => simp only [newCollector, feed_console, Prod.mk.injEq, reduceCtorEq, false_and] at h
  | pickle => simp only [newCollector, feed_pickle, Prod.mk.injEq, reduceCtorEq, false_and] at h
  | tensorboard =>
    simp only [newCollector, feed_tensorboard, Prod.mk.injEq, Obj.tensorboard.injEq] at h
    exact ⟨rfl, Prod.ext h.1 h.2⟩

theorem start_lt {start iterations episodes : ℤ} (he : 0 < episodes) (h : start * episodes < iterations * episodes) :
    start < iterations := lt_of_mul_lt_mul_right h he.le

/-- The full property is false of the code also for the fine-grained curve: every session that succeeds and runs at least one
episode writes, with a fine-grained tensorboard collector, a point at position 0, wherever the previous session had stopped. -/
theorem C126_fine_restarts (M : Trainer Γ V S D I) (fl : TrainFlags) (d d' : TrainDisk D I) (g : Γ) (E : ℤ)
    (h : Spec.Resumes M fl d g E) (hok : trainMain M fl d = (d', .ok ())) (he : 0 < fl.episodes) (hE : E < fl.iterations * fl.episodes)
    (hm : 0 ≤ fl.maxLen) (hc : "tensorboard" ∈ fl.collectors) (hf : (M.collectors g).boardFine = true) :
    ∃ w l, (d'.runs (runDir fl.agent fl.run)).1.points =
      (d.runs (runDir fl.agent fl.run)).1.points ++ (.fineGrainedReward, w, 0) :: l := by
  have hmem : CollectorClass.tensorboard ∈ collectorData fl.collectors := List.mem_filterMap.2 ⟨_, hc, rfl⟩
  obtain ⟨g', w, r, k, v, s, x, dd, h1, hq, hd, -⟩ := trainMain_ok M fl d d' hok
  obtain ⟨w', r', k', v', s', s1', last', q1, q2, rfl⟩ := h
  rw [h1] at q1; cases q1
  obtain ⟨s1, last, cs, its, x2, e1, -, q3, q4, -, -, -, q8⟩ := C65_each_once _ _ _ _ _ _ _ _ _ hm _ _ _ _ _ hq
  rw [q2] at e1; cases e1
  have hlt := start_lt he hE
  obtain ⟨t, a, rest, hev⟩ : ∃ t a rest, (its.flatten.flatMap fun e => Spec.events e.1 e.2) = Spec.events t a ++ rest := by
    cases its with
    | nil => simp only [List.length_nil] at q3; omega
    | cons it its =>
      have := q4 it (List.mem_cons_self ..)
      cases it with
      | nil => simp only [List.length_nil] at this; omega
      | cons y it => exact ⟨y.1, y.2, _, rfl⟩
  rw [hd, Function.update_self]
  refine after_points (fun ps => ∃ w l, ps = (d.runs (runDir fl.agent fl.run)).1.points ++ (Curve.fineGrainedReward, w, 0) :: l)
    _ ?_ _ ?_
  · intro c hc
    obtain ⟨k0, -, hk⟩ := (cols_mem q8 _).1 hc
    obtain ⟨-, hk⟩ := class_of_board hk
    rw [hev, List.cons_append, List.append_assoc] at hk
    exact tensorboard_first _ c hf t a _ hk
  · right
    obtain ⟨h1', -⟩ := (C72_all_events Obj.on _ _ x.cols).1 q8
    have hfeed := h1' _ (List.mem_map_of_mem hmem)
    have := (cols_mem q8 _).2 ⟨_, hmem, Prod.ext rfl hfeed⟩
    simp only [newCollector, feed_tensorboard] at this
    exact ⟨_, this⟩

/-- C126. What a session adds: after one that succeeds with a pickle collector, there is a record of every episode from `E` on that
was asked for; the other records are as before. -/
theorem C126_recorded (M : Trainer Γ V S D I) (fl : TrainFlags) (d d' : TrainDisk D I) (g : Γ) (E : ℤ)
    (h : Spec.Resumes M fl d g E) (hok : trainMain M fl d = (d', .ok ())) (he : 0 ≤ fl.episodes) (hm : 0 ≤ fl.maxLen)
    (hc : "pickle" ∈ fl.collectors) (e : ℤ) :
    (E ≤ e → e < fl.iterations * fl.episodes → ∃ l, (d'.runs (runDir fl.agent fl.run)).1.pickles e = some l) ∧
    (e < E ∨ fl.iterations * fl.episodes ≤ e →
      (d'.runs (runDir fl.agent fl.run)).1.pickles e = (d.runs (runDir fl.agent fl.run)).1.pickles e) := by
  have hmem : CollectorClass.pickle ∈ collectorData fl.collectors := List.mem_filterMap.2 ⟨_, hc, rfl⟩
  obtain ⟨g', w, r, k, v, s, x, dd, h1, hq, hd, -⟩ := trainMain_ok M fl d d' hok
  obtain ⟨w', r', k', v', s', s1', last', q1, q2, rfl⟩ := h
  rw [h1] at q1; cases q1
  rw [hd, Function.update_self]
  obtain ⟨s1, last, cs, its, x2, e1, -, -, -, -, -, -, q8⟩ := C65_each_once _ _ _ _ _ _ _ _ _ hm _ _ _ _ _ hq
  rw [q2] at e1; cases e1
  refine after_pickles (fun fs => (max (last' + 1) 0 * fl.episodes ≤ e → e < fl.iterations * fl.episodes → ∃ l, fs e = some l) ∧
    (e < max (last' + 1) 0 * fl.episodes ∨ fl.iterations * fl.episodes ≤ e → fs e = (d.runs (runDir fl.agent fl.run)).1.pickles e))
    _ ?_ _ ?_
  · intro c hc
    obtain ⟨s1, last, h3, h4⟩ := C65_records _ _ _ _ _ _ _ _ hm he _ _ _ _ _ hq
    rw [q2] at h3; cases h3
    obtain ⟨j, hj⟩ := List.mem_iff_getElem?.1 hc
    have hlen : x.cols.length = (collectorData fl.collectors).length := by
      rw [((C72_all_events Obj.on _ _ x.cols).1 q8).2]; simp
    have hjl : j < (collectorData fl.collectors).length := by
      rw [← hlen]
      exact (List.getElem?_eq_some_iff.1 hj).1
    have hjk : ((collectorData fl.collectors).map (newCollector (M.collectors g) (d.runs (runDir fl.agent fl.run)).1 3
        (max (last' + 1) 0 * fl.episodes)))[j]? = some (newCollector (M.collectors g) (d.runs (runDir fl.agent fl.run)).1 3
        (max (last' + 1) 0 * fl.episodes) (collectorData fl.collectors)[j]) := by
      rw [List.getElem?_map, List.getElem?_eq_getElem hjl]; rfl
    obtain ⟨o, ho, hf⟩ := issue_at q8 j _ hjk
    rw [hj] at ho; cases ho
    obtain ⟨hk, -⟩ := class_of_pickle hf
    rw [hk] at hjk
    obtain ⟨c', u1, -, u2, u3⟩ := h4 _ rfl j _ hjk rfl
    rw [hj] at u1; cases u1
    refine ⟨fun a b => ?_, u3 e⟩
    have := u2 e a b
    rcases hx : c.files e with _ | l
    · exact (this hx).elim
    · exact ⟨l, rfl⟩
  · right
    obtain ⟨h1', -⟩ := (C72_all_events Obj.on _ _ x.cols).1 q8
    have hfeed := h1' _ (List.mem_map_of_mem hmem)
    have := (cols_mem q8 _).2 ⟨_, hmem, Prod.ext rfl hfeed⟩
    simp only [newCollector, feed_pickle] at this
    exact ⟨_, this⟩

/-- Repeating a command that has been completed trains nothing, saves nothing and adds nothing to pickles and curves; but it erases
the console log. -/
theorem C126_rerun (M : Trainer Γ V S D I) (fl : TrainFlags) (d : TrainDisk D I) (g : Γ) (E : ℤ) (h : Spec.Resumes M fl d g E)
    (he : 0 < fl.episodes) (hE : fl.iterations * fl.episodes ≤ E) :
    let r := (d.runs (runDir fl.agent fl.run)).1
    let r' := ((trainMain M fl d).1.runs (runDir fl.agent fl.run)).1
    (trainMain M fl d).2 = .ok () ∧ ((trainMain M fl d).1.runs (runDir fl.agent fl.run)).2 = (d.runs (runDir fl.agent fl.run)).2 ∧
    r'.pickles = r.pickles ∧ r'.points = r.points ∧
    r'.consoleLog = if "console" ∈ fl.collectors ∧ (M.collectors g).saveToFile = true then some [] else r.consoleLog := by
  obtain ⟨w, rr, k, v, s, s1, last, h1, h2, rfl⟩ := h
  have h0 : (fl.iterations - max (last + 1) 0).toNat = 0 := by
    have := le_of_mul_le_mul_right hE he
    omega
  set E := max (last + 1) 0 * fl.episodes with hEd
  set dir := runDir fl.agent fl.run with hdir
  set ks := collectorData fl.collectors with hks
  set done := fun k => (Obj.on .endTraining (Obj.on .preTraining (newCollector (M.collectors g) (d.runs dir).1 3 E k)).1).1 with hdone
  have okE : ∀ k, (Obj.on .endTraining (Obj.on .preTraining (newCollector (M.collectors g) (d.runs dir).1 3 E k)).1).2 = .ok () := by
    intro k
    cases k
    · simp only [newCollector, Obj.on, Console.on]
      cases (M.collectors g).saveToFile <;> simp
    · rfl
    · rfl
  have d1 : dispatch Obj.on .preTraining (ks.map (newCollector (M.collectors g) (d.runs dir).1 3 E)) =
      (ks.map fun k => (Obj.on .preTraining (newCollector (M.collectors g) (d.runs dir).1 3 E k)).1, .ok ()) := by
    refine (dispatch_ok Obj.on .preTraining _ _).2 ⟨?_, by rw [List.map_map]; rfl⟩
    intro c hc
    obtain ⟨k, -, rfl⟩ := List.mem_map.1 hc
    exact (new_later _ _ _ _ k).2
  have d2 : dispatch Obj.on .endTraining (ks.map fun k => (Obj.on .preTraining (newCollector (M.collectors g) (d.runs dir).1 3 E k)).1) =
      (ks.map done, .ok ()) := by
    refine (dispatch_ok Obj.on .endTraining _ _).2 ⟨?_, by rw [List.map_map]; rfl⟩
    intro c hc
    obtain ⟨k, -, rfl⟩ := List.mem_map.1 hc
    exact okE k
  have hrun : runTraining (M.gym g w rr) (M.agent g k) (M.saver g k) Obj.on
      (fun ep => ks.map (newCollector (M.collectors g) (d.runs dir).1 3 ep))
      fl.maxLen fl.renderPeriod fl.episodes fl.iterations v s (d.runs dir).2 =
      ({ env := v, agent := (M.agent g k).setMode s1 true, cols := ks.map done }, (d.runs dir).2, .ok ()) := by
    unfold runTraining
    simp only [h2, Run.send, ← hEd, d1, h0, runIterations, d2]
  have key : ∀ (ks : List CollectorClass) (r1 : Records), r1.pickles = (d.runs dir).1.pickles → r1.points = (d.runs dir).1.points →
      (r1.after (ks.map done)).pickles = (d.runs dir).1.pickles ∧ (r1.after (ks.map done)).points = (d.runs dir).1.points ∧
      (r1.after (ks.map done)).consoleLog =
        if .console ∈ ks ∧ (M.collectors g).saveToFile = true then some [] else r1.consoleLog := by
    intro ks
    induction ks with
    | nil => intro r1 a b; exact ⟨a, b, by simp [Records.after]⟩
    | cons k ks ih =>
      intro r1 a b
      cases k
      · rcases hf : (M.collectors g).saveToFile with _ | _
        · have : r1.update (done .console) = r1 := by
            simp only [hdone, newCollector, Obj.on, Console.on, Records.update, hf, Bool.false_eq_true, if_false]
          have := ih (r1.update (done .console)) (by rw [this]; exact a) (by rw [this]; exact b)
          simp only [hf, Bool.false_eq_true, and_false, if_false] at this ⊢
          refine ⟨this.1, this.2.1, ?_⟩
          rw [show (r1.after ((CollectorClass.console :: ks).map done)).consoleLog =
            ((r1.update (done .console)).after (ks.map done)).consoleLog from rfl, this.2.2]
          simp only [hdone, newCollector, Obj.on, Console.on, Records.update, hf, Bool.false_eq_true, if_false]
        · have e : r1.update (done .console) = { r1 with consoleLog := some [] } := by
            simp only [hdone, newCollector, Obj.on, Console.on, Records.update, hf, if_true]
          have := ih { r1 with consoleLog := some [] } a b
          rw [← e] at this
          refine ⟨this.1, this.2.1, ?_⟩
          rw [show (r1.after ((CollectorClass.console :: ks).map done)).consoleLog =
            ((r1.update (done .console)).after (ks.map done)).consoleLog from rfl, this.2.2]
          simp [hf, e]
      · have := ih (r1.update (done .pickle)) rfl b
        refine ⟨this.1, this.2.1, ?_⟩
        rw [show (r1.after ((CollectorClass.pickle :: ks).map done)).consoleLog =
            ((r1.update (done .pickle)).after (ks.map done)).consoleLog from rfl, this.2.2]
        simp only [List.mem_cons, reduceCtorEq, false_or]
        rfl
      · have := ih (r1.update (done .tensorboard)) a rfl
        refine ⟨this.1, this.2.1, ?_⟩
        rw [show (r1.after ((CollectorClass.tensorboard :: ks).map done)).consoleLog =
            ((r1.update (done .tensorboard)).after (ks.map done)).consoleLog from rfl, this.2.2]
        simp only [List.mem_cons, reduceCtorEq, false_or]
        rfl
  have hmem : CollectorClass.console ∈ ks ↔ "console" ∈ fl.collectors := by
    rw [hks]
    unfold collectorData
    rw [List.mem_filterMap]
    constructor
    · rintro ⟨n, hn, e⟩
      simp only [availableCollectors, List.lookup] at e
      split at e
      · rename_i q; rw [eq_of_beq q] at hn; exact hn
      split at e
      · cases e
      split at e <;> cases e
    · intro hn; exact ⟨_, hn, rfl⟩
  have hmain : (trainMain M fl d).1.runs = Function.update d.runs dir ((d.runs dir).1.after (ks.map done), (d.runs dir).2) ∧
      (trainMain M fl d).2 = .ok () := by
    unfold trainMain
    simp only [h1, ← hdir, ← hks, hrun, and_self]
  obtain ⟨k1, k2, k3⟩ := key ks (d.runs dir).1 rfl rfl
  rw [hmain.1, hmain.2]
  simp only [Function.update_self, true_and]
  refine ⟨k1, k2, ?_⟩
  rw [k3]
  simp only [hmem]

/-- A machine with the toy environment and agent, and all the logging switched on. -/
noncomputable def toyTrainer : Trainer Unit ℤ Unit (List ℤ) ℤ where
  acme := false
  parseGin _ _ := .ok ()
  makeEnv _ _ _ := .ok 5
  gym _ _ _ := toyEnv
  makeAgent _ _ _ := .ok ()
  agent _ _ := toyAgent
  load _ _ _ _ s := .ok s
  registered n := n == "BalloonLearningEnvironment-v0"
  collectors _ := ⟨false, 1, true, true, 1⟩
  saver _ _ := toySaver
  picture _ _ r v := if r then some v else none

/-- Two iterations of one episode of one step. -/
def toyFlags : TrainFlags where
  agent := "random"
  envName := "BalloonLearningEnvironment-v0"
  wind := "simple"
  ginFile := none
  bindings := []
  collectors := ["console", "pickle", "tensorboard"]
  run := 0
  iterations := 2
  maxLen := 1
  episodes := 1
  renderer := none
  renderPeriod := 1

/-- The first iteration has been recorded and saved. -/
noncomputable def toyDisk : TrainDisk (List ℤ) ℤ where
  runs _ := (⟨some [.episode 0 3 1 [0, 1 / 2, 1 / 2]], fun e => if e = 0 then some [⟨0, 1, 1, false⟩, ⟨1, 2, 1, false⟩] else none,
    [(.fineGrainedReward, 1, 0), (.fineGrainedReward, 1, 1), (.episodeReward, 2, 0), (.episodeLength, 1, 0)]⟩, [0])
  image := none

theorem toy_setup : trainSetup toyTrainer toyFlags = .ok ((), .simple, false, .random, 5, ()) := rfl

theorem toy_resumes : Spec.Resumes toyTrainer toyFlags toyDisk () 1 :=
  ⟨.simple, false, .random, 5, (), (), 0, toy_setup, rfl, rfl⟩

theorem toy_train : (trainMain toyTrainer toyFlags toyDisk).2 = .ok () := by
  have e : Int.toNat 1 = 0 + 1 := rfl
  have e1 : Int.toNat (2 - 1) = 0 + 1 := rfl
  unfold trainMain
  rw [toy_setup]
  simp only
  have hk : collectorData toyFlags.collectors = [.console, .pickle, .tensorboard] := rfl
  rw [hk]
  simp only [toyFlags, toyTrainer, toyDisk, runTraining, toySaver, List.map, newCollector]
  norm_num [Run.send, dispatch, Obj.on, Pickle.on, Console.on, Tensorboard.on, toyEnv, toyAgent, e, e1, episodeLoop, runEpisode,
    runEpisodes, runIterations, Console.write, countAction, npIndex]
  rw [if_neg (by simp)]

/-- The resumed session: the earlier record is still there, there is a new one, the log says nothing about episode 0 any more and the
fine-grained curve has two points at position 0. -/
example : ∃ d', trainMain toyTrainer toyFlags toyDisk = (d', .ok ()) ∧
    let r := (d'.runs (runDir "random" 0)).1
    r.pickles 0 = some [⟨0, 1, 1, false⟩, ⟨1, 2, 1, false⟩] ∧ (∃ l, r.pickles 1 = some l) ∧
    (∀ l, r.consoleLog = some l → .episode 0 3 1 [0, 1 / 2, 1 / 2] ∉ l) ∧
    ∃ w l, r.points = [(.fineGrainedReward, 1, 0), (.fineGrainedReward, 1, 1), (.episodeReward, 2, 0), (.episodeLength, 1, 0),
      (.fineGrainedReward, w, 0)] ++ l := by
  have hok : trainMain toyTrainer toyFlags toyDisk = ((trainMain toyTrainer toyFlags toyDisk).1, .ok ()) := Prod.ext rfl toy_train
  refine ⟨_, hok, ?_⟩
  obtain ⟨l, h1, h2⟩ := C126_console_lost toyTrainer toyFlags toyDisk () 1 toy_resumes (by decide) rfl
  have h3 := C126_recorded toyTrainer toyFlags toyDisk _ () 1 toy_resumes hok (by decide) (by decide) (by decide)
  obtain ⟨w, l', h4⟩ := C126_fine_restarts toyTrainer toyFlags toyDisk _ () 1 toy_resumes hok (by decide) (by decide) (by decide)
    (by decide) rfl
  refine ⟨?_, (h3 1).1 le_rfl (by decide), ?_, w, l', ?_⟩
  · exact (h3 0).2 (.inl (by decide))
  · intro l'' hl hm
    have : l'' = l := by
      have := h1.symm.trans hl
      exact (Option.some.inj this).symm
    rw [this] at hm
    exact absurd (h2 _ _ _ _ hm) (by decide)
  · exact h4

/-! ## C127 -/

/-- The objects of a training run are the ones its flags ask for. -/
structure Spec.TrainReady (M : Trainer Γ V S D I) (fl : TrainFlags) (g : Γ) (w : WindKind) (r : Bool) (k : AgentClass) (v : V)
    (s : S) : Prop where
  /-- the agent has a name that is known, and the gin file given, or else its own, has been read -/
  gin : ∃ own, Spec.agentOf M.acme fl.agent = some (k, own) ∧
    M.parseGin ((match fl.ginFile with | some f => some f | none => own).toList) fl.bindings = .ok g
  renderer : fl.renderer = none ∧ r = false ∨ fl.renderer = some "matplotlib" ∧ r = true
  wind : fl.wind = "simple" ∧ w = .simple ∨ fl.wind = "generative" ∧ w = .generative
  name : M.registered fl.envName = true
  env : M.makeEnv g w r = .ok v
  agent : M.makeAgent g k v = .ok s

/-- A training command is set up like the evaluation of the same flags without a checkpoint, in an environment that must be registered. -/
theorem trainSetup_eval (M : Trainer Γ V S D I) (fl : TrainFlags) (x : Γ × WindKind × Bool × AgentClass × V × S) :
    trainSetup M fl = .ok x ↔ M.registered fl.envName = true ∧
      evalSetup M.toMachine ⟨fl.agent, "", fl.wind, fl.ginFile, fl.bindings, 1, 0, none, none, none, fl.renderer, 1⟩ = .ok x := by
  unfold trainSetup evalSetup
  simp only
  rcases bindGin M.toMachine fl.agent fl.ginFile fl.bindings [] with e | g
  · simp
  rcases rendererFlag fl.renderer with e | r
  · simp
  rcases windFactory fl.wind with e | w
  · simp
  by_cases hr : M.registered fl.envName = true
  · simp only [hr, if_true, true_and]
    rcases M.makeEnv g w r with e | v
    · rfl
    rcases agentConstructor M.acme fl.agent with e | k
    · rfl
    simp only
    rcases M.makeAgent g k v with e | s <;> rfl
  · simp [hr]

theorem trainSetup_iff (M : Trainer Γ V S D I) (fl : TrainFlags) (g : Γ) (w : WindKind) (r : Bool) (k : AgentClass) (v : V) (s : S) :
    trainSetup M fl = .ok (g, w, r, k, v, s) ↔ Spec.TrainReady M fl g w r k v s := by
  rw [trainSetup_eval, evalSetup_iff]
  constructor
  · rintro ⟨h0, h⟩
    obtain ⟨s0, h1, -, h3⟩ := h.agent
    exact ⟨h.gin, h.renderer, h.wind, h0, h.env, by rw [h3 (.inl rfl)]; exact h1⟩
  · intro h
    exact ⟨h.name, h.gin, h.renderer, h.wind, h.env, s, h.agent, fun _ _ q => (by cases q), fun _ => rfl⟩

/-- C127 (partial). What a training command does: if the objects its flags ask for cannot be made it raises and changes nothing;
otherwise it runs the training loop on them, with the collectors named and their records and the checkpoints in the directory of agent
and run number, and changes nothing in any other directory. The image is changed only by a command that succeeds. Missing from the
full property: that every name in `--collectors` is heeded (`C127_unknown_collectors`) and that each run has its own
image (`C127_image_shared`). -/
theorem C127_command_partial (M : Trainer Γ V S D I) (fl : TrainFlags) (d : TrainDisk D I) :
    ((∀ g w r k v s, ¬ Spec.TrainReady M fl g w r k v s) ∧ ∃ e, trainMain M fl d = (d, .error e)) ∨
    ∃ g w r k v s, Spec.TrainReady M fl g w r k v s ∧
      let dir := runDir fl.agent fl.run
      let q := runTraining (M.gym g w r) (M.agent g k) (M.saver g k) Obj.on
        (fun ep => (fl.collectors.filterMap fun n => if n = "console" then some CollectorClass.console else
            if n = "pickle" then some .pickle else if n = "tensorboard" then some .tensorboard else none).map
          (newCollector (M.collectors g) (d.runs dir).1 3 ep))
        fl.maxLen fl.renderPeriod fl.episodes fl.iterations v s (d.runs dir).2
      (trainMain M fl d).2 = q.2.2 ∧ (trainMain M fl d).1.runs dir = ((d.runs dir).1.after q.1.cols, q.2.1) ∧
      (∀ a n, (a, n) ≠ (fl.agent, fl.run) → (trainMain M fl d).1.runs (runDir a n) = d.runs (runDir a n)) ∧
      (trainMain M fl d).1.image = (match q.2.2, M.picture g w r q.1.env with
        | .ok (), some i => some i
        | _, _ => d.image) := by
  rcases hs : trainSetup M fl with e | ⟨g, w, r, k, v, s⟩
  · refine .inl ⟨fun g w r k v s h => ?_, e, by unfold trainMain; rw [hs]⟩
    rw [← trainSetup_iff, hs] at h; cases h
  · refine .inr ⟨g, w, r, k, v, s, (trainSetup_iff ..).1 hs, ?_⟩
    have hc : (fun ep => (fl.collectors.filterMap fun n => if n = "console" then some CollectorClass.console else
            if n = "pickle" then some .pickle else if n = "tensorboard" then some .tensorboard else none).map
          (newCollector (M.collectors g) (d.runs (runDir fl.agent fl.run)).1 3 ep)) =
        (fun ep => (collectorData fl.collectors).map (newCollector (M.collectors g) (d.runs (runDir fl.agent fl.run)).1 3 ep)) := by
      funext ep
      unfold collectorData
      congr 2
      funext n
      simp only [availableCollectors, List.lookup]
      by_cases h1 : n = "console"
      · subst h1; rfl
      by_cases h2 : n = "pickle"
      · subst h2; rfl
      by_cases h3 : n = "tensorboard"
      · subst h3; rfl
      simp only [h1, h2, h3, if_false, beq_false_of_ne, ne_eq, not_false_iff]
    simp only [hc]
    have hdir : ∀ a n, (a, n) ≠ (fl.agent, fl.run) → runDir a n ≠ runDir fl.agent fl.run := by
      intro a n hne he
      obtain ⟨h1, h2⟩ := C117_run_dirs _ _ _ _ he
      exact hne (by rw [h1, h2])
    unfold trainMain
    rw [hs]
    simp only
    rcases hq : runTraining (M.gym g w r) (M.agent g k) (M.saver g k) Obj.on
        (fun ep => (collectorData fl.collectors).map (newCollector (M.collectors g) (d.runs (runDir fl.agent fl.run)).1 3 ep))
        fl.maxLen fl.renderPeriod fl.episodes fl.iterations v s (d.runs (runDir fl.agent fl.run)).2 with ⟨x, dd, e | u⟩
    · simp only [Function.update_self, true_and]
      exact ⟨fun a n h => Function.update_of_ne (hdir a n h) _ _, trivial⟩
    · simp only [Function.update_self, true_and]
      refine ⟨fun a n h => Function.update_of_ne (hdir a n h) _ _, ?_⟩
      rcases M.picture g w r x.env with _ | i <;> rfl

/-- C127. A misspelt agent, wind field, renderer or environment is never trained: the command raises and changes nothing. -/
theorem C127_misspelt (M : Trainer Γ V S D I) (fl : TrainFlags) (d : TrainDisk D I)
    (h : Spec.agentOf M.acme fl.agent = none ∨ fl.wind ∉ ["simple", "generative"] ∨
      (∃ n, fl.renderer = some n ∧ n ≠ "matplotlib") ∨ M.registered fl.envName = false) :
    ∃ e, trainMain M fl d = (d, .error e) := by
  rcases C127_command_partial M fl d with ⟨-, h⟩ | ⟨g, w, r, k, v, s, p, -⟩
  · exact h
  exfalso
  rcases h with h | h | ⟨n, h, hn⟩ | h
  · obtain ⟨own, ha, -⟩ := p.gin
    rw [h] at ha; cases ha
  · apply h
    rcases p.wind with ⟨q, -⟩ | ⟨q, -⟩ <;> simp [q]
  · rcases p.renderer with ⟨q, -⟩ | ⟨q, -⟩ <;> rw [h] at q
    · cases q
    · exact hn (by simpa using q)
  · rw [p.name] at h; cases h

/-- The full property is false of the code: a misspelt collector is dropped without a word, whatever the other flags. -/
theorem C127_unknown_collectors (M : Trainer Γ V S D I) (fl : TrainFlags) (d : TrainDisk D I) (before after : List String) (n : String)
    (hn : n ∉ ["console", "pickle", "tensorboard"]) :
    trainMain M { fl with collectors := before ++ n :: after } d = trainMain M { fl with collectors := before ++ after } d := by
  have : collectorData (before ++ n :: after) = collectorData (before ++ after) := by
    unfold collectorData
    simp only [List.mem_cons, List.not_mem_nil, or_false, not_or] at hn
    rw [List.filterMap_append, List.filterMap_append, List.filterMap_cons]
    have : availableCollectors.lookup n = none := by
      simp only [availableCollectors, List.lookup, beq_false_of_ne hn.1, beq_false_of_ne hn.2.1, beq_false_of_ne hn.2.2]
    rw [this]
  unfold trainMain
  have hs : trainSetup M { fl with collectors := before ++ n :: after } = trainSetup M { fl with collectors := before ++ after } := rfl
  rw [hs]
  simp only [this]

/-- Nor has each run its own image: a run with a renderer that succeeds replaces the image left by any other run under the same base
directory, also of another agent. -/
theorem C127_image_shared (M : Trainer Γ V S D I) (fl : TrainFlags) (d d1 : TrainDisk D I) (h : trainMain M fl d = (d1, .ok ()))
    (hp : ∀ g w v, (M.picture g w true v).isSome) (hr : fl.renderer = some "matplotlib") (other : Option I) :
    ∃ i, d1.image = some i ∧ (trainMain M fl { d with image := other }).1.image = some i := by
  obtain ⟨g, w, r, k, v, s, x, dd, h1, h2, -, h4⟩ := trainMain_ok M fl d d1 h
  have hr' : r = true := by
    rcases ((trainSetup_iff ..).1 h1).renderer with ⟨q, -⟩ | ⟨-, q⟩
    · rw [hr] at q; cases q
    · exact q
  subst hr'
  obtain ⟨i, hi⟩ := Option.isSome_iff_exists.1 (hp g w x.env)
  rw [hi] at h4
  refine ⟨i, h4, ?_⟩
  unfold trainMain
  rw [h1]
  simp only [h2, hi]

/-- The toy command is ready; and with `--collectors=pickel` it records nothing at all. -/
example : Spec.TrainReady toyTrainer toyFlags () .simple false .random 5 () ∧
    trainMain toyTrainer { toyFlags with collectors := ["pickel"] } toyDisk = trainMain toyTrainer { toyFlags with collectors := [] } toyDisk :=
  ⟨(trainSetup_iff ..).1 toy_setup, C127_unknown_collectors toyTrainer toyFlags toyDisk [] [] "pickel" (by decide)⟩

/-- An unregistered environment. -/
example : ∃ e, trainMain toyTrainer { toyFlags with envName := "BalloonLearningEnvironment-v1" } toyDisk = (toyDisk, .error e) :=
  C127_misspelt _ _ _ (.inr (.inr (.inr rfl)))

end BLE
