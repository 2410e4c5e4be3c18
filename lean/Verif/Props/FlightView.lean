import Verif.Model.FlightView
import Verif.Props.RunSeed
import Verif.Props.Episode
import Verif.Props.Evaluates

/-!
# C164 — the flight paths that are shown
-/

namespace BLE

variable {K W Rd S : Type}

theorem viewLoop_alike (c : EnvCfg K W Rd) (A : Agent S) (skip n : ℕ) : ∀ (u v : Env K W Rd) (s : S) (a : ℤ) (k : ℕ),
    Alike u.arena v.arena → viewLoop c A skip n u s a k = viewLoop c A skip n v s a k := by
  induction n with
  | zero => intro u v s a k _; rfl
  | succ n ih =>
    intro u v s a k h
    obtain ⟨h1, h2⟩ := envStep_alike c a h
    have hb : (balloonEnv c).balloon (u.step c a).1 = (balloonEnv c).balloon (v.step c a).1 := by
      obtain ⟨i, j, F, G, hA, hB, -, -, -, -, -, -, -, h6, -, -⟩ := h2
      simp only [balloonEnv, Arena.getState, hA, hB, Except.map, h6]
    have ha : (u.step c a).1.air = (v.step c a).1.air := by
      obtain ⟨i, j, F, G, -, -, -, -, -, -, -, -, -, -, -, h8⟩ := h2
      exact h8
    unfold viewLoop
    rw [h1, hb, ha]
    simp only [ih _ _ _ _ _ h2]

/-- C164. All agents are shown on the same episode, whatever happened to their environments before: seeded alike and reset twice, any two
environments give the same outcomes of both resets, and then the same outcomes of all sequences of actions, so that an agent's flight
does not depend on the environment it was given. -/
theorem C164_same_episode (c : EnvCfg K W Rd) (hC : Spec.ForgetsForecast c.world.C) (seed : ℤ) (u v : Env K W Rd) :
    (∀ (S : Type) (A : Agent S) (numSteps skip : ℕ) (s : S),
      viewFlight c A seed numSteps skip u s = viewFlight c A seed numSteps skip v s) ∧
    ((u.seed c seed).reset c none).2 = ((v.seed c seed).reset c none).2 ∧
    (((u.seed c seed).reset c none).1.reset c none).2 = (((v.seed c seed).reset c none).1.reset c none).2 ∧
    ∀ o, (((u.seed c seed).reset c none).1.reset c none).2 = .ok o → ∀ actions,
      Spec.play c actions (((u.seed c seed).reset c none).1.reset c none).1 =
        Spec.play c actions (((v.seed c seed).reset c none).1.reset c none).1 := by
  have hr : (u.seed c seed).rng = (v.seed c seed).rng := rfl
  obtain ⟨h1, h2⟩ := envReset_twin c hC (u.seed c seed) (v.seed c seed) hr
  have hr2 : ((u.seed c seed).reset c none).1.rng = ((v.seed c seed).reset c none).1.rng := by
    rw [(envReset_rng c _).1, (envReset_rng c _).1, hr]
  obtain ⟨g1, g2⟩ := envReset_twin c hC _ _ hr2
  refine ⟨fun S A numSteps skip s => ?_, h1, g1, fun o ho as => play_alike c as (g2 o ho).1⟩
  unfold viewFlight
  simp only [← h1, ← g1]
  cases ((u.seed c seed).reset c none).2 with
  | error e => rfl
  | ok o0 =>
    simp only [bind, Except.bind]
    cases (A.beginEpisode s o0.1).2 with
    | error e => rfl
    | ok b0 =>
      simp only
      rcases ho : (((u.seed c seed).reset c none).1.reset c none).2 with e | o1
      · rfl
      · simp only
        rcases (A.beginEpisode (A.beginEpisode s o0.1).1 o1.1).2 with e | b1
        · rfl
        · exact viewLoop_alike c A skip numSteps _ _ _ _ _ (g2 o1 ho).1

/-- C164. It is not the episode that an evaluation flies for this seed: an evaluation flies the first episode after seeding, the notebook
the second, and (with keys that never repeat) they are drawn from different keys. -/
theorem C164_second_episode (c : EnvCfg K W Rd) (seed : ℤ) (v : Env K W Rd) :
    ((v.seed c seed).reset c none).1.arena = ((v.seed c seed).arena.reset c.world (Spec.episodeKey c.world.J seed 0)).1 ∧
    (((v.seed c seed).reset c none).1.reset c none).1.arena =
      (((v.seed c seed).reset c none).1.arena.reset c.world (Spec.episodeKey c.world.J seed 1)).1 ∧
    ((∀ k k' i i', c.world.J.split k 2 i = c.world.J.split k' 2 i' → k = k' ∧ i = i') →
      (∀ k i, c.world.J.split k 2 i ≠ c.world.J.prngKey seed) →
      Spec.episodeKey c.world.J seed 0 ≠ Spec.episodeKey c.world.J seed 1) := by
  refine ⟨(C23_fresh_keys c seed v []).1, (C23_fresh_keys c seed v [.reset]).1, fun h h' e => ?_⟩
  have := (C23_fresh_keys c seed v []).2 h h' 0 1 e
  omega

/-! ## What is kept -/

theorem arenaStep_air (E : World K W) (a : Command) (A : Arena K W) :
    (A.step E a).1.heap.atms (A.step E a).1.atm = A.heap.atms A.atm := by
  unfold Arena.step
  split
  · rfl
  · split
    · rfl
    · simp only
      split
      · rfl
      · split
        · rfl
        · unfold Arena.measure
          split
          · rfl
          · simp only
            split <;> rfl

theorem envStep_air (c : EnvCfg K W Rd) (a : ℤ) (v : Env K W Rd) : (v.step c a).1.air = v.air := by
  unfold Env.step
  rcases Command.ofInt a with e | cmd
  · rfl
  · have h := arenaStep_air c.world cmd v.arena
    simp only
    unfold Env.air
    split
    · exact h
    · split
      · exact h
      · split
        · exact h
        · exact h

/-- The entry shown for a state: position and altitude in km in the air of the flight, charge in percent. -/
def Spec.ShowsState (α : ℝ) (e : ViewPoint × ℤ) (b : BState) : Prop :=
  e.1.x * 1000 = b.x ∧ e.1.y * 1000 = b.y ∧ (∃ air, atPressure α b.pressure = .ok air ∧ e.1.altitude * 1000 = air.height) ∧
    e.1.charge / 100 * b.cap = b.charge ∧ e.2 = b.dateTime

theorem viewPoint_shows (α : ℝ) (b : BState) (p : ViewPoint) (h : viewPoint α b = .ok p) : Spec.ShowsState α (p, b.dateTime) b := by
  unfold viewPoint at h
  rcases ha : atPressure α b.pressure with e | air
  · rw [ha] at h; cases h
  · rw [ha] at h
    unfold BState.soc pyDiv at h
    by_cases hc : b.cap = 0
    · simp only [bind, Except.bind, hc, if_true] at h; cases h
    · simp only [bind, Except.bind, hc, if_false, pure, Except.pure] at h
      obtain rfl := Except.ok.inj h
      exact ⟨by simp, by simp, ⟨air, ha, by simp⟩, by simp only; field_simp, rfl⟩

/-- The states of a flight that are shown when counting starts at `k`: those with a count divisible by `skip`. -/
def Spec.everyNth (skip : ℕ) : ℕ → List Spec.Seen → List BState
  | _, [] => []
  | k, x :: t => if skip ∣ k then x.ball :: Spec.everyNth skip (k + 1) t else Spec.everyNth skip (k + 1) t

theorem viewLoop_spec (c : EnvCfg K W Rd) (A : Agent S) (skip n : ℕ) : ∀ (v : Env K W Rd) (s : S) (a : ℤ) (k : ℕ)
    (l : List (ViewPoint × ℤ)), viewLoop c A skip n v s a k = .ok l →
    ∃ t v' s', Spec.Flight (balloonEnv c) A v s a t v' s' ∧ t.length ≤ n ∧
      (∀ x ∈ t.dropLast, x.out.terminal = false) ∧ (t.length < n → ∃ x, t.getLast? = some x ∧ x.out.terminal = true) ∧
      List.Forall₂ (Spec.ShowsState v.air) l (Spec.everyNth skip k t) := by
  induction n with
  | zero =>
    intro v s a k l h
    obtain rfl := Except.ok.inj h
    exact ⟨[], v, s, .nil v s a, le_rfl, by simp, by simp, .nil⟩
  | succ n ih =>
    intro v s a k l h
    unfold viewLoop at h
    rcases h1 : (v.step c a).2 with e | out
    · rw [h1] at h; cases h
    rw [h1] at h
    simp only [bind, Except.bind] at h
    rcases h2 : (A.step s out.reward out.obs).2 with e | a'
    · rw [h2] at h; cases h
    rw [h2] at h
    simp only at h
    rcases h3 : (balloonEnv c).balloon (v.step c a).1 with e | b
    · rw [h3] at h; cases h
    rw [h3] at h
    simp only at h
    by_cases hk : skip = 0
    · rw [if_pos hk] at h; cases h
    rw [if_neg hk] at h
    have hstep : (balloonEnv c).step a v = ((v.step c a).1, .ok out) := Prod.ext rfl h1
    have hagent : A.step s out.reward out.obs = ((A.step s out.reward out.obs).1, .ok a') := Prod.ext rfl h2
    obtain ⟨here, hh, hshow, h⟩ : ∃ here, (if k % skip = 0 then (viewPoint (v.step c a).1.air b).map fun p => [(p, b.dateTime)]
        else .ok []) = Except.ok here ∧ List.Forall₂ (Spec.ShowsState v.air) here (if skip ∣ k then [b] else []) ∧
        (if out.terminal = true then Except.ok (here ++ []) else
          Except.bind (viewLoop c A skip n (v.step c a).1 (A.step s out.reward out.obs).1 a' (k + 1))
            fun rest => Except.ok (here ++ rest)) = Except.ok l := by
      by_cases hd : k % skip = 0
      · rw [if_pos hd] at h ⊢
        rcases hp : viewPoint (v.step c a).1.air b with e | p
        · rw [hp] at h; cases h
        · rw [hp] at h
          refine ⟨_, rfl, ?_, h⟩
          rw [if_pos (Nat.dvd_of_mod_eq_zero hd)]
          rw [envStep_air] at hp
          exact .cons (viewPoint_shows _ _ _ hp) .nil
      · rw [if_neg hd] at h ⊢
        refine ⟨_, rfl, ?_, h⟩
        rw [if_neg fun c => hd (Nat.mod_eq_zero_of_dvd c)]
        exact .nil
    have hs : ∀ t, Spec.everyNth skip k (⟨out, b, (balloonEnv c).radius (v.step c a).1⟩ :: t) =
        (if skip ∣ k then [b] else []) ++ Spec.everyNth skip (k + 1) t := by
      intro t
      rw [Spec.everyNth]
      split <;> rfl
    by_cases ht : out.terminal = true
    · rw [if_pos ht] at h
      obtain rfl := Except.ok.inj h
      refine ⟨[⟨out, b, (balloonEnv c).radius (v.step c a).1⟩], _, _, .cons hstep hagent h3 (Or.inl rfl) (.nil _ _ _), by simp, by simp,
        fun _ => ⟨_, rfl, ht⟩, ?_⟩
      rw [hs]
      exact List.rel_append hshow .nil
    · rw [if_neg ht] at h
      rcases hl : viewLoop c A skip n (v.step c a).1 (A.step s out.reward out.obs).1 a' (k + 1) with e | rest
      · rw [hl] at h; cases h
      · rw [hl] at h
        obtain rfl := Except.ok.inj h
        obtain ⟨t, v', s', f, l1, l2, l3, l4⟩ := ih _ _ _ _ _ hl
        rw [envStep_air] at l4
        refine ⟨⟨out, b, (balloonEnv c).radius (v.step c a).1⟩ :: t, v', s', .cons hstep hagent h3 (Or.inl rfl) f, by simpa using l1,
          ?_, ?_, ?_⟩
        · intro x hx
          cases t with
          | nil => simp at hx
          | cons y t =>
            rw [List.dropLast_cons_cons] at hx
            rcases List.mem_cons.1 hx with rfl | hx
            · simpa using ht
            · exact l2 x hx
        · intro hlt
          obtain ⟨x, hx, hx'⟩ := l3 (by simpa using hlt)
          refine ⟨x, ?_, hx'⟩
          cases t with
          | nil => simp at hx
          | cons y t => rw [List.getLast?_cons_cons]; exact hx
        · rw [hs]
          exact List.rel_append hshow l4

theorem everyNth_get (skip : ℕ) (hk : 0 < skip) (t : List Spec.Seen) : ∀ k j, skip ∣ k + j → j < skip →
    ∀ i, (Spec.everyNth skip k t)[i]? = (t[j + i * skip]?).map (·.ball) := by
  induction t with
  | nil => intro k j _ _ i; simp [Spec.everyNth]
  | cons x t ih =>
    intro k j hd hj i
    rw [Spec.everyNth]
    by_cases hz : j = 0
    · subst hz
      rw [if_pos (by simpa using hd)]
      cases i with
      | zero => simp
      | succ i =>
        have := ih (k + 1) (skip - 1) (by
          obtain ⟨m, hm⟩ := hd
          exact ⟨m + 1, by rw [Nat.mul_succ]; omega⟩) (by omega) i
        rw [List.getElem?_cons_succ, this]
        have e : 0 + (i + 1) * skip = (skip - 1 + i * skip) + 1 := by
          rw [Nat.succ_mul]; omega
        rw [e, List.getElem?_cons_succ]
    · have hn : ¬ skip ∣ k := fun c => by
        have := (Nat.dvd_add_right c).1 hd
        exact absurd (Nat.le_of_dvd (by omega) this) (by omega)
      rw [if_neg hn, ih (k + 1) (j - 1) (by rw [show k + 1 + (j - 1) = k + j by omega]; exact hd) (by omega) i]
      have e : j + i * skip = (j - 1 + i * skip) + 1 := by omega
      rw [e, List.getElem?_cons_succ]

/-- C164. What is kept of a flight is the state after its first step and after every `skip`-th step from then on, as it was: position
and altitude in km, charge in percent, and the time; the flight is that of the agent, begun with its answer to the second reset, to its
end or over `numSteps` steps. -/
theorem C164_kept (c : EnvCfg K W Rd) (A : Agent S) (seed : ℤ) (numSteps skip : ℕ) (v : Env K W Rd) (s : S)
    (l : List (ViewPoint × ℤ)) (hn : 0 < skip) (h : viewFlight c A seed numSteps skip v s = .ok l) :
    ∃ v0 s0 a t v' s', Spec.Flight (balloonEnv c) A v0 s0 a t v' s' ∧ t.length ≤ numSteps ∧
      v0 = (((v.seed c seed).reset c none).1.reset c none).1 ∧
      (∃ obs obs', (balloonEnv c).reset (v.seed c seed) = (((v.seed c seed).reset c none).1, .ok obs) ∧
        (balloonEnv c).reset ((v.seed c seed).reset c none).1 = (v0, .ok obs') ∧
        A.beginEpisode (A.beginEpisode s obs).1 obs' = (s0, .ok a)) ∧
      (∀ x ∈ t.dropLast, x.out.terminal = false) ∧ (t.length < numSteps → ∃ x, t.getLast? = some x ∧ x.out.terminal = true) ∧
      (∀ i, (∃ e, l[i]? = some e) ↔ i * skip < t.length) ∧
      ∀ i e x, l[i]? = some e → t[i * skip]? = some x → Spec.ShowsState v0.air e x.ball := by
  unfold viewFlight at h
  simp only [bind, Except.bind] at h
  rcases h0 : ((v.seed c seed).reset c none).2 with e | o0
  · rw [h0] at h; cases h
  rw [h0] at h
  simp only at h
  rcases h1 : (A.beginEpisode s o0.1).2 with e | b0
  · rw [h1] at h; cases h
  rw [h1] at h
  simp only at h
  rcases h2 : (((v.seed c seed).reset c none).1.reset c none).2 with e | o1
  · rw [h2] at h; cases h
  rw [h2] at h
  simp only at h
  rcases h3 : (A.beginEpisode (A.beginEpisode s o0.1).1 o1.1).2 with e | b1
  · rw [h3] at h; cases h
  rw [h3] at h
  simp only at h
  obtain ⟨t, v', s', f, l1, l2, l3, l4⟩ := viewLoop_spec c A skip numSteps _ _ _ _ _ h
  have hg := everyNth_get skip hn t 0 0 (by simp) hn
  refine ⟨_, _, _, t, v', s', f, l1, rfl, ⟨o0.1, o1.1, ?_, ?_, Prod.ext rfl h3⟩, l2, l3, fun i => ?_, fun i e x he hx => ?_⟩
  · simp only [balloonEnv, h0, Except.map]
  · simp only [balloonEnv, h2, Except.map]
  · have hi := hg i
    rw [zero_add] at hi
    have hlen := l4.length_eq
    constructor
    · rintro ⟨e, he⟩
      obtain ⟨hlt, -⟩ := List.getElem?_eq_some_iff.1 he
      by_contra hc
      rw [List.getElem?_eq_none (by omega : t.length ≤ i * skip), Option.map_none, List.getElem?_eq_none_iff] at hi
      omega
    · intro hlt
      rw [List.getElem?_eq_getElem hlt, Option.map_some] at hi
      obtain ⟨hlt', -⟩ := List.getElem?_eq_some_iff.1 hi
      exact ⟨_, List.getElem?_eq_getElem (by omega : i < l.length)⟩
  · have hi := hg i
    rw [zero_add, hx, Option.map_some] at hi
    obtain ⟨a1, a2⟩ := List.getElem?_eq_some_iff.1 he
    obtain ⟨b1, b2⟩ := List.getElem?_eq_some_iff.1 hi
    have := List.Forall₂.get l4 a1 b1
    simp only [List.get_eq_getElem, a2, b2] at this
    exact this

/-! ## Times -/

theorem flight_clock (c : EnvCfg K W Rd) (A : Agent S) {v v' : Env K W Rd} {s s' : S} {a : ℤ} {t : List Spec.Seen}
    (h : Spec.Flight (balloonEnv c) A v s a t v' s') : (∀ x ∈ t.dropLast, x.out.terminal = false) →
    ∀ (k : ℕ) x, t[k]? = some x → ∃ i, v.arena.ball = some i ∧
      (v.arena.heap.balls i).dateTime + k * 180000000 < x.ball.dateTime ∧
      x.ball.dateTime ≤ (v.arena.heap.balls i).dateTime + (k + 1) * 180000000 ∧
      (k + 1 < t.length → x.ball.dateTime = (v.arena.heap.balls i).dateTime + (k + 1) * 180000000) := by
  induction h with
  | nil v s a => intro _ k x hx; simp at hx
  | @cons v v1 v2 v3 s s1 s3 a a1 out b t hstep hagent hball hrender rest ih =>
    intro hn k x hx
    obtain ⟨i, w, hi, hi', -, m1, m2, -⟩ := C96_motion c a v v1 out hstep
    have hb : b = v1.arena.heap.balls i := by
      simp only [balloonEnv, Arena.getState, hi', Except.map] at hball
      exact (Except.ok.inj hball).symm
    have h2 : v2.arena = v1.arena := by
      rcases hrender with rfl | rfl
      · rfl
      · rfl
    cases k with
    | zero =>
      simp only [List.getElem?_cons_zero, Option.some.injEq] at hx
      subst hx
      refine ⟨i, hi, ?_⟩
      simp only [hb]
      rcases ht : out.terminal with _ | _
      · obtain ⟨-, e⟩ := m1 ht
        refine ⟨by push_cast; omega, by push_cast; omega, fun _ => by push_cast; omega⟩
      · obtain ⟨j, j1, j2, -, e⟩ := m2 ht
        refine ⟨by push_cast; omega, by push_cast; omega, fun hl => ?_⟩
        cases t with
        | nil => simp at hl
        | cons y t =>
          have := hn _ (by rw [List.dropLast_cons_cons]; exact List.mem_cons_self)
          simp only [ht] at this
          cases this
    | succ k =>
      rw [List.getElem?_cons_succ] at hx
      cases t with
      | nil => simp at hx
      | cons y t =>
        have hout : out.terminal = false := hn _ (by rw [List.dropLast_cons_cons]; exact List.mem_cons_self)
        obtain ⟨-, e⟩ := m1 hout
        obtain ⟨i', hi2, q1, q2, q3⟩ := ih (fun z hz => hn z (by rw [List.dropLast_cons_cons]; exact List.mem_cons_of_mem _ hz)) k x hx
        rw [h2, hi'] at hi2
        injection hi2 with hi2
        subst hi2
        rw [h2] at q1 q2 q3
        refine ⟨i, hi, by push_cast at *; linarith, by push_cast at *; linarith, fun hl => ?_⟩
        have := q3 (by simp only [List.length_cons] at hl ⊢; omega)
        push_cast at *; linarith

theorem viewFlight_resets (c : EnvCfg K W Rd) (A : Agent S) (seed : ℤ) (numSteps skip : ℕ) (v : Env K W Rd) (s : S)
    (l : List (ViewPoint × ℤ)) (h : viewFlight c A seed numSteps skip v s = .ok l) :
    ∃ o, (((v.seed c seed).reset c none).1.reset c none).2 = .ok o := by
  unfold viewFlight at h
  simp only [bind, Except.bind] at h
  rcases h0 : ((v.seed c seed).reset c none).2 with e | o0
  · rw [h0] at h; cases h
  rw [h0] at h
  simp only at h
  rcases h1 : (A.beginEpisode s o0.1).2 with e | b0
  · rw [h1] at h; cases h
  rw [h1] at h
  simp only at h
  rcases h2 : (((v.seed c seed).reset c none).1.reset c none).2 with e | o1
  · rw [h2] at h; cases h
  · exact ⟨o1, rfl⟩

/-- C164. The times of the first agent serve for all: entries of the same number were taken at the same time, three minutes of flight
per step, except that the last entry of a flight may be less than three minutes early, if the flight ended there. -/
theorem C164_times {S' : Type} (c : EnvCfg K W Rd) (hC : Spec.ForgetsForecast c.world.C) (A : Agent S) (A' : Agent S') (seed : ℤ)
    (numSteps skip : ℕ) (u v : Env K W Rd) (s : S) (s' : S') (l l' : List (ViewPoint × ℤ)) (hn : 0 < skip)
    (h : viewFlight c A seed numSteps skip u s = .ok l) (h' : viewFlight c A' seed numSteps skip v s' = .ok l') :
    ∃ start : ℤ, ∀ (i : ℕ) e e', l[i]? = some e → l'[i]? = some e' →
      start + i * skip * 180000000 < e.2 ∧ e.2 ≤ start + (i * skip + 1) * 180000000 ∧ |e.2 - e'.2| < 180000000 ∧
      (i + 1 < l.length → e.2 = start + (i * skip + 1) * 180000000) ∧ (i + 1 < l.length → i + 1 < l'.length → e.2 = e'.2) := by
  obtain ⟨o, ho⟩ := viewFlight_resets c A seed numSteps skip u s l h
  have hr2 : ((u.seed c seed).reset c none).1.rng = ((v.seed c seed).reset c none).1.rng := by
    rw [(envReset_rng c _).1, (envReset_rng c _).1]; rfl
  have hal := ((envReset_twin c hC _ _ hr2).2 o ho).1
  obtain ⟨_, s0, a, t, v', s1, f, -, rfl, -, n1, -, k1, k2⟩ := C164_kept c A seed numSteps skip u s l hn h
  obtain ⟨_, s0', a', t', v'', s1', f', -, rfl, -, n1', -, k1', k2'⟩ := C164_kept c A' seed numSteps skip v s' l' hn h'
  obtain ⟨i0, j0, F, G, hA, hB, -, -, -, -, -, -, -, h6, -, -⟩ := hal
  have one : ∀ (i : ℕ) e, l[i]? = some e → ∀ st, st = ((((u.seed c seed).reset c none).1.reset c none).1.arena.heap.balls i0).dateTime →
      st + (i * skip : ℕ) * 180000000 < e.2 ∧ e.2 ≤ st + ((i * skip : ℕ) + 1) * 180000000 ∧
      (i + 1 < l.length → e.2 = st + ((i * skip : ℕ) + 1) * 180000000) := by
    rintro i e he _ rfl
    have hlt := (k1 i).1 ⟨e, he⟩
    obtain ⟨b, hb, q1, q2, q3⟩ := flight_clock c A f n1 (i * skip) _ (List.getElem?_eq_getElem hlt)
    rw [hA] at hb; injection hb with hb; subst hb
    obtain ⟨-, -, -, -, hd⟩ := k2 i e _ he (List.getElem?_eq_getElem hlt)
    rw [← hd] at q1 q2 q3
    refine ⟨q1, q2, fun hl => q3 ?_⟩
    have := (k1 (i + 1)).1 ⟨_, List.getElem?_eq_getElem hl⟩
    rw [Nat.succ_mul] at this
    omega
  have two : ∀ (i : ℕ) e, l'[i]? = some e → ∀ st, st = ((((u.seed c seed).reset c none).1.reset c none).1.arena.heap.balls i0).dateTime →
      st + (i * skip : ℕ) * 180000000 < e.2 ∧ e.2 ≤ st + ((i * skip : ℕ) + 1) * 180000000 ∧
      (i + 1 < l'.length → e.2 = st + ((i * skip : ℕ) + 1) * 180000000) := by
    rintro i e he _ rfl
    have hlt := (k1' i).1 ⟨e, he⟩
    obtain ⟨b, hb, q1, q2, q3⟩ := flight_clock c A' f' n1' (i * skip) _ (List.getElem?_eq_getElem hlt)
    rw [hB] at hb; injection hb with hb; subst hb
    obtain ⟨-, -, -, -, hd⟩ := k2' i e _ he (List.getElem?_eq_getElem hlt)
    rw [← hd, ← h6] at q1 q2 q3
    refine ⟨q1, q2, fun hl => q3 ?_⟩
    have := (k1' (i + 1)).1 ⟨_, List.getElem?_eq_getElem hl⟩
    rw [Nat.succ_mul] at this
    omega
  refine ⟨((((u.seed c seed).reset c none).1.reset c none).1.arena.heap.balls i0).dateTime, fun i e e' he he' => ?_⟩
  obtain ⟨p1, p2, p3⟩ := one i e he _ rfl
  obtain ⟨r1, r2, r3⟩ := two i e' he' _ rfl
  push_cast at p1 p2 p3 r1 r2 r3
  refine ⟨p1, p2, ?_, p3, fun g g' => ?_⟩
  · rw [abs_lt]; constructor <;> linarith
  · rw [p3 g, r3 g']

/-- C164. Two flights have equally many entries unless one of them ended before the notebook's number of steps. -/
theorem C164_lengths {S' : Type} (c : EnvCfg K W Rd) (A : Agent S) (A' : Agent S') (seed : ℤ)
    (numSteps skip : ℕ) (u v : Env K W Rd) (s : S) (s' : S') (l l' : List (ViewPoint × ℤ)) (hn : 0 < skip)
    (h : viewFlight c A seed numSteps skip u s = .ok l) (h' : viewFlight c A' seed numSteps skip v s' = .ok l') :
    l.length = l'.length ∨
      (∃ v0 s0 a t v1 s1 x, Spec.Flight (balloonEnv c) A v0 s0 a t v1 s1 ∧
        v0 = (((u.seed c seed).reset c none).1.reset c none).1 ∧ t.getLast? = some x ∧ x.out.terminal = true ∧ t.length < numSteps) ∨
      ∃ v0 s0 a t v1 s1 x, Spec.Flight (balloonEnv c) A' v0 s0 a t v1 s1 ∧
        v0 = (((v.seed c seed).reset c none).1.reset c none).1 ∧ t.getLast? = some x ∧ x.out.terminal = true ∧ t.length < numSteps := by
  obtain ⟨v0, s0, a, t, v1, s1, f, l1, hv, -, -, l3, k1, -⟩ := C164_kept c A seed numSteps skip u s l hn h
  obtain ⟨v0', s0', a', t', v1', s1', f', l1', hv', -, -, l3', k1', -⟩ := C164_kept c A' seed numSteps skip v s' l' hn h'
  by_cases e : t.length < numSteps
  · obtain ⟨x, hx, hx'⟩ := l3 e
    exact .inr (.inl ⟨v0, s0, a, t, v1, s1, x, f, hv, hx, hx', e⟩)
  by_cases e' : t'.length < numSteps
  · obtain ⟨x, hx, hx'⟩ := l3' e'
    exact .inr (.inr ⟨v0', s0', a', t', v1', s1', x, f', hv', hx, hx', e'⟩)
  left
  have hl : t.length = t'.length := by omega
  have lt : ∀ i, i < l.length ↔ i < l'.length := by
    intro i
    have b := k1 i
    have b' := k1' i
    rw [← hl] at b'
    have g : ∀ (m : List (ViewPoint × ℤ)), (∃ e, m[i]? = some e) ↔ i < m.length := fun m =>
      ⟨fun ⟨e, he⟩ => (List.getElem?_eq_some_iff.1 he).1, fun hi => ⟨_, List.getElem?_eq_getElem hi⟩⟩
    rw [← g l, ← g l', b, b']
  have := lt l.length
  have := lt l'.length
  omega

/-! ## The charge curves -/

/-- C164. The charge curves can be drawn in every frame exactly if all flights have as many entries as the first, whose times are
used; so an agent whose flight ends early stops the animation. -/
theorem C164_curves (times : List ℤ) (paths : List (List ViewPoint)) :
    (∀ curr, ∃ curves, chargeCurves times paths curr = .ok curves) ↔ ∀ path ∈ paths, path.length = times.length := by
  have key : ∀ (curr : ℕ) (ps : List (List ViewPoint)), (∃ curves, chargeCurves times ps curr = .ok curves) ↔
      ∀ path ∈ ps, min curr times.length = min curr path.length := by
    intro curr ps
    unfold chargeCurves
    simp only [List.length_take]
    induction ps with
    | nil => simp only [List.mapM_nil, List.not_mem_nil, false_imp_iff, implies_true, iff_true]; exact ⟨[], rfl⟩
    | cons p ps ih =>
      rw [List.mapM_cons, List.forall_mem_cons, ← ih]
      by_cases hp : min curr times.length = min curr p.length
      · rw [if_pos hp]
        constructor
        · rintro ⟨cs, hc⟩
          refine ⟨hp, ?_⟩
          revert hc
          generalize (ps.mapM _ : Except Err _) = m
          intro hc
          cases m with
          | error e => cases hc
          | ok x => exact ⟨x, rfl⟩
        · rintro ⟨-, cs, hc⟩
          rw [hc]; exact ⟨_, rfl⟩
      · rw [if_neg hp]
        constructor
        · rintro ⟨cs, hc⟩; cases hc
        · rintro ⟨h, -⟩; exact absurd h hp
  constructor
  · intro h path hp
    have := (key (times.length + path.length) paths).1 (h _) path hp
    omega
  · intro h curr
    rw [key]
    intro path hp
    rw [h path hp]

/-! ## The notebook runs -/

theorem viewLoop_flies {c : EnvCfg K W Rd} (two : Bool) (hR : c.world.R = gpr two) {cal : Calendar} (hcal : Spec.Gregorian cal)
    (hE : c.world.sun = realSun cal) (hC : Spec.GoodWind c.world.C) {q : RewardParams} (hh : 0 < q.halflife)
    (hrew : c.rewardFn = reward c.world.sun q) {B : ℝ} (hB0 : 0 ≤ B) (hB : Spec.WindLimit c.world B) {A : Agent S}
    {I J : S → Prop} (hA : Spec.Pilot c.world A I J) {skip : ℕ} (hskip : skip ≠ 0) (i n : ℕ) :
    ∀ (m : ℕ) (v : Env K W Rd) (s : S) (a : ℤ) (k : ℕ), Aboard c.world B m v.arena i →
      (v.arena.heap.balls i).status = .ok → J s → (a = 0 ∨ a = 1 ∨ a = 2) → m + n ≤ 14300000 →
      180 * B * (m + n) ≤ 4200000 → ∃ l, viewLoop c A skip n v s a k = .ok l := by
  induction n with
  | zero => intro m v s a k _ _ _ _ _ _; exact ⟨[], rfl⟩
  | succ n ih =>
    intro m v s a k h hok hI ha hmn hd
    have hd1 : 180 * B * ((m : ℝ) + 1) ≤ 4200000 := by
      refine le_trans ?_ hd
      have h0 : (0 : ℝ) ≤ 180 * B := by positivity
      refine mul_le_mul_of_nonneg_left ?_ h0
      have : (0 : ℝ) ≤ (n : ℝ) := Nat.cast_nonneg n
      push_cast; linarith
    obtain ⟨out, h1, h2, h3⟩ := aboard_flies two hR hcal hE hC hh hrew hB0 hB h hok (by omega) hd1 a ha
    have h' := aboard_step hcal hE hB h a
    obtain ⟨s', a', g1, g2, g3⟩ := hA.go s out.reward out.obs hI h2
    have e2 : (balloonEnv c).balloon (v.step c a).1 = .ok ((v.step c a).1.arena.heap.balls i) := by
      simp only [balloonEnv, Arena.getState, h'.episode.ball, Except.map]
    obtain ⟨p, hp⟩ : ∃ p, viewPoint (v.step c a).1.air ((v.step c a).1.arena.heap.balls i) = .ok p := by
      obtain ⟨w, hw, -⟩ := aloft_height h'.episode.blend.1 h'.episode.blend.2 h'.aloft.range.1 h'.aloft.range.2
      have hw' : atPressure (v.step c a).1.air ((v.step c a).1.arena.heap.balls i).pressure = .ok w := hw
      have hsoc : ((v.step c a).1.arena.heap.balls i).soc = .ok _ := pyDiv_ok h'.episode.flyer.sound.cap
      unfold viewPoint
      rw [hw', hsoc]
      exact ⟨_, rfl⟩
    have hrest : out.terminal = false → ∃ l, viewLoop c A skip n (v.step c a).1 s' a' (k + 1) = .ok l := fun ht =>
      ih (m + 1) _ _ _ _ h' (h3 ht) g2 g3 (by omega) (by push_cast at hd ⊢; linarith)
    unfold viewLoop
    simp only [h1, g1, e2, hp, if_neg hskip, bind, Except.bind, Except.map]
    rcases ht : out.terminal with _ | _
    · obtain ⟨l, hl⟩ := hrest ht
      rw [hl]
      split_ifs <;> exact ⟨_, rfl⟩
    · simp only [if_true]
      split_ifs <;> exact ⟨_, rfl⟩

/-- C164. Flying an agent that answers every observation of a flight with 0, 1 or 2, also if an episode begins before the last one was
ended, never raises, in weather no faster than `B` with 180 `B` times the number of steps at most 4,200 km. -/
theorem C164_completes (c : EnvCfg K W Rd) (hJ : Spec.SaneDraws c.world.J) (two : Bool) (hR : c.world.R = gpr two)
    (cal : Calendar) (hcal : Spec.Gregorian cal) (hE : c.world.sun = realSun cal) (hC : Spec.GoodWind c.world.C)
    (q : RewardParams) (hh : 0 < q.halflife) (hrew : c.rewardFn = reward c.world.sun q) (B : ℝ) (hB0 : 0 ≤ B)
    (hB : Spec.WindLimit c.world B) (A : Agent S) (I J : S → Prop) (hA : Spec.Pilot c.world A I J) (hJI : ∀ s, J s → I s)
    (seed : ℤ) (numSteps skip : ℕ) (hskip : 0 < skip) (hm : numSteps ≤ 14300000) (hd : 180 * B * numSteps ≤ 4200000)
    (v : Env K W Rd) (s : S) (hI : I s) :
    ∃ l, viewFlight c A seed numSteps skip v s = .ok l ∧ (0 < numSteps → l ≠ []) := by
  obtain ⟨v0, obs0, i0, e0, hobs0, -, -⟩ := reset_aboard hJ two hR hcal hE hC hB (v.seed c seed)
  obtain ⟨v1, obs1, i1, e1, hobs1, hab, hok⟩ := reset_aboard hJ two hR hcal hE hC hB v0
  obtain ⟨s1, a1, b1, b2, -⟩ := hA.start s obs0 hI hobs0
  obtain ⟨s2, a2, d1, d2, d3⟩ := hA.start s1 obs1 (hJI _ b2) hobs1
  have get : ∀ (x y : Env K W Rd) (obs : List ℝ), (balloonEnv c).reset x = (y, .ok obs) →
      (x.reset c none).1 = y ∧ ∃ o : List ℝ × Info, (x.reset c none).2 = .ok o ∧ o.1 = obs := by
    intro x y obs h
    simp only [balloonEnv, Prod.mk.injEq] at h
    refine ⟨h.1, ?_⟩
    have h2 := h.2
    rcases ho : (x.reset c none).2 with e | o
    · rw [ho] at h2; cases h2
    · rw [ho] at h2
      exact ⟨o, rfl, Except.ok.inj h2⟩
  obtain ⟨f0, o0, f1, rfl⟩ := get _ _ _ e0
  obtain ⟨f2, o1, f3, rfl⟩ := get _ _ _ e1
  obtain ⟨l, hl⟩ := viewLoop_flies two hR hcal hE hC hh hrew hB0 hB hA hskip.ne' i1 numSteps 0 v1 s2 a2 0 hab hok d2 d3 (by omega)
    (by push_cast; linarith)
  have hv : viewFlight c A seed numSteps skip v s = .ok l := by
    unfold viewFlight
    simp only [f1, f0, b1, f3, f2, d1, bind, Except.bind]
    exact hl
  refine ⟨l, hv, fun hpos hnil => ?_⟩
  obtain ⟨w0, s0, a, t, v', s', -, -, -, -, -, n2, k1, -⟩ := C164_kept c A seed numSteps skip v s l hskip hv
  have ht : 0 < t.length := by
    by_contra hc
    obtain ⟨x, hx, -⟩ := n2 (by omega)
    have : t = [] := List.length_eq_zero_iff.1 (by omega)
    rw [this] at hx; cases hx
  obtain ⟨e, he⟩ := (k1 0).2 (by omega)
  rw [hnil] at he; cases he

/-- StationSeeker is shown for two days in the sunny world, one entry every 24 minutes; another environment gives the same path. -/
example (u v : Env (List ℕ) Unit Unit) : ∃ e l, viewFlight sunnyCfg stationSeeker 0 960 8 u () = .ok (e :: l) ∧
    viewFlight sunnyCfg stationSeeker 0 960 8 v () = .ok (e :: l) := by
  obtain ⟨l, h1, h2⟩ := C164_completes sunnyCfg sunnyWorld_draws true rfl gregorian gregorian_ok rfl good_static RewardParams.default
    (by norm_num [RewardParams.default]) rfl 21.1 (by norm_num)
    (C136_static_limit sunnyCfg.world rfl (fun _ _ _ _ _ => by norm_num [sunnyCfg, sunnyWorld, demoWorld])) stationSeeker
    (fun _ => True) (fun _ => True) (C138_seeker _ true rfl gregorian gregorian_ok rfl) (fun _ _ => trivial) 0 960 8 (by norm_num)
    (by norm_num) (by norm_num) u () trivial
  obtain ⟨e, l', rfl⟩ := List.exists_cons_of_ne_nil (h2 (by norm_num))
  exact ⟨e, l', h1, by rw [← (C164_same_episode sunnyCfg forgets_static 0 u v).1]; exact h1⟩

/-- Every eighth state: of 20 states the 1st, 9th and 17th. -/
example (t : List Spec.Seen) (ht : t.length = 20) : (Spec.everyNth 8 0 t).length = 3 ∧
    (Spec.everyNth 8 0 t)[2]? = (t[16]?).map (·.ball) := by
  have h := everyNth_get 8 (by norm_num) t 0 0 (by norm_num) (by norm_num)
  have h3 := h 3
  have h2 := h 2
  norm_num at h3 h2
  refine ⟨?_, h2⟩
  rw [List.getElem?_eq_getElem (by omega : 16 < t.length), Option.map_some] at h2
  obtain ⟨g, -⟩ := List.getElem?_eq_some_iff.1 h2
  rw [List.getElem?_eq_none (by omega : t.length ≤ 24), Option.map_none, List.getElem?_eq_none_iff] at h3
  omega

/-- The second agent's flight ended early: the animation stops with an error in its second frame. -/
example (p q r : ViewPoint) : chargeCurves [10, 20] [[p, q], [r]] 1 = .ok [[(10, p.charge)], [(10, r.charge)]] ∧
    chargeCurves [10, 20] [[p, q], [r]] 2 = .error .value := ⟨rfl, rfl⟩

end BLE
