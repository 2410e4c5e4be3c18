import Verif.Props.Episode
import Verif.Props.Evaluates
import Mathlib.MeasureTheory.Measure.Lebesgue.Basic

/-!
# C150: what the reported time within the radius measures

`docs/about.rst` calls the proportion of time that a balloon remains within 50 km of the ground station TWR50. The
evaluation (`BLE/eval/eval_lib.py:118-209`, `docs/about.rst:50-52`) looks at the balloon at the end of every step only. These theorems relate the number it
reports to the time that the balloon was within the radius, between the looks included.
-/

namespace BLE

open MeasureTheory

variable {K W Rd : Type}

/-- The seconds that pass from state `a` to state `b`. -/
noncomputable def Spec.legSeconds (a b : BState) : ℝ := ((b.timeElapsed - a.timeElapsed : ℤ) : ℝ) / 1000000

/-- The place `τ` seconds after `a` on the straight way to `b`, flown at constant speed (`C150_leg`). -/
noncomputable def Spec.onLeg (a b : BState) (τ : ℝ) : ℝ × ℝ :=
  (a.x + (b.x - a.x) * (τ / Spec.legSeconds a b), a.y + (b.y - a.y) * (τ / Spec.legSeconds a b))

/-- The instants of the leg at which the balloon is at most `ρ` from its station. -/
def Spec.insideTimes (ρ : ℝ) (a b : BState) : Set ℝ :=
  {τ | 0 ≤ τ ∧ τ ≤ Spec.legSeconds a b ∧ (Spec.onLeg a b τ).1 ^ 2 + (Spec.onLeg a b τ).2 ^ 2 ≤ ρ ^ 2}

/-- The time on the leg within the radius, in seconds. -/
noncomputable def Spec.secondsWithin (ρ : ℝ) (a b : BState) : ℝ := (volume (Spec.insideTimes ρ a b)).toReal

/-- The legs of a flight that starts at `a`: from each state to the one after the next step. -/
def Spec.legs : BState → List Spec.Seen → List (BState × Spec.Seen)
  | _, [] => []
  | a, x :: t => (a, x) :: Spec.legs x.ball t

/-- Within `ρ` of the station. -/
def Spec.isWithin (ρ : ℝ) (b : BState) : Prop := b.x ^ 2 + b.y ^ 2 ≤ ρ ^ 2

/-- C150, the balloon flies straight. A call of `simulate_step` that is cut short, with the same command and wind, leaves the
balloon on the line to where the full call takes it, at the point of its own elapsed time. -/
theorem C150_leg (sun : Sun) (α u w : ℝ) (a : Command) (dt dt' stride : ℤ) (s b m : BState)
    (hb : (simulateStep sun α u w a dt stride s).1 = b) (hm : (simulateStep sun α u w a dt' stride s).1 = m)
    (h : Spec.legSeconds s b ≠ 0) : (m.x, m.y) = Spec.onLeg s b (Spec.legSeconds s m) := by
  obtain ⟨h1, h2⟩ := C16_drift sun α u w a dt stride s
  obtain ⟨h3, h4⟩ := C16_drift sun α u w a dt' stride s
  rw [hb] at h1 h2
  rw [hm] at h3 h4
  unfold Spec.onLeg
  rw [show ((b.timeElapsed - s.timeElapsed : ℤ) : ℝ) / 1000000 = Spec.legSeconds s b from rfl] at h1 h2
  rw [show ((m.timeElapsed - s.timeElapsed : ℤ) : ℝ) / 1000000 = Spec.legSeconds s m from rfl] at h3 h4
  rw [h1, h2]
  have e1 : u * Spec.legSeconds s b * (Spec.legSeconds s m / Spec.legSeconds s b) = u * Spec.legSeconds s m := by
    field_simp
  have e2 : w * Spec.legSeconds s b * (Spec.legSeconds s m / Spec.legSeconds s b) = w * Spec.legSeconds s m := by
    field_simp
  rw [e1, e2, ← h3, ← h4]
  ext <;> simp

theorem insideTimes_subset (ρ : ℝ) (a b : BState) : Spec.insideTimes ρ a b ⊆ Set.Icc 0 (Spec.legSeconds a b) :=
  fun _ h => ⟨h.1, h.2.1⟩

theorem secondsWithin_le (ρ : ℝ) (a b : BState) (hd : 0 < Spec.legSeconds a b) :
    0 ≤ Spec.secondsWithin ρ a b ∧ Spec.secondsWithin ρ a b ≤ Spec.legSeconds a b := by
  refine ⟨ENNReal.toReal_nonneg, ?_⟩
  have h := measure_mono (μ := volume) (insideTimes_subset ρ a b)
  rw [Real.volume_Icc, sub_zero] at h
  have := ENNReal.toReal_mono ENNReal.ofReal_ne_top h
  rwa [ENNReal.toReal_ofReal hd.le] at this

/-- Discs are convex: a leg with both ends within the radius is flown within it. -/
theorem secondsWithin_of_both (ρ : ℝ) (a b : BState) (hd : 0 < Spec.legSeconds a b) (ha : Spec.isWithin ρ a)
    (hb : Spec.isWithin ρ b) : Spec.secondsWithin ρ a b = Spec.legSeconds a b := by
  have he : Spec.insideTimes ρ a b = Set.Icc 0 (Spec.legSeconds a b) := by
    refine Set.Subset.antisymm (insideTimes_subset ρ a b) fun τ hτ => ⟨hτ.1, hτ.2, ?_⟩
    have l0 : 0 ≤ τ / Spec.legSeconds a b := div_nonneg hτ.1 hd.le
    have l1 : τ / Spec.legSeconds a b ≤ 1 := (div_le_one hd).2 hτ.2
    unfold Spec.onLeg
    simp only
    generalize τ / Spec.legSeconds a b = l at l0 l1
    unfold Spec.isWithin at ha hb
    have hx : (a.x + (b.x - a.x) * l) ^ 2 + (a.y + (b.y - a.y) * l) ^ 2 =
        (1 - l) * (a.x ^ 2 + a.y ^ 2) + l * (b.x ^ 2 + b.y ^ 2) - l * (1 - l) * ((b.x - a.x) ^ 2 + (b.y - a.y) ^ 2) := by ring
    rw [hx]
    have p1 := mul_le_mul_of_nonneg_left ha (sub_nonneg.2 l1)
    have p2 := mul_le_mul_of_nonneg_left hb l0
    have p3 : 0 ≤ l * (1 - l) * ((b.x - a.x) ^ 2 + (b.y - a.y) ^ 2) :=
      mul_nonneg (mul_nonneg l0 (sub_nonneg.2 l1)) (add_nonneg (sq_nonneg _) (sq_nonneg _))
    nlinarith
  rw [Spec.secondsWithin, he, Real.volume_Icc, sub_zero, ENNReal.toReal_ofReal hd.le]

theorem secondsWithin_of_untouched (ρ : ℝ) (a b : BState) (h : Spec.insideTimes ρ a b = ∅) :
    Spec.secondsWithin ρ a b = 0 := by
  rw [Spec.secondsWithin, h, measure_empty, ENNReal.toReal_zero]

open Classical in
/-- The legs that enter: begun outside, ended within the radius. -/
noncomputable def Spec.entered (ρ : ℝ) (L : List (BState × Spec.Seen)) : ℕ :=
  L.countP fun l => ¬ Spec.isWithin ρ l.1 ∧ Spec.isWithin ρ l.2.ball

open Classical in
/-- The legs that are partly within the radius though they end outside. -/
noncomputable def Spec.brushed (ρ : ℝ) (L : List (BState × Spec.Seen)) : ℕ :=
  L.countP fun l => ¬ Spec.isWithin ρ l.2.ball ∧ (Spec.insideTimes ρ l.1 l.2.ball).Nonempty

/-- The time of the legs, and the time within the radius. -/
noncomputable def Spec.totalSeconds (L : List (BState × Spec.Seen)) : ℝ := (L.map fun l => Spec.legSeconds l.1 l.2.ball).sum

noncomputable def Spec.totalWithin (ρ : ℝ) (L : List (BState × Spec.Seen)) : ℝ :=
  (L.map fun l => Spec.secondsWithin ρ l.1 l.2.ball).sum

open Classical in
theorem legs_sums (ρ : ℝ) (L : List (BState × Spec.Seen))
    (hL : ∀ l ∈ L, 0 < Spec.legSeconds l.1 l.2.ball ∧ Spec.legSeconds l.1 l.2.ball ≤ 180) :
    let n : ℝ := ((L.countP fun l => Spec.isWithin ρ l.2.ball : ℕ) : ℝ)
    0 ≤ Spec.totalWithin ρ L ∧ Spec.totalWithin ρ L ≤ Spec.totalSeconds L ∧ Spec.totalSeconds L ≤ 180 * L.length ∧
    Spec.totalWithin ρ L ≤ 180 * (n + Spec.brushed ρ L) ∧
    180 * (n - Spec.entered ρ L) - (180 * L.length - Spec.totalSeconds L) ≤ Spec.totalWithin ρ L := by
  induction L with
  | nil => simp [Spec.totalWithin, Spec.totalSeconds, Spec.brushed, Spec.entered]
  | cons l L ih =>
    obtain ⟨i0, i1, i2, i3, i4⟩ := ih fun m hm => hL m (List.mem_cons_of_mem _ hm)
    obtain ⟨d0, d1⟩ := hL l (by simp)
    obtain ⟨s0, s1⟩ := secondsWithin_le ρ l.1 l.2.ball d0
    simp only [Spec.totalWithin, Spec.totalSeconds, Spec.brushed, Spec.entered, List.map_cons, List.sum_cons,
      List.length_cons, List.countP_cons] at i0 i1 i2 i3 i4 ⊢
    push_cast
    by_cases hb : Spec.isWithin ρ l.2.ball
    · by_cases ha : Spec.isWithin ρ l.1
      · have := secondsWithin_of_both ρ l.1 l.2.ball d0 ha hb
        simp only [hb, ha, not_true_eq_false, false_and, decide_false, decide_true, if_true, Bool.false_eq_true, if_false]
        refine ⟨by linarith, by linarith, by linarith, by linarith, by linarith⟩
      · simp only [hb, ha, not_true_eq_false, not_false_eq_true, false_and, true_and, and_true, decide_false, decide_true,
          if_true, Bool.false_eq_true, if_false]
        refine ⟨by linarith, by linarith, by linarith, by linarith, by linarith⟩
    · rcases (Spec.insideTimes ρ l.1 l.2.ball).eq_empty_or_nonempty with he | he
      · have := secondsWithin_of_untouched ρ l.1 l.2.ball he
        have hne : ¬ (Spec.insideTimes ρ l.1 l.2.ball).Nonempty := by rw [he]; exact Set.not_nonempty_empty
        simp only [hb, hne, and_false, decide_false, Bool.false_eq_true, if_false]
        refine ⟨by linarith, by linarith, by linarith, by linarith, by linarith⟩
      · simp only [hb, he, and_false, not_false_eq_true, and_self, decide_false, decide_true, if_true,
          Bool.false_eq_true, if_false]
        refine ⟨by linarith, by linarith, by linarith, by linarith, by linarith⟩

/-- What is known about a leg: it was flown by one call of `simulate_step`, in a wind that stayed the same, for three minutes, or
for between ten seconds and three minutes if the flight ended on it. -/
def Spec.Leg (c : EnvCfg K W Rd) (a : BState) (x : Spec.Seen) : Prop :=
  (∃ α u w cmd, simulateStep c.world.sun α u w cmd agentStep defaultStride a = (x.ball, .ok ())) ∧
  (x.out.terminal = false → Spec.legSeconds a x.ball = 180) ∧
  10 ≤ Spec.legSeconds a x.ball ∧ Spec.legSeconds a x.ball ≤ 180

theorem flight_legs {S : Type} (c : EnvCfg K W Rd) (A : Agent S) {v v' : Env K W Rd} {s s' : S} {a : ℤ}
    {t : List Spec.Seen} (h : Spec.Flight (balloonEnv c) A v s a t v' s') :
    ∀ b, (balloonEnv c).balloon v = .ok b → ∀ l ∈ Spec.legs b t, Spec.Leg c l.1 l.2 := by
  induction h with
  | nil => intro b _; simp [Spec.legs]
  | @cons v v1 v2 v3 s s1 s3 a a1 out b1 t hstep hagent hball hrender rest ih =>
    intro b hb l hl
    rcases List.mem_cons.1 hl with rfl | hl
    · obtain ⟨i, w0, hi0, hi1, -, hnt, ht, -⟩ := C96_motion c a _ _ _ hstep
      obtain ⟨cmd, i', r, hc, hs, hi, hi', -⟩ := envStep_ok hstep
      rw [hi0] at hi
      injection hi with hi
      subst hi
      rcases arenaStep_ball c.world cmd v.arena i hi0 with ⟨e, _, h⟩ | ⟨w, hw, h1, h2⟩
      · rw [hs] at h; simp at h
      rw [hs] at h1 h2
      simp only at h1 h2
      have e0 : v.arena.heap.balls i = b := by
        simp only [balloonEnv, Arena.getState, hi0, Except.map, Except.ok.injEq] at hb
        exact hb
      have e1 : v1.arena.heap.balls i = b1 := by
        simp only [balloonEnv, Arena.getState, hi1, Except.map, Except.ok.injEq] at hball
        exact hball
      have h3 : v1.arena.heap.balls i = (simulateStep c.world.sun (v.arena.heap.atms v.arena.atm) w.1 w.2 cmd agentStep
          defaultStride (v.arena.heap.balls i)).1 := by rw [h1, Function.update_self]
      rw [e1, e0] at h3 hnt ht
      rw [e0] at h2
      refine ⟨⟨_, _, _, cmd, Prod.ext h3.symm ?_⟩, fun ho => ?_, ?_⟩
      · rcases hx : (simulateStep c.world.sun (v.arena.heap.atms v.arena.atm) w.1 w.2 cmd agentStep
          defaultStride b).2 with e | u
        · cases h2 e hx
        · rfl
      · have := (hnt ho).1
        simp only [Spec.legSeconds]
        rw [this]
        push_cast
        ring
      · rcases ho : out.terminal with _ | _
        · have := (hnt ho).1
          simp only [Spec.legSeconds]
          rw [this]
          push_cast
          constructor <;> linarith
        · obtain ⟨j, j1, j2, j3, -⟩ := ht ho
          simp only [Spec.legSeconds]
          rw [j3]
          push_cast
          have q1 : (1 : ℝ) ≤ j := by exact_mod_cast j1
          have q2 : (j : ℝ) ≤ 18 := by exact_mod_cast j2
          constructor <;> linarith
    · refine ih b1 ?_ l hl
      rcases hrender with rfl | rfl
      · exact hball
      · exact hball

theorem legs_map (a : BState) (t : List Spec.Seen) : (Spec.legs a t).map (·.2) = t := by
  induction t generalizing a with
  | nil => rfl
  | cons x t ih => simp [Spec.legs, ih]

theorem legs_dropLast (a : BState) (t : List Spec.Seen) : ∀ l ∈ (Spec.legs a t).dropLast, l.2 ∈ t.dropLast := by
  intro l hl
  have := List.mem_map_of_mem (f := (·.2)) hl
  rwa [List.map_dropLast, legs_map] at this

theorem total_lower (L : List (BState × Spec.Seen)) (h : ∀ l ∈ L.dropLast, Spec.legSeconds l.1 l.2.ball = 180)
    (h' : ∀ l ∈ L, 10 ≤ Spec.legSeconds l.1 l.2.ball) (hne : L ≠ []) : 180 * (L.length : ℝ) - 170 ≤ Spec.totalSeconds L := by
  induction L with
  | nil => exact absurd rfl hne
  | cons l L ih =>
    rcases L with _ | ⟨m, L⟩
    · have := h' l (by simp)
      simp only [Spec.totalSeconds, List.map_cons, List.map_nil, List.sum_cons, List.sum_nil, List.length_cons, List.length_nil]
      push_cast
      linarith
    · have h1 := h l (by simp)
      have h2 := ih (fun x hx => h x (by rw [List.dropLast_cons_cons]; exact List.mem_cons_of_mem _ hx))
        (fun x hx => h' x (List.mem_cons_of_mem _ hx)) (by simp)
      simp only [Spec.totalSeconds, List.map_cons, List.sum_cons, List.length_cons] at h2 ⊢
      push_cast at h2 ⊢
      rw [h1]
      linarith

theorem total_exact (L : List (BState × Spec.Seen)) (h : ∀ l ∈ L, Spec.legSeconds l.1 l.2.ball = 180) :
    Spec.totalSeconds L = 180 * (L.length : ℝ) := by
  induction L with
  | nil => simp [Spec.totalSeconds]
  | cons l L ih =>
    have := ih fun x hx => h x (List.mem_cons_of_mem _ hx)
    simp only [Spec.totalSeconds, List.map_cons, List.sum_cons, List.length_cons] at this ⊢
    rw [this, h l (by simp)]
    push_cast
    ring

/-- How the number reported in result `r` is related to the time within `ρ` of the station. -/
def Spec.MeasuresTime (c : EnvCfg K W Rd) (maxLen : ℤ) (paths : Bool) (ρ : ℝ) (r : EvalResult) : Prop :=
  ∃ (v v0 : Env K W Rd) (obs : List ℝ) (b : BState) (t : List Spec.Seen),
    (balloonEnv c).reset ((balloonEnv c).seed r.seed v) = (v0, .ok obs) ∧ (balloonEnv c).balloon v0 = .ok b ∧
    Spec.Reports maxLen paths t r ∧ (∀ l ∈ Spec.legs b t, Spec.Leg c l.1 l.2) ∧
    (let L := Spec.legs b t;
      Spec.totalWithin ρ L ≤ Spec.totalSeconds L ∧
      180 * (r.finalStep : ℝ) - 170 ≤ Spec.totalSeconds L ∧ Spec.totalSeconds L ≤ 180 * r.finalStep ∧
      180 * (r.twr * r.finalStep - Spec.entered ρ L) - 170 ≤ Spec.totalWithin ρ L ∧
      Spec.totalWithin ρ L ≤ 180 * (r.twr * r.finalStep + Spec.brushed ρ L) ∧
      ((r.outOfPower = false ∧ r.envelopeBurst = false ∧ r.zeropressure = false) →
        Spec.totalSeconds L = 180 * maxLen ∧
        r.twr - Spec.entered ρ L / r.finalStep ≤ Spec.totalWithin ρ L / Spec.totalSeconds L ∧
        Spec.totalWithin ρ L / Spec.totalSeconds L ≤ r.twr + Spec.brushed ρ L / r.finalStep))

/-- C150. For every evaluation of the balloon environment and every result: the flight lasted three minutes per step (the last step
possibly less if it ended the flight), each flown straight in a constant wind. The reported time within the radius, times the number
of steps, is the time that the balloon was within the radius in units of three minutes, except that a step on which it entered may
count too much and a step which it ended outside, having been within for a while, too little. In a flight of full length the time
is exactly three minutes per step of the suite — two days for 960 steps — and the number reported is the proportion of
time within the radius up to the proportion of those steps. -/
theorem C150_share {S : Type} (c : EnvCfg K W Rd) (A : Agent S) (suite : Suite) (period : ℤ) (paths : Bool)
    (v v' : Env K W Rd) (s s' : S) (rs : List EvalResult) (hρ : 0 ≤ v.radius)
    (h : evalAgent (balloonEnv c) A suite period paths v s = (v', s', .ok rs)) :
    ∀ r ∈ rs, Spec.MeasuresTime c suite.maxLen paths v.radius r := by
  have hfl0 := fun r hr => C62_flags c A suite period paths v v' s s' rs h r hr
  have h1' := (C62_results _ _ _ _ _ _ _ _ _ _ h).1
  clear h
  generalize hρ' : v.radius = ρ at hρ ⊢
  generalize A.setMode s false = s0 at h1'
  generalize suite.seeds = seeds at h1'
  induction h1' with
  | nil => simp
  | @cons v v1 v2 s s1 s2 seed seeds r rs hf rest ih =>
    obtain ⟨hseed, v0, obs, sA, a, t, sB, hreset, -, hfl, hrep, -⟩ := hf
    have hv0 : v0.radius = v.radius := by
      have e : v0 = ((v.seed c seed).reset c none).1 := by
        have := congrArg Prod.fst hreset
        exact this.symm
      rw [e]
      unfold Env.reset
      simp only
      split
      · rfl
      · split <;> rfl
    obtain ⟨hr1, hseen⟩ := flight_radius c A hfl
    intro r' hr'
    rcases List.mem_cons.1 hr' with rfl | hr'
    · have hrep' := hrep
      obtain ⟨e1, e2, e2', e3, e4, -, -, -, -, e5, e6⟩ := hrep
      have hne : t ≠ [] := by
        rintro rfl
        simp at e1; omega
      obtain ⟨b, hb⟩ : ∃ b, (balloonEnv c).balloon v0 = .ok b := by
        rcases t with _ | ⟨x, t⟩
        · exact absurd rfl hne
        · cases hfl with
          | cons hstep hagent hball hrender rest =>
            obtain ⟨i, w0, hi0, -⟩ := C96_motion c a _ _ _ hstep
            exact ⟨v0.arena.heap.balls i, by simp [balloonEnv, Arena.getState, hi0, Except.map]⟩
      have hlegs := flight_legs c A hfl b hb
      refine ⟨v, v0, obs, b, t, by rw [hseed]; exact hreset, hb, hrep', hlegs, ?_⟩
      have hlen : (Spec.legs b t).length = t.length := by
        conv_rhs => rw [← legs_map b t]
        rw [List.length_map]
      have hLne : Spec.legs b t ≠ [] := by
        intro h0
        rw [h0] at hlen
        exact hne (List.length_eq_zero_iff.1 hlen.symm)
      obtain ⟨s0', s1', s2', s3', s4'⟩ := legs_sums ρ (Spec.legs b t) fun l hl => by
        obtain ⟨-, -, g1, g2⟩ := hlegs l hl
        exact ⟨by linarith, g2⟩
      have hpos : (0 : ℝ) < t.length := by exact_mod_cast List.length_pos_iff.2 hne
      classical
      have hcount : r'.twr * r'.finalStep = (((Spec.legs b t).countP fun l => Spec.isWithin ρ l.2.ball : ℕ) : ℝ) := by
        rw [e4, e1, div_mul_cancel₀ _ hpos.ne']
        congr 1
        rw [← List.countP_eq_length_filter]
        conv_lhs => rw [← legs_map b t]
        rw [List.countP_map]
        refine List.countP_congr fun l hl => ?_
        have hx := (hseen l.2 (by rw [← legs_map b t]; exact List.mem_map_of_mem hl)).1
        rw [hv0, hρ'] at hx
        rw [Function.comp_apply, decide_eq_true_iff, decide_eq_true_iff, hx]
        exact and_iff_left hρ
      have hlow := total_lower (Spec.legs b t)
        (fun l hl => (hlegs l (List.mem_of_mem_dropLast hl)).2.1 (e5 _ (legs_dropLast b t l hl)))
        (fun l hl => (hlegs l hl).2.2.1) hLne
      rw [hlen, ← e1] at s2' s4' hlow
      rw [← hcount] at s3' s4'
      refine ⟨s1', hlow, s2', by linarith, s3', fun hflags => ?_⟩
      have hterm : ∀ x ∈ t, x.out.terminal = false := by
        intro x hx
        rw [← List.dropLast_append_getLast hne, List.mem_append, List.mem_singleton] at hx
        rcases hx with hx | hx
        · exact e5 x hx
        · obtain ⟨g1, g2⟩ := e6 (t.getLast hne) (List.getLast?_eq_getLast_of_ne_nil hne)
          rw [← hx] at g1 g2
          by_contra hc
          have ht : x.out.terminal = true := by simpa using hc
          obtain ⟨k1, k2, k3⟩ := g1 ht
          obtain ⟨w, w', a', hstep, -⟩ := hfl.mem x (by rw [hx]; exact List.getLast_mem hne)
          obtain ⟨i, -, -, hcase, -, -⟩ := C21_terminal_iff c a' w w' x.out hstep
          rw [hflags.1] at k1
          rw [hflags.2.1] at k2
          rw [hflags.2.2] at k3
          rcases hcase ht with ⟨a1, -⟩ | ⟨-, a2, -⟩ | ⟨-, -, a3, -⟩
          · rw [a1] at k1; cases k1
          · rw [a2] at k2; cases k2
          · rw [a3] at k3; cases k3
      have hfull : Spec.totalSeconds (Spec.legs b t) = 180 * r'.finalStep := by
        rw [total_exact _ fun l hl => (hlegs l hl).2.1 (hterm _ (by
          rw [← legs_map b t]; exact List.mem_map_of_mem hl)), hlen, e1]
      have hmax : (r'.finalStep : ℤ) = suite.maxLen := by
        obtain ⟨-, g2⟩ := e6 (t.getLast hne) (List.getLast?_eq_getLast_of_ne_nil hne)
        exact (g2 (hterm _ (List.getLast_mem hne))).2.2.2
      have hN : (0 : ℝ) < r'.finalStep := by rw [e1]; exact hpos
      refine ⟨by rw [hfull, ← hmax]; push_cast; rfl, ?_, ?_⟩
      · rw [hfull] at s4' ⊢
        rw [le_div_iff₀ (by linarith)]
        have : (r'.twr - (Spec.entered ρ (Spec.legs b t) : ℝ) / r'.finalStep) * (180 * r'.finalStep) =
            180 * (r'.twr * r'.finalStep - Spec.entered ρ (Spec.legs b t)) := by field_simp
        rw [this]
        linarith
      · rw [hfull, div_le_iff₀ (by linarith)]
        have : (r'.twr + (Spec.brushed ρ (Spec.legs b t) : ℝ) / r'.finalStep) * (180 * r'.finalStep) =
            180 * (r'.twr * r'.finalStep + Spec.brushed ρ (Spec.legs b t)) := by field_simp
        rw [this]
        exact s3'
    · exact ih (fun r hr => hfl0 r (List.mem_cons_of_mem _ hr)) (by rw [hr1, hv0]; exact hρ') r' hr'

/-- C150, flights that end early. The number reported is a share of the steps flown: of the time that the suite allots, the
balloon was within the radius for at most the part that it flew, which is less than all of it, whatever is reported. -/
theorem C150_ended_early {S : Type} (c : EnvCfg K W Rd) (A : Agent S) (suite : Suite) (period : ℤ) (paths : Bool)
    (v v' : Env K W Rd) (s s' : S) (rs : List EvalResult) (hρ : 0 ≤ v.radius)
    (h : evalAgent (balloonEnv c) A suite period paths v s = (v', s', .ok rs)) (r : EvalResult) (hr : r ∈ rs)
    (hearly : (r.finalStep : ℤ) < suite.maxLen) :
    ∃ b t, Spec.Reports suite.maxLen paths t r ∧ (∀ l ∈ Spec.legs b t, Spec.Leg c l.1 l.2) ∧
      Spec.totalWithin v.radius (Spec.legs b t) / (180 * suite.maxLen) ≤ r.finalStep / suite.maxLen ∧
      (r.finalStep : ℝ) / suite.maxLen < 1 ∧
      ((∀ x ∈ t, Spec.isWithin v.radius x.ball ∧ x.radius = v.radius) → r.twr = 1) := by
  obtain ⟨-, -, -, b, t, -, -, hrep, hlegs, q1, -, q2, -⟩ := C150_share c A suite period paths v v' s s' rs hρ h r hr
  have hN : (1 : ℝ) ≤ r.finalStep := by exact_mod_cast hrep.2.1
  have hlt : (r.finalStep : ℝ) < suite.maxLen := by exact_mod_cast hearly
  have hm : (0 : ℝ) < suite.maxLen := by linarith
  refine ⟨b, t, hrep, hlegs, ?_, (div_lt_one hm).2 hlt, fun hall => ?_⟩
  · rw [div_le_div_iff₀ (by linarith) hm]
    nlinarith
  · have hpos : (0 : ℝ) < t.length := by rw [← hrep.1]; linarith
    rw [hrep.2.2.2.2.1, List.filter_eq_self.2 fun x hx => ?_, div_self hpos.ne']
    obtain ⟨g1, g2⟩ := hall x hx
    rw [decide_eq_true_iff, g2]
    exact ⟨g1, hρ⟩

/-- A step from 50.9 km to 49.1 km ends within 50 km and counts in full, though only its second half was flown there. -/
example : let a : BState := { demo with x := 50900, y := 0, timeElapsed := 0 }
    let b : BState := { demo with x := 49100, y := 0, timeElapsed := 180000000 }
    Spec.legSeconds a b = 180 ∧ ¬ Spec.isWithin 50000 a ∧ Spec.isWithin 50000 b ∧ Spec.secondsWithin 50000 a b = 90 := by
  intro a b
  have hd : Spec.legSeconds a b = 180 := by norm_num [Spec.legSeconds, a, b]
  refine ⟨hd, by norm_num [Spec.isWithin, a], by norm_num [Spec.isWithin, b], ?_⟩
  have he : Spec.insideTimes 50000 a b = Set.Icc 90 180 := by
    ext τ
    simp only [Spec.insideTimes, Spec.onLeg, hd, Set.mem_setOf_eq, Set.mem_Icc, a, b]
    constructor
    · rintro ⟨h0, h1, h2⟩
      exact ⟨by nlinarith, h1⟩
    · rintro ⟨h0, h1⟩
      exact ⟨by linarith, h1, by nlinarith⟩
  rw [Spec.secondsWithin, he, Real.volume_Icc, ENNReal.toReal_ofReal (by norm_num)]
  norm_num

/-- `C150_share` on two whole evaluation flights of StationSeeker, which do not raise. -/
example (v : Env (List ℕ) Unit Unit) (hρ : 0 ≤ v.radius) : ∃ v' s' r0 r7,
    evalAgent (balloonEnv sunnyCfg) stationSeeker ⟨[0, 7], 960⟩ 10 true v () = (v', s', .ok [r0, r7]) ∧
    Spec.MeasuresTime sunnyCfg 960 true v.radius r0 ∧ Spec.MeasuresTime sunnyCfg 960 true v.radius r7 := by
  obtain ⟨v', s', rs, h1, h2⟩ := C138_static sunnyCfg sunnyWorld_draws true rfl gregorian gregorian_ok rfl rfl
    (fun _ _ _ _ _ => by norm_num [sunnyCfg, sunnyWorld, demoWorld]) RewardParams.default
    (by norm_num [RewardParams.default]) rfl stationSeeker (fun _ => True) (fun _ => True) (C138_seeker _ true rfl gregorian gregorian_ok rfl)
    ⟨[0, 7], 960⟩ rfl 10 (by norm_num) true v () trivial
  obtain ⟨r0, r7, rfl⟩ := List.length_eq_two.1 (by simpa using congrArg List.length h2 : rs.length = 2)
  have hs := C150_share sunnyCfg stationSeeker ⟨[0, 7], 960⟩ 10 true v v' () s' _ hρ h1
  exact ⟨v', s', r0, r7, h1, hs r0 (by simp), hs r7 (by simp)⟩

end BLE
