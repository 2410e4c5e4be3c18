import Verif.Model.Rendering
import Verif.Props.Heat

/-!
# C114: the rendered picture shows the flight since the last reset, all of it and nothing else
-/

namespace BLE

variable {K W : Type}

/-- The point of the picture that stands for one state of the environment: position east and north of the station and
altitude in kilometres, charge in per cent of the capacity, and the date. -/
def Spec.Drawn (v : Env K W Plot) (pos : ℝ × ℝ × ℝ) (soc : ℝ) (date : ℤ) : Prop :=
  ∃ i a, v.arena.ball = some i ∧
    atPressure (v.arena.heap.atms v.arena.atm) (v.arena.heap.balls i).pressure = .ok a ∧
    1000 * pos.1 = (v.arena.heap.balls i).x ∧ 1000 * pos.2.1 = (v.arena.heap.balls i).y ∧ 1000 * pos.2.2 = a.height ∧
    soc = 100 * ((v.arena.heap.balls i).charge / (v.arena.heap.balls i).cap) ∧ date = (v.arena.heap.balls i).dateTime

/-- The pressure of the balloon lies within the atmosphere's table. -/
def Spec.Visible (v : Env K W Plot) : Prop :=
  ∃ i a, v.arena.ball = some i ∧ atPressure (v.arena.heap.atms v.arena.atm) (v.arena.heap.balls i).pressure = .ok a

/-- The states an episode goes through, the first included. -/
noncomputable def Spec.journey (c : EnvCfg K W Plot) : List ℤ → Env K W Plot → List (Env K W Plot)
  | [], v => [v]
  | a :: as, v => v :: Spec.journey c as (v.step c a).1

/-- No step raises. -/
def Spec.Smooth (c : EnvCfg K W Plot) : List ℤ → Env K W Plot → Prop
  | [], _ => True
  | a :: as, v => (∃ out, (v.step c a).2 = .ok out) ∧ Spec.Smooth c as (v.step c a).1

/-- The picture `q` shows the states `vs`, one point each and in order. -/
def Spec.Shows (q : Plot) (vs : List (Env K W Plot)) : Prop :=
  q.trajectory.length = vs.length ∧ q.charge.length = vs.length ∧ q.datetime.length = vs.length ∧
  ∀ (k : ℕ) (v : Env K W Plot), vs[k]? = some v → ∃ pos soc date, q.trajectory[k]? = some pos ∧ q.charge[k]? = some soc ∧
    q.datetime[k]? = some date ∧ Spec.Drawn v pos soc date

/-- Showing one more visible state appends its point. -/
theorem shows_step {q : Plot} {vs : List (Env K W Plot)} (h : Spec.Shows q vs) {v : Env K W Plot} {i : ℕ}
    (hi : v.arena.ball = some i) (hv : Spec.Visible v) :
    Spec.Shows (q.step (v.arena.heap.atms v.arena.atm) (v.arena.heap.balls i)).1 (vs ++ [v]) := by
  obtain ⟨j, a, hj, ha⟩ := hv
  rw [hi] at hj
  obtain rfl : i = j := by injection hj
  obtain ⟨l1, l2, l3, hp⟩ := h
  unfold Plot.step
  rw [ha]
  refine ⟨by simp [l1], by simp [l2], by simp [l3], ?_⟩
  intro k w hk
  rcases lt_trichotomy k vs.length with hlt | rfl | hgt
  · rw [List.getElem?_append_left hlt] at hk
    obtain ⟨pos, soc, date, e1, e2, e3, hd⟩ := hp k w hk
    refine ⟨pos, soc, date, ?_, ?_, ?_, hd⟩ <;> simp only
    · rw [List.getElem?_append_left (by omega)]; exact e1
    · rw [List.getElem?_append_left (by omega)]; exact e2
    · rw [List.getElem?_append_left (by omega)]; exact e3
  · simp at hk
    subst hk
    let b := v.arena.heap.balls i
    refine ⟨(b.x / 1000, b.y / 1000, a.height / 1000), b.charge / b.cap * 100, b.dateTime, ?_, ?_, ?_,
      ⟨i, a, hi, ha, ?_, ?_, ?_, ?_, rfl⟩⟩
    · simp only; rw [← l1, List.getElem?_concat_length]
    · simp only; rw [← l2, List.getElem?_concat_length]
    · simp only; rw [← l3, List.getElem?_concat_length]
    all_goals simp only [b]; ring
  · rw [List.getElem?_eq_none (by simp; omega)] at hk
    cases hk

theorem envReset_renderer {Rd : Type} (c : EnvCfg K W Rd) (v v' : Env K W Rd) (seed : Option ℤ) (o : List ℝ × Info)
    (h : v.reset c seed = (v', .ok o)) :
    ∃ i, v'.arena.ball = some i ∧ v'.renderer = (v.renderer.map c.render.reset).map (fun rd =>
      c.render.step rd (v'.arena.heap.balls i) (v'.arena.heap.winds v'.arena.wind) (v'.arena.heap.atms v'.arena.atm)) := by
  cases seed
  all_goals
    unfold Env.reset at h
    simp only at h
    split at h
    · cases h
    · split at h
      · cases h
      · rename_i obs _ i hi
        simp only [Prod.mk.injEq] at h
        obtain ⟨rfl, -⟩ := h
        exact ⟨i, hi, rfl⟩

/-- A reset clears the picture and shows the new start. -/
theorem reset_shows (c : EnvCfg K W Plot) (hc : c.render = mplRenderer) (v v' : Env K W Plot) (p : Plot)
    (hp : v.renderer = some p) (seed : Option ℤ) (o : List ℝ × Info) (h : v.reset c seed = (v', .ok o))
    (hv : Spec.Visible v') : ∃ q, v'.renderer = some q ∧ Spec.Shows q [v'] := by
  obtain ⟨i, hi, hr⟩ := envReset_renderer c v v' seed o h
  rw [hp, hc] at hr
  exact ⟨_, hr, shows_step (q := Plot.reset p) (vs := []) ⟨rfl, rfl, rfl, by simp⟩ hi hv⟩

theorem step_shows (c : EnvCfg K W Plot) (hc : c.render = mplRenderer) (v : Env K W Plot) (p : Plot)
    (hp : v.renderer = some p) (vs : List (Env K W Plot)) (hs : Spec.Shows p vs) (a : ℤ)
    (hok : ∃ out, (v.step c a).2 = .ok out) (hv : Spec.Visible (v.step c a).1) :
    ∃ q, (v.step c a).1.renderer = some q ∧ Spec.Shows q (vs ++ [(v.step c a).1]) := by
  obtain ⟨out, hok⟩ := hok
  obtain ⟨i, hi, -, hr, -⟩ := C96_reported c a v (v.step c a).1 out (by rw [← hok])
  rw [hp, Option.map_some, hc] at hr
  exact ⟨_, hr, shows_step hs hi hv⟩

theorem journey_shows (c : EnvCfg K W Plot) (hc : c.render = mplRenderer) (as : List ℤ) :
    ∀ (v : Env K W Plot) (p : Plot) (vs : List (Env K W Plot)), v.renderer = some p → Spec.Shows p (vs ++ [v]) →
      Spec.Smooth c as v → (∀ w ∈ Spec.journey c as v, Spec.Visible w) →
      ∃ q, (Spec.after c as v).renderer = some q ∧ Spec.Shows q (vs ++ Spec.journey c as v) := by
  induction as with
  | nil =>
    intro v p vs hp hs _ _
    exact ⟨p, hp, hs⟩
  | cons a as ih =>
    intro v p vs hp hs hsm hvis
    have hvis' : ∀ w ∈ Spec.journey c as (v.step c a).1, Spec.Visible w :=
      fun w hw => hvis w (by simp [Spec.journey, hw])
    have hfirst : Spec.Visible (v.step c a).1 := hvis' _ (by cases as <;> simp [Spec.journey])
    obtain ⟨q, hq, hq'⟩ := step_shows c hc v p hp (vs ++ [v]) hs a hsm.1 hfirst
    obtain ⟨r, hr, hr'⟩ := ih _ q (vs ++ [v]) hq hq' hsm.2 hvis'
    refine ⟨r, hr, ?_⟩
    simpa [Spec.journey] using hr'

/-- C114. The picture shows the current episode. Whatever the renderer was shown before, after a reset and any actions that
do not raise, it holds one point for the start and one for each step since, in order — position and altitude in kilometres,
charge in per cent, date — and nothing from earlier episodes. -/
theorem C114_shows (c : EnvCfg K W Plot) (hc : c.render = mplRenderer) (v v' : Env K W Plot) (p : Plot)
    (hp : v.renderer = some p) (seed : Option ℤ) (o : List ℝ × Info) (h : v.reset c seed = (v', .ok o)) (as : List ℤ)
    (hs : Spec.Smooth c as v') (hv : ∀ w ∈ Spec.journey c as v', Spec.Visible w) :
    ∃ q, (Spec.after c as v').renderer = some q ∧ Spec.Shows q (Spec.journey c as v') ∧
      q.trajectory.length = as.length + 1 := by
  have hfirst : Spec.Visible v' := hv _ (by cases as <;> simp [Spec.journey])
  obtain ⟨q, hq, hq'⟩ := reset_shows c hc v v' p hp seed o h hfirst
  obtain ⟨r, hr, hr'⟩ := journey_shows c hc as v' q [] hq hq' hs hv
  simp only [List.nil_append] at hr'
  refine ⟨r, hr, hr', ?_⟩
  rw [hr'.1]
  have : ∀ (as : List ℤ) (v : Env K W Plot), (Spec.journey c as v).length = as.length + 1 := by
    intro as
    induction as with
    | nil => intro v; rfl
    | cons a as ih => intro v; simp [Spec.journey, ih]
  exact this as v'

/-- C114. Rendering is read-only and the modes are those declared: with a picture that shows at least one state, `render`
answers exactly in the declared modes, hands out a picture exactly in mode `rgb_array`, and that picture is the whole path
with its marker at the last position and the power curve from the first to the last date. Other modes raise `ValueError`,
and so does rendering before anything was shown. Without a renderer nothing happens. -/
theorem C114_modes (c : EnvCfg K W Plot) (hc : c.render = mplRenderer) (v : Env K W Plot) (mode : String) :
    v.render c = v ∧
    (v.renderer = none → v.image mode = .ok none) ∧
    (∀ p, v.renderer = some p → mode ∉ ["human", "rgb_array", "tensorboard"] → v.image mode = .error .value) ∧
    (∀ p, v.renderer = some p → p.trajectory = [] → v.image mode = .error .value) ∧
    (∀ p (vs : List (Env K W Plot)), v.renderer = some p → Spec.Shows p vs → vs ≠ [] →
      mode ∈ ["human", "rgb_array", "tensorboard"] →
      (mode ≠ "rgb_array" → v.image mode = .ok none) ∧
      (mode = "rgb_array" → ∃ f, v.image mode = .ok (some f) ∧ f.path = p.trajectory ∧
        p.trajectory[vs.length - 1]? = some f.marker ∧ f.power.map (·.1) = p.datetime ∧ f.power.map (·.2) = p.charge ∧
        p.datetime[0]? = some f.ticks.1 ∧ p.datetime[vs.length - 1]? = some f.ticks.2)) := by
  refine ⟨?_, ?_, ?_, ?_, ?_⟩
  · unfold Env.render
    rw [hc]
    cases hr : v.renderer <;> simp [mplRenderer, ← hr]
  · intro h; unfold Env.image; rw [h]
  · intro p h hm
    have hm' : mode ∉ renderModes := hm
    unfold Env.image Plot.render; rw [h]; simp [hm']
  · intro p h hm; unfold Env.image Plot.render; rw [h]; simp [hm]
  · intro p vs hr ⟨l1, l2, l3, _⟩ hne hm
    replace hm : mode ∈ renderModes := hm
    have hpos : 0 < vs.length := List.length_pos_iff.2 hne
    obtain ⟨m, hm'⟩ : ∃ m, p.trajectory.getLast? = some m := by
      rw [← Option.isSome_iff_exists]; simp; intro h; rw [h] at l1; simp at l1; omega
    obtain ⟨d0, hd0⟩ : ∃ m, p.datetime.head? = some m := by
      rw [← Option.isSome_iff_exists]; simp; intro h; rw [h] at l3; simp at l3; omega
    obtain ⟨d1, hd1⟩ : ∃ m, p.datetime.getLast? = some m := by
      rw [← Option.isSome_iff_exists]; simp; intro h; rw [h] at l3; simp at l3; omega
    have himg : v.image mode = .ok (if mode = "rgb_array" then
          some { path := p.trajectory, marker := m, power := p.datetime.zip p.charge, ticks := (d0, d1) } else none) := by
      unfold Env.image Plot.render
      rw [hr]
      simp [hm, hm', hd0, hd1]
    refine ⟨fun h => by rw [himg, if_neg h], fun h => ⟨_, by rw [himg, if_pos h], rfl, ?_, ?_, ?_, ?_, ?_⟩⟩
    · rw [← l1, ← List.getLast?_eq_getElem?, hm']
    · simp only; rw [List.map_fst_zip (by omega)]
    · simp only; rw [List.map_snd_zip (by omega)]
    · rw [← List.head?_eq_getElem?, hd0]
    · rw [← l3, ← List.getLast?_eq_getElem?, hd1]

/-- What a user does to a renderer. -/
inductive Spec.PlotOp
  | reset
  | step (α : ℝ) (b : BState)

/-- The renderer after some of that. -/
noncomputable def Spec.plotAfter (ops : List Spec.PlotOp) (p : Plot) : Plot :=
  ops.foldl (fun p o => match o with | .reset => p.reset | .step α b => (p.step α b).1) p

/-- C114. The three curves never get out of step, and a step that raises leaves the renderer as it was: however the renderer
is used from its creation on, it has as many positions as charges as dates. -/
theorem C114_aligned (ops : List Spec.PlotOp) (junk : Plot) :
    let p := Spec.plotAfter ops junk.reset
    p.trajectory.length = p.charge.length ∧ p.charge.length = p.datetime.length ∧
    ∀ α b e, (p.step α b).2 = .error e → (p.step α b).1 = p := by
  have hstep : ∀ (p : Plot) α b e, (p.step α b).2 = .error e → (p.step α b).1 = p := by
    intro p α b e h
    unfold Plot.step at h ⊢
    split at h
    · rfl
    · cases h
  simp only
  refine ⟨?_, ?_, hstep _⟩ <;>
  · unfold Spec.plotAfter
    induction ops using List.reverseRecOn with
    | nil => rfl
    | append_singleton ops o ih =>
      rw [List.foldl_append]
      simp only [List.foldl_cons, List.foldl_nil]
      generalize List.foldl _ junk.reset ops = p at ih ⊢
      cases o with
      | reset => rfl
      | step α b =>
        simp only [Plot.step]
        split
        · exact ih
        · simp [ih]

/-- C114. In the simulator's envelope the renderer never raises: a balloon between 1 hPa and sea-level pressure, in any
atmosphere, can be shown. -/
theorem C114_total (α : ℝ) (h0 : 0 ≤ α) (h1 : α ≤ 1) (b : BState) (p : Plot) (hb : 100 ≤ b.pressure)
    (hb' : b.pressure ≤ 101325) :
    (p.step α b).2 = .ok () ∧ (p.step α b).1.trajectory.length = p.trajectory.length + 1 := by
  obtain ⟨a, ha⟩ := (C45_pressure_domain α h0 h1 b.pressure).2.2 hb |>.2 (by linarith)
  unfold Plot.step
  rw [ha]
  simp

/-- C114. With the code's own sampling, sun and wind estimator every reset succeeds and leaves a picture of exactly one
point, the start of the new episode; asking for it as an image succeeds. -/
theorem C114_start (c : EnvCfg K W Plot) (hc : c.render = mplRenderer) (hJ : Spec.SaneDraws c.world.J) (two : Bool)
    (hR : c.world.R = gpr two) (cal : Calendar) (hcal : Spec.Gregorian cal) (hE : c.world.sun = realSun cal)
    (hC : Spec.GoodWind c.world.C) (v : Env K W Plot) (p : Plot) (hp : v.renderer = some p) (seed : Option ℤ) :
    ∃ v' o q f, v.reset c seed = (v', .ok o) ∧ v'.renderer = some q ∧ Spec.Shows q [v'] ∧
      v'.image "rgb_array" = .ok (some f) ∧ f.path = [f.marker] := by
  obtain ⟨v', obs, info, i, h1, h2, h3, -⟩ := C102_env_reset c hJ two hR cal hcal hE hC v seed
  have hvis : Spec.Visible v' := by
    obtain ⟨a, ha⟩ := (C45_pressure_domain _ h2.blend.1 h2.blend.2 (v'.arena.heap.balls i).pressure).2.2
      (by linarith [h3.pressure.1]) |>.2 (by linarith [h3.pressure.2])
    exact ⟨i, a, h2.ball, ha⟩
  obtain ⟨q, hq, hs⟩ := reset_shows c hc v v' p hp seed (obs, info) h1 hvis
  obtain ⟨f, f1, f2, f3, -⟩ := ((C114_modes c hc v' "rgb_array").2.2.2.2 q [v'] hq hs (by simp) (by decide)).2 rfl
  refine ⟨v', _, q, f, h1, hq, hs, f1, ?_⟩
  have hl := hs.1
  rw [f2]
  match htr : q.trajectory, hl with
  | [x], _ =>
    rw [htr] at f3
    simp at f3
    rw [f3]

/-- The sunny world with a matplotlib renderer. -/
noncomputable def sunnyPlotCfg : EnvCfg (List ℕ) Unit Plot :=
  { world := sunnyWorld, rewardFn := reward sunnyWorld.sun RewardParams.default, render := mplRenderer }

/-- There, a renderer that holds the points of an earlier flight shows only the new start after a reset. -/
example (seed : ℤ) (v : Env (List ℕ) Unit Plot) (hv : v.renderer = some ⟨[(1, 2, 3), (4, 5, 6)], [90, 80], [0, 1]⟩) :
    ∃ v' o q, v.reset sunnyPlotCfg (some seed) = (v', .ok o) ∧ v'.renderer = some q ∧ q.trajectory.length = 1 := by
  obtain ⟨v', o, q, f, h1, h2, h3, -⟩ := C114_start sunnyPlotCfg rfl sunnyWorld_draws true rfl gregorian gregorian_ok rfl
    good_static v _ hv (some seed)
  exact ⟨v', o, q, h1, h2, h3.1⟩

/-- The demonstration balloon at 3 km east: after a reset the picture has exactly its point. -/
example (p : Plot) : ∃ z, ((p.reset.step 0 { demo with x := 3000, y := -1000 }).1).trajectory = [(3, -1, z)] := by
  obtain ⟨a, ha⟩ := (C45_pressure_domain 0 le_rfl zero_le_one { demo with x := 3000, y := -1000 }.pressure).2.2
    (by norm_num [demo]) |>.2 (by norm_num [demo])
  refine ⟨a.height / 1000, ?_⟩
  unfold Plot.step Plot.reset
  rw [ha]
  norm_num

end BLE
