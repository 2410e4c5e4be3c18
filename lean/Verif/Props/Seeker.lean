import Verif.Props.SafeStart
import Verif.Props.Agents
import Verif.Props.Aloft

/-!
# C137: StationSeeker always has somewhere to go
-/

namespace BLE

variable {K W Rd : Type}

/-- The smallest float pressure of the stock balloon is at most the twelfth searched level. -/
theorem minFloat_low {α : ℝ} (h0 : 0 ≤ α) (h1 : α ≤ 1) {s : BState} (hs : Spec.StockVehicle s) {top : ℝ}
    (ht : Spec.FloorPressure α top) :
    Spec.minFloatPressure α top s ≤ 1000 + 11 * (top - 1000) / 19 := by
  obtain ⟨v, hv, hvp, hT, p0, p1, -⟩ := floor_air h0 h1 ht
  have htop : 1000 < top := by linarith
  have hl : ∀ i : ℕ, (1000 + i * (top - 1000) / 19 : ℝ) = searchLevels top i := by
    intro i; unfold searchLevels linspace; norm_num
  have hlast : searchLevels top 19 = top := linspace_last _ _ 20 (by norm_num)
  have hE : emptyPoverT s = (161 + 6830 * heM) * gasR / (airM * 1804) := by
    unfold emptyPoverT
    rw [hs.payload, hs.envMass, hs.molsLift, hs.volBase]; norm_num
  have hmono : ∀ i j, i < j → j < 20 → Spec.levelPoverT α top i < Spec.levelPoverT α top j := by
    intro i j hij hj
    have r1 := levels_range top htop i (by omega)
    have r2 := levels_range top htop j hj
    obtain ⟨a, ha⟩ := atPressure_in h0 h1 (p := searchLevels top i) (by linarith) (by linarith)
    obtain ⟨b, hb⟩ := atPressure_in h0 h1 (p := searchLevels top j) (by linarith) (by linarith)
    unfold Spec.levelPoverT
    rw [hl, hl, ha, hb]
    have hd := (C44_pressure_direction α h0 h1 _ _ _ _ ha hb
      (linspace_strict 1000 top 20 (by norm_num) htop i j hij)).2
    obtain ⟨_, -, -, -, ea⟩ := atPressure_ok ha
    obtain ⟨_, -, -, -, eb⟩ := atPressure_ok hb
    have da : a.density = a.pressure / (airRs * a.temperature) := by rw [ea]
    have db : b.density = b.pressure / (airRs * b.temperature) := by rw [eb]
    rw [da, db, mul_comm airRs, mul_comm airRs, ← div_div, ← div_div] at hd
    exact (div_lt_div_iff_of_pos_right airRs_pos).1 hd
  have e30 : (161 + 6830 * heM) * gasR / (airM * 1804) ≤ 30 := by norm_num [heM, gasR, airM]
  obtain ⟨k, hk, b1, -, a1, a2⟩ := interp_segment (Spec.levelPoverT α top) (searchLevels top) 20 (emptyPoverT s) hmono
    (fun i j hij _ => linspace_strict 1000 top 20 (by norm_num) htop i j hij) (by norm_num)
    (by
      have r0 : searchLevels top 0 = 1000 := linspace_first _ _ _
      obtain ⟨a, ha⟩ := atPressure_in h0 h1 (p := searchLevels top 0) (by rw [r0]; norm_num) (by rw [r0]; norm_num)
      obtain ⟨t0, t1⟩ := atPressure_temp_range h0 h1 ha
      have hp := (C43_pressure_roundtrip α h0 h1 _ _ ha).1
      unfold Spec.levelPoverT
      rw [hl, ha]
      simp only
      rw [hp, r0, div_lt_iff₀ (by norm_num at *; linarith), hE]
      have : 29 ≤ (161 + 6830 * heM) * gasR / (airM * 1804) := by norm_num [heM, gasR, airM]
      have := mul_le_mul this t0 (by norm_num) (by linarith)
      norm_num at *; linarith)
    (by
      unfold Spec.levelPoverT
      rw [hl, hlast, hv]
      simp only
      rw [hvp, le_div_iff₀ (by rw [hT]; norm_num at *; linarith), hE]
      have := mul_le_mul e30 (show v.temperature ≤ 208.07 by rw [hT]; norm_num at *; linarith)
        (by rw [hT]; norm_num at *; linarith) (by norm_num)
      norm_num at *; linarith)
  have h11 : (1000 + (11 : ℕ) * (top - 1000) / 19 : ℝ) = searchLevels top 11 := hl 11
  have q0 : 7000 ≤ searchLevels top 11 := by rw [← h11]; push_cast; linarith
  have q1 : searchLevels top 11 ≤ top := (levels_range top htop 11 (by norm_num)).2
  -- at the twelfth level the air is already dense enough
  have hx : emptyPoverT s < Spec.levelPoverT α top 11 := by
    obtain ⟨a, ha⟩ := atPressure_in h0 h1 (p := searchLevels top 11) (by linarith) (by linarith)
    have hp := (C43_pressure_roundtrip α h0 h1 _ _ ha).1
    have hh : 15240 ≤ a.height := by
      obtain ⟨w, hw, hwp⟩ := ht
      have hm : minAltitude = 15240 := by norm_num [minAltitude]
      have e := (C43_height_roundtrip α h0 h1 _ _ hw)
      have hwt := e.2
      rw [hwp] at hwt
      rcases q1.lt_or_eq with hlt | heq
      · have := (C44_pressure_direction α h0 h1 _ _ _ _ ha hwt hlt).1
        have e1 := e.1
        rw [hm] at e1
        linarith
      · rw [heq, hwt] at ha
        injection ha with ha
        rw [← ha, e.1, hm]
    obtain ⟨t1, -⟩ := start_air h0 h1 ha (by linarith) hh
    obtain ⟨t0, -⟩ := atPressure_temp_range h0 h1 ha
    unfold Spec.levelPoverT
    rw [hl, ha]
    simp only
    rw [hp, lt_div_iff₀ (by norm_num at *; linarith), hE]
    have := mul_le_mul e30 t1 (by norm_num at *; linarith) (by norm_num)
    linarith
  have hk' : k < 11 := by
    by_contra hc
    rcases (not_lt.1 hc).lt_or_eq with h | h
    · have := hmono 11 k h (by omega)
      linarith
    · rw [← h] at b1; linarith
  have hle : searchLevels top (k + 1) ≤ searchLevels top 11 := by
    rcases (show k + 1 ≤ 11 by omega).lt_or_eq with h | h
    · exact (linspace_strict 1000 top 20 (by norm_num) htop _ _ h).le
    · rw [h]
  rw [← h11] at hle
  unfold Spec.minFloatPressure
  push_cast at hle
  linarith

/-- C137, the reachable range. For the stock balloon in every atmosphere of the simulator, at every time and place and with every
upwelling flux it draws, every pressure between 7,950 and 11,400 Pa is reported as reachable. -/
theorem C137_range (sun : Sun) (hsun : Spec.SolarSun sun) (α : ℝ) (h0 : 0 ≤ α) (h1 : α ≤ 1) (s : BState)
    (hs : Spec.StockVehicle s) (hu : 225 ≤ s.upwelling) (hu' : s.upwelling ≤ 315) :
    ∃ r, pressureRange sun α s = .ok r ∧ r.lo ≤ 7950 ∧ 11400 ≤ r.hi := by
  obtain ⟨v, hv, -, -⟩ := floor_exists α h0 h1
  have ht : Spec.FloorPressure α v.pressure := ⟨v, hv, rfl⟩
  generalize v.pressure = top at ht
  obtain ⟨r, hr, r1, -⟩ := C100_range_exists sun hsun α h0 h1 s hs hu hu' top ht
  have hcon := C48_consistent sun α h0 h1 s r top ht hr
  obtain ⟨w, hw, hwp, hT, p0, p1, -⟩ := floor_air h0 h1 ht
  have hq : 1000 + 11 * (top - 1000) / 19 ≤ top := by linarith
  refine ⟨r, hr, ?_, by rw [r1]; exact p0⟩
  obtain ⟨a, ha⟩ := atPressure_in h0 h1 (p := 1000 + 11 * (top - 1000) / 19) (by linarith) (by linarith)
  have hh : 15240 ≤ a.height := by
    obtain ⟨w, hw, hwp⟩ := ht
    have hm : minAltitude = 15240 := by norm_num [minAltitude]
    have e := (C43_height_roundtrip α h0 h1 _ _ hw)
    have hwt := e.2
    rw [hwp] at hwt
    have := (C44_pressure_direction α h0 h1 _ _ _ _ ha hwt (by linarith)).1
    have e1 := e.1
    rw [hm] at e1
    linarith
  obtain ⟨sp, e, g1, g2⟩ := C103_float_is_safe sun hsun α h0 h1 s hs hu hu' _ (by linarith) a ha hh
  have := (hcon.2.2 (1000 + 11 * (top - 1000) / 19) ⟨11, by norm_num, by norm_num⟩ (minFloat_low h0 h1 hs ht)
    ⟨sp, e, g1, by rw [hs.maxSp]; linarith⟩).1
  linarith

/-- An observation of a flying stock balloon: what the feature constructor of some episode reports. -/
def Spec.Observed (E : World K W) (obs : List ℝ) : Prop :=
  ∃ (F : FeatState) (s : BState), F.last = some s ∧ F.features E.R E.sun = .ok obs ∧ Spec.Flyer s ∧ 0 < s.pressure ∧
    0 ≤ F.α ∧ F.α ≤ 1

/-- C137. For every observation of a flight StationSeeker answers with 0, 1 or 2: no assertion fires, and the level it picks is
reachable. -/
theorem C137_seeker (E : World K W) (two : Bool) (hR : E.R = gpr two) (cal : Calendar) (hcal : Spec.Gregorian cal)
    (hE : E.sun = realSun cal) (obs : List ℝ) (h : Spec.Observed E obs) :
    obs.length = 1099 ∧ ∃ a, stationSeek obs = .ok a ∧ (a = 0 ∨ a = 1 ∨ a = 2) := by
  obtain ⟨F, s, hl, hf, hfl, hp, a0, a1⟩ := h
  rw [hR] at hf
  obtain ⟨r, hr, r1, r2⟩ := C137_range E.sun (by rw [hE]; exact C100_real_sun cal hcal.1) F.α a0 a1 s hfl.toStockVehicle
    hfl.ir0 hfl.ir1
  obtain ⟨a, level, best, h1, -, -, -, -, u1, u2, u3⟩ := C61_flying two E.sun F s hl hp hfl.charge0 hfl.charge1 obs hf r hr 60
    (by norm_num) (by norm_num; linarith) (by norm_num; linarith)
  refine ⟨(features_wellFormed two E.sun F s hl hp hfl.charge0 hfl.charge1 obs hf).length, a, h1, ?_⟩
  rcases lt_trichotomy (best : ℤ) level with h | h | h
  · exact .inr (.inr (u1.2 h))
  · exact .inr (.inl (u2.2 h))
  · exact .inl (u3.2 h)

/-- What `BalloonArena.reset` and `step` return is the report of the feature constructor on the balloon. -/
theorem measure_observed {E : World K W} {A A' : Arena K W} {i : ℕ} {F : Feat} {obs : List ℝ}
    (h : A.measure E i F = (A', .ok obs)) :
    ∃ F', A'.feat = some F' ∧ F'.last = some i ∧ F'.atm = F.atm ∧
      (F'.view E A'.heap).features E.R E.sun = .ok obs := by
  unfold Arena.measure at h
  rcases hw : windAtBalloon E (A.heap.winds A.wind) (A.heap.balls i) with e | w
  · rw [hw] at h; simp at h
  rw [hw] at h
  simp only at h
  rcases hr : ((F.view E A.heap).observe (A.heap.balls i) w).2 with e | u
  · rw [hr] at h; simp at h
  · rw [hr] at h
    simp only [Prod.mk.injEq] at h
    obtain ⟨rfl, h2⟩ := h
    exact ⟨_, rfl, rfl, rfl, h2⟩

/-- The observation that goes with an arena in an episode. -/
theorem observed_of {E : World K W} {A : Arena K W} {i : ℕ} {F : Feat} {obs : List ℝ} (hA : Spec.InEpisode E A i)
    (hp : 0 < (A.heap.balls i).pressure) (hF : A.feat = some F) (hl : F.last = some i)
    (hf : (F.view E A.heap).features E.R E.sun = .ok obs) : Spec.Observed E obs := by
  obtain ⟨F', hF', -, fa⟩ := hA.feat
  rw [hF] at hF'
  injection hF' with hF'
  subst hF'
  refine ⟨F.view E A.heap, A.heap.balls i, ?_, hf, hA.flyer, hp, ?_, ?_⟩
  · unfold Feat.view; simp only [hl, Option.map_some]
  · show 0 ≤ A.heap.atms F.atm
    rw [fa]; exact hA.blend.1
  · show A.heap.atms F.atm ≤ 1
    rw [fa]; exact hA.blend.2

theorem reset_observed {E : World K W} {A A' : Arena K W} {key : K} {obs : List ℝ} {i : ℕ} (h : A.reset E key = (A', .ok obs))
    (hA : Spec.InEpisode E A' i) (hp : 0 < (A'.heap.balls i).pressure) : Spec.Observed E obs := by
  have hball := hA.ball
  unfold Arena.reset at h
  simp only at h
  split at h
  · simp at h
  · split_ifs at h
    · simp at h
    · obtain ⟨F', h1, h2, -, h4⟩ := measure_observed h
      generalize hB : Arena.mk _ _ _ _ _ _ = B at h
      have hm := measure_frame E B A.heap.nextBall { wind := A.wind, atm := A.atm, data := [], last := none }
      rw [h] at hm
      have : A'.ball = some A.heap.nextBall := by rw [hm.2.2.2.2, ← hB]
      rw [hball] at this
      injection this with this
      subst this
      exact observed_of hA hp h1 h2 h4

/-- C137, whole episodes. After a reset with any seed StationSeeker answers the observation returned by the reset, and after any
actions it answers the observation of any step that returns. -/
theorem C137_episode (c : EnvCfg K W Rd) (hJ : Spec.SaneDraws c.world.J) (two : Bool) (hR : c.world.R = gpr two)
    (cal : Calendar) (hcal : Spec.Gregorian cal) (hE : c.world.sun = realSun cal) (hC : Spec.GoodWind c.world.C)
    (v : Env K W Rd) (seed : Option ℤ) :
    ∃ v0 obs info, v.reset c seed = (v0, .ok (obs, info)) ∧ Spec.Observed c.world obs ∧
      (∃ a, stationSeek obs = .ok a ∧ (a = 0 ∨ a = 1 ∨ a = 2)) ∧
      ∀ (as : List ℤ) (b : ℤ) (out : StepOut), ((Spec.after c as v0).step c b).2 = .ok out →
        Spec.Observed c.world out.obs ∧ ∃ a, stationSeek out.obs = .ok a ∧ (a = 0 ∨ a = 1 ∨ a = 2) := by
  obtain ⟨v0, o, i, hr, h⟩ := aloft_episode c hJ two hR cal hcal hE hC v seed
  have hpos : ∀ as, 0 < ((Spec.after c as v0).arena.heap.balls i).pressure := fun as => by linarith [(h as).2.range.1]
  have hobs : Spec.Observed c.world o.1 := by
    have key : ∀ w : Env K W Rd, w.reset c none = (v0, .ok o) → Spec.Observed c.world o.1 := by
      intro w hw
      unfold Env.reset at hw
      simp only at hw
      rcases hA : w.arena.reset c.world (c.world.J.split w.rng 2 1) with ⟨A', res⟩
      rw [hA] at hw
      simp only at hw
      rcases res with e | obs
      · simp at hw
      · simp only at hw
        rcases hb : A'.ball with _ | j
        · rw [hb] at hw; simp at hw
        · rw [hb] at hw
          simp only [Prod.mk.injEq, Except.ok.injEq] at hw
          obtain ⟨rfl, rfl⟩ := hw
          exact reset_observed hA (h []).1 (hpos [])
    cases seed with
    | none => exact key v hr
    | some sd => exact key (v.seed c sd) hr
  refine ⟨v0, o.1, o.2, hr, hobs, (C137_seeker c.world two hR cal hcal hE _ hobs).2, fun as b out hout => ?_⟩
  have hst : (Spec.after c as v0).step c b = (((Spec.after c as v0).step c b).1, .ok out) := by rw [← hout]
  have happ : Spec.after c (as ++ [b]) v0 = ((Spec.after c as v0).step c b).1 := by
    unfold Spec.after
    rw [List.foldl_append]; rfl
  obtain ⟨j, F, F', w, f, g1, -, g3, -, -, -, g5, -, -, g6⟩ := C96_observation c b _ _ out hst
  rw [← happ] at g1 g3 g6
  have hij : j = i := by
    have := (h (as ++ [b])).1.ball
    rw [g1] at this
    injection this
  subst hij
  have ho := observed_of (h (as ++ [b])).1 (hpos _) g3 g5 g6
  exact ⟨ho, (C137_seeker c.world two hR cal hcal hE _ ho).2⟩

/-- In the sunny world StationSeeker has an answer to the first observation, whatever the seed. -/
example (seed : ℤ) (v : Env (List ℕ) Unit Unit) :
    ∃ v0 obs info a, v.reset sunnyCfg (some seed) = (v0, .ok (obs, info)) ∧ stationSeek obs = .ok a := by
  obtain ⟨v0, obs, info, hr, -, ⟨a, ha, -⟩, -⟩ := C137_episode sunnyCfg sunnyWorld_draws true rfl gregorian gregorian_ok rfl
    good_static v (some seed)
  exact ⟨v0, obs, info, a, hr, ha⟩

end BLE
