import Verif.Props.RealSun
import Verif.Props.Reachable
import Verif.Props.Episode
import Verif.Props.Features

/-!
# C102: observations can always be taken

Everything an observation needs, put together: the weather, the estimator, the sunrise search, the power table, the
reachable range.
-/

namespace BLE

variable {K W Rd : Type}

/-! ## What is assumed of the wind field class -/

/-- A forecast that answers every question about the present and the future, and whose columns agree with its single
answers. -/
structure Spec.Answers (f : Forecaster) : Prop where
  consistent : Spec.Consistent f
  single : ∀ x y p t, 0 ≤ t → ∃ w, f.single x y p t = .ok w
  column : ∀ x y ps t, 0 ≤ t → ∃ ws, f.column x y ps t = .ok ws

/-- A wind field class whose forecasts answer once they have been reset. -/
def Spec.GoodWind (C : WindClass K W) : Prop :=
  ∀ k d w, Spec.Answers (Forecaster.of C (C.resetForecast k d w))

theorem good_static : Spec.GoodWind (staticWind K) := by
  intro k d w
  have hs : ∀ x y p t, ∃ w', (staticWind K).forecast w x y p t = .ok w' := by
    intro x y p t
    simp only [staticWind]
    split_ifs <;> exact ⟨_, rfl⟩
  refine ⟨consistent_base _ rfl _, fun x y p t _ => hs x y p t, fun x y ps t _ => ?_⟩
  show ∃ ws, ps.mapM (fun p => (staticWind K).forecast w x y p t) = .ok ws
  induction ps with
  | nil => exact ⟨[], rfl⟩
  | cons p ps ih =>
    obtain ⟨ws, h⟩ := ih
    obtain ⟨w', hw⟩ := hs x y p t
    exact ⟨w' :: ws, by rw [List.mapM_cons, hw, h]; rfl⟩

theorem good_grid (s : FieldShape) (hs : Spec.ProperShape s) (sample : K → ℤ → GridField) :
    Spec.GoodWind (gridWind s sample) := by
  intro k d w
  refine ⟨?_, fun x y p t ht => ((C36_reset_needed s hs sample x y p [] t).2.2 k d w ht).1,
    fun x y ps t ht => ((C36_reset_needed s hs sample x y 0 ps t).2.2 k d w ht).2⟩
  intro x y ps t ws h
  have h' : gridColumn s (some (sample k d)) x y ps t = .ok ws := h
  unfold gridColumn at h'
  simp only [List.mapM_map] at h'
  exact (mapM_ok_iff _ _ _).1 h'

/-! ## What is true of every balloon of an episode -/

/-- The stock vehicle in flight: constants, and what no step changes. -/
structure Spec.Flyer (s : BState) : Prop extends Spec.StockVehicle s where
  cod : s.cod = 0.25
  cap : s.cap = 3058.56
  ir0 : 225 ≤ s.upwelling
  ir1 : s.upwelling ≤ 315
  ambT : 0 < s.ambT
  vol : 0 < s.vol
  air : 0 ≤ s.molsAir
  clock : 0 ≤ s.timeElapsed
  charge0 : 0 ≤ s.charge
  charge1 : s.charge ≤ s.cap

/-- Where the simulator is defined: pressures and temperatures of its formulas, latitudes with ordinary days, dates
before 2096, superpressure within the table of the altitude control system. -/
structure Spec.Envelope (s : BState) : Prop where
  date : 0 ≤ s.dateTime ∧ s.dateTime < 3999000000 * 1000000
  lat : |degrees s.latlng.lat| ≤ 50
  pressure : 101 ≤ s.pressure ∧ s.pressure ≤ 101325
  temp : 13 ≤ s.intT ∧ s.intT ≤ 8000
  sp : s.sp ≤ 4 * s.pressure

/-- An arena during an episode, with balloon `i`. -/
structure Spec.InEpisode (E : World K W) (A : Arena K W) (i : ℕ) : Prop where
  ball : A.ball = some i
  feat : ∃ F, A.feat = some F ∧ F.wind = A.wind ∧ F.atm = A.atm
  weather : ∃ k d w, A.heap.winds A.wind = WindField.reset E.J E.C k d w
  blend : 0 ≤ A.heap.atms A.atm ∧ A.heap.atms A.atm ≤ 1
  flyer : Spec.Flyer (A.heap.balls i)

theorem Spec.Flyer.sound {s : BState} (h : Spec.Flyer s) : Spec.SoundVehicle s :=
  { cod := by rw [h.cod]; norm_num
    envMass := by rw [h.envMass]; norm_num
    lift := by rw [h.molsLift]; norm_num
    base := by rw [h.volBase]; norm_num
    dv := by rw [h.dvdp]; norm_num
    cap := by rw [h.cap]; norm_num
    ir0 := by linarith [h.ir0]
    ir1 := by linarith [h.ir1] }

theorem flyer_step {sun : Sun} {α : ℝ} (h0 : 0 ≤ α) (h1 : α ≤ 1) (u v : ℝ) (a : Command) (s : BState)
    (hs : Spec.Flyer s) : Spec.Flyer (simulateStep sun α u v a agentStep defaultStride s).1 := by
  have hb := airborne_step (sun := sun) h0 h1 (u := u) (v := v) a agentStep defaultStride s
    { hs.sound with ambT := hs.ambT, vol := hs.vol, air := hs.air }
  have hst := simulateStep_invariant (sun := sun) (α := α) (u := u) (v := v) (stride := defaultStride)
    (P := fun r => (r.volBase = 1804 ∧ r.dvdp = 0.0199 ∧ r.envMass = 68.5 ∧ r.payload = 92.5 ∧ r.molsLift = 6830 ∧
      r.maxSp = 2380) ∧ r.cod = 0.25 ∧ r.cap = 3058.56 ∧ 225 ≤ r.upwelling ∧ r.upwelling ≤ 315)
    (fun s a pw ev al h => h) (fun a s s' h hp => by
      obtain ⟨_, _, _, _, _, _, _, _, rfl⟩ := substep_ok h
      exact hp) a agentStep s
    ⟨⟨hs.volBase, hs.dvdp, hs.envMass, hs.payload, hs.molsLift, hs.maxSp⟩, hs.cod, hs.cap, hs.ir0, hs.ir1⟩
  obtain ⟨⟨a1, a2, a3, a4, a5, a6⟩, a7, a8, a9, a10⟩ := hst
  obtain ⟨j, -, hj⟩ := simulateStep_time sun α u v a s
  obtain ⟨q1, q2, -⟩ := C09_charge_in_range sun α s [⟨u, v, a, agentStep, defaultStride⟩] hs.charge0 hs.charge1
  exact { volBase := a1, dvdp := a2, envMass := a3, payload := a4, molsLift := a5, maxSp := a6, cod := a7, cap := a8
          ir0 := a9, ir1 := a10, ambT := hb.ambT, vol := hb.vol, air := hb.air
          clock := by have := hs.clock; rw [hj]; omega
          charge0 := q1, charge1 := q2 }

/-! ## Taking one observation -/

theorem reset_wind_ok (E : World K W) (hC : Spec.GoodWind E.C) (k : K) (d : ℤ) (w : WindField W) (x y p : ℝ) {t : ℤ}
    (ht : 0 ≤ t) : ∃ g, groundTruth E.nz E.C (WindField.reset E.J E.C k d w) x y p t = .ok g := by
  obtain ⟨f, hf⟩ := (hC (E.J.split k 2 1) d w.sub).single x y p t ht
  obtain ⟨-, M, cu, cv, su, sv, -, -, -, -, hn⟩ := C87_noise E.J E.nz (E.J.split k 2 0) w.noise
  refine ⟨(_, _), (C37_ground_truth E.nz E.C _ x y p t _).2 ⟨f, _, hf, hn x y p t, rfl, rfl⟩⟩

theorem ambient_ok (cal : Calendar) (hcal : Spec.Gregorian cal) (s : BState) (hs : Spec.Flyer s) (he : Spec.Envelope s) :
    ∃ b, addAmbient (realSun cal) s (Buf.zeros 1099) = .ok b := by
  obtain ⟨f0, h0, -⟩ := C56_saturation s.pressure 5000 14000 (by norm_num)
  obtain ⟨f2, h2, -⟩ := C56_saturation (realSun cal s.latlng s.dateTime).el (-90) 90 (by norm_num)
  obtain ⟨st, hst, s0, s1⟩ := C101_feature cal hcal s he.lat he.date.1 he.date.2
  have hcap : s.cap ≠ 0 := hs.sound.cap
  have hsoc : s.soc = .ok (s.charge / s.cap) := pyDiv_ok hcap
  have hp : 0 < s.pressure := by linarith [he.pressure.1]
  obtain ⟨e0, e1, -, -⟩ := C100_real_sun cal hcal.1 s.latlng s.dateTime
  obtain ⟨w, hw⟩ := solarPower_ok e0 e1 hp.le he.pressure.2
  have hex : ∃ ex, s.excessEnergy (realSun cal) = .ok ex := by
    unfold BState.excessEnergy
    simp only [bind, Except.bind, hw, hsoc, pure, Except.pure]
    split_ifs <;> exact ⟨_, rfl⟩
  obtain ⟨ex, hex⟩ := hex
  have hr0 : 0.99 ≤ s.pressureRatio := by
    unfold BState.pressureRatio
    rw [le_div_iff₀ hp]
    have := le_max_right s.sp 0
    norm_num
    linarith
  have hr1 : s.pressureRatio ≤ 5 := by
    unfold BState.pressureRatio
    rw [div_le_iff₀ hp]
    have : max s.sp 0 ≤ 4 * s.pressure := max_le he.sp (by linarith)
    linarith
  obtain ⟨pw, hpw, -⟩ := (C41_total s.pressureRatio (s.charge / s.cap)).1 ⟨hr0, hr1⟩
  obtain ⟨f14, h14, -⟩ := C56_saturation pw 100 300 (by norm_num)
  have hd : 0 ≤ relativeDistance s.x s.y / 1000 := by
    unfold relativeDistance
    positivity
  have h7 : squash (relativeDistance s.x s.y / 1000) 250 =
      .ok (relativeDistance s.x s.y / 1000 / (relativeDistance s.x s.y / 1000 + 250)) := by
    unfold squash
    rw [if_neg (by norm_num), if_neg (not_lt.2 hd)]
  exact ⟨_, addAmbient_of _ s
    { f0 := f0, soc := _, f2 := f2, st := st, f7 := _, f14 := f14, ex := ex, pw := pw, h0 := h0, hsoc := hsoc, h2 := h2
      hst := hst, hst0 := s0, hst1 := by norm_num; linarith, h7 := h7, hex := hex, hpw := hpw, h14 := h14 } 1099
    (by norm_num)⟩

/-- C102. During an episode (arena as left by a reset and any number of steps) an observation can be taken whenever the
balloon is in the envelope: weather, estimator, sunrise search, power table, reachable range and feature vector all
answer, and the result lies in the declared observation space. The ephemeris is the code's own, the regressor the
code's, the wind field any class that answers after a reset. -/
theorem C102_observation (E : World K W) (two : Bool) (hR : E.R = gpr two) (cal : Calendar) (hcal : Spec.Gregorian cal)
    (hE : E.sun = realSun cal) (hC : Spec.GoodWind E.C) (A : Arena K W) (i : ℕ) (hA : Spec.InEpisode E A i) (F : Feat)
    (hF : A.feat = some F) (he : Spec.Envelope (A.heap.balls i)) :
    ∃ obs, (A.measure E i F).2 = .ok obs ∧ obs.length = 1099 ∧
      ∀ j x, obs[j]? = some x → obsLow j ≤ x ∧ ∀ u, obsHigh j = some u → x ≤ u := by
  obtain ⟨F', hF', fw, fa⟩ := hA.feat
  rw [hF] at hF'
  injection hF' with hF'
  subst hF'
  obtain ⟨k, d, w, hw⟩ := hA.weather
  obtain ⟨a0, a1⟩ := hA.blend
  have hfl := hA.flyer
  obtain ⟨g, hg⟩ := reset_wind_ok E hC k d w (A.heap.balls i).x (A.heap.balls i).y (A.heap.balls i).pressure hfl.clock
  have hans := hC (E.J.split k 2 1) d w.sub
  have hsub : (A.heap.winds F.wind).sub = E.C.resetForecast (E.J.split k 2 1) d w.sub := by rw [fw, hw]; rfl
  have hg' : windAtBalloon E (A.heap.winds A.wind) (A.heap.balls i) = .ok g := by rw [hw]; exact hg
  generalize hs : A.heap.balls i = s at *
  obtain ⟨f, hf⟩ := hans.single s.x s.y s.pressure s.timeElapsed hfl.clock
  unfold Arena.measure
  rw [hs, hg']
  simp only
  have hfor : (F.view E A.heap).gp.forecast = Forecaster.of E.C (E.C.resetForecast (E.J.split k 2 1) d w.sub) := by
    show Forecaster.of E.C (A.heap.winds F.wind).sub = _
    rw [hsub]
  have hobs : (F.view E A.heap).gp.observe s.x s.y s.pressure s.timeElapsed g =
      .ok { (F.view E A.heap).gp with data := F.data ++ [(⟨s.x, s.y, s.pressure, totalSeconds s.timeElapsed⟩,
        (g.1 - f.1, g.2 - f.2))] } := by
    unfold WindGP.observe
    rw [hfor]
    simp only [bind, Except.bind, hf, pure, Except.pure]
    rw [← hfor]; rfl
  have hobs' := hobs
  unfold FeatState.observe
  rw [hobs]
  simp only
  obtain ⟨ws, hcol⟩ := hans.column s.x s.y ((List.range 181).map pressureLevel) s.timeElapsed hfl.clock
  obtain ⟨ms, ds, hq, -, -⟩ := C39_after_observation two _ _ (by rw [hfor]; exact hans.consistent) _ _ _ _ _ hobs' s.x s.y
    ((List.range 181).map pressureLevel) (by simp) ws (by rw [hfor]; exact hcol)
  rw [← columnQuery_eq] at hq
  obtain ⟨v, hv, -, -⟩ := floor_exists (A.heap.atms A.atm) a0 a1
  obtain ⟨r, hr, -⟩ := C100_range_exists E.sun (by rw [hE]; exact C100_real_sun cal hcal.1) (A.heap.atms A.atm) a0 a1 s
    hfl.toStockVehicle hfl.ir0 hfl.ir1 v.pressure ⟨v, hv, rfl⟩
  have hamb := ambient_ok cal hcal s hfl he
  rw [← hE] at hamb
  generalize hV : Feat.view E A.heap { F with data := _, last := some i } = V
  have hVl : V.last = some s := by rw [← hV, ← hs]; rfl
  have hVf : V.gp.forecast = (F.view E A.heap).gp.forecast := by rw [← hV]; rfl
  obtain ⟨b, hb⟩ := C25_no_failure two E.sun V (by rw [hVf, hfor]; exact hans.consistent) s hVl hamb
    ⟨(ms, ds), by rw [← hV]; exact hq⟩ ⟨r, by rw [← hV]; show pressureRange E.sun (A.heap.atms F.atm) s = _; rw [fa]; exact hr⟩
  have hfe : V.features (gpr two) E.sun = .ok b.toList := by
    unfold FeatState.features
    rw [hb]; rfl
  rw [hR, hfe]
  exact ⟨_, rfl, C27_in_space two E.sun V s hVl (by linarith [he.pressure.1]) hfl.charge0 hfl.charge1 _ hfe⟩

/-! ## Resetting -/

theorem start_superpressure {α : ℝ} {b : BState} (h : Spec.ValidStart α b) : b.sp ≤ 4 * b.pressure := by
  obtain ⟨hp0, -⟩ := h.height
  obtain ⟨-, t1, a0, a1⟩ := h.temperature
  obtain ⟨v1, v2, v3, v4, v5, -⟩ := h.vehicle
  obtain ⟨s0, -, hm⟩ := h.buoyant
  have hbal := h.balance
  unfold Spec.EnvelopeBalance at hbal
  unfold Spec.mass Spec.displaced at hm
  rw [v1, v3, v4, v5] at hm
  rw [v1, v2, v5] at hbal
  have hlt : b.pressure * 1804 < (6830 + b.molsAir) * 8.3144621 * b.intT := by
    by_contra hc
    have := (hbal.1 (not_lt.1 hc)).1
    linarith
  obtain ⟨-, e1, e2⟩ := hbal.2 hlt
  rw [e1] at e2
  by_contra hc
  have hsp := not_le.1 hc
  have hT : 0 < b.ambT := by linarith
  have hn : (6830 + b.molsAir) * 8.3144621 * b.intT =
      b.pressure * 1804 * (b.intT / b.ambT) + 9.49457167 * 8.3144621 / 0.02896492248116 * b.intT +
        (0.02896492248116 * 6830 - 0.004002602 * 6830 - 161 - 9.49457167) * 8.3144621 / 0.02896492248116 * b.intT := by
    have hm' : (6830 + b.molsAir) = b.pressure / (8.3144621 * b.ambT) * 1804 +
        (0.02896492248116 * 6830 - 0.004002602 * 6830 - 161) / 0.02896492248116 := by
      have : 0.02896492248116 * b.molsAir = b.pressure * 0.02896492248116 / (8.3144621 * b.ambT) * 1804 -
          (0.004002602 * 6830 + 161) := by norm_num at hm ⊢; linarith
      field_simp at this ⊢
      norm_num at this ⊢
      linarith
    rw [hm']
    field_simp
    norm_num
    ring
  have hratio : b.intT / b.ambT ≤ 5.03 := by
    rw [div_le_iff₀ hT]
    norm_num
    linarith
  have hle : (6830 + b.molsAir) * 8.3144621 * b.intT ≤ 9460 * b.pressure := by
    rw [hn]
    have h1 : b.pressure * 1804 * (b.intT / b.ambT) ≤ b.pressure * 1804 * 5.03 :=
      mul_le_mul_of_nonneg_left hratio (by linarith)
    norm_num at h1 ⊢
    linarith
  have hge : 5 * b.pressure * (1804 + 0.0199 * (4 * 6500)) ≤ (b.pressure + b.sp) * (1804 + 0.0199 * b.sp) := by
    apply mul_le_mul
    · linarith
    · norm_num; linarith
    · norm_num
    · linarith
  rw [e2] at hge
  norm_num at hge hle
  linarith

theorem inEpisode_measure {E : World K W} {A : Arena K W} {i : ℕ} (hA : Spec.InEpisode E A i) {F : Feat}
    (hF : A.feat = some F) : Spec.InEpisode E (A.measure E i F).1 i := by
  obtain ⟨m1, -, m3, m4, m5⟩ := measure_frame E A i F
  obtain ⟨F', hF', fw, fa⟩ := hA.feat
  rw [hF] at hF'
  injection hF' with hF'
  subst hF'
  refine { ball := by rw [m5]; exact hA.ball, feat := ?_, weather := by rw [m1, m3]; exact hA.weather
           blend := by rw [m1, m4]; exact hA.blend, flyer := by rw [m1]; exact hA.flyer }
  unfold Arena.measure
  rcases windAtBalloon E (A.heap.winds A.wind) (A.heap.balls i) with e | w
  · exact ⟨F, hF, fw, fa⟩
  · simp only
    rcases ((F.view E A.heap).observe (A.heap.balls i) w).2 with e | u
    · exact ⟨_, rfl, fw, fa⟩
    · exact ⟨_, rfl, fw, fa⟩

theorem start_flyer {α : ℝ} {b : BState} (h : Spec.ValidStart α b) : Spec.Flyer b := by
  obtain ⟨v1, v2, v3, v4, v5, v6, v7, v8, -⟩ := h.vehicle
  obtain ⟨c0, c1, -⟩ := h.battery
  have hvol : 0 < b.vol := by
    have hbal := h.balance
    unfold Spec.EnvelopeBalance at hbal
    have hsp := h.buoyant.1
    rcases le_or_gt ((b.molsLift + b.molsAir) * 8.3144621 * b.intT) (b.pressure * b.volBase) with hc | hc
    · rw [(hbal.1 hc).1] at hsp; exact absurd hsp (lt_irrefl _)
    · rw [(hbal.2 hc).2.1, v1, v2]
      linarith
  exact { volBase := v1, dvdp := v2, envMass := v3, payload := v4, molsLift := v5, maxSp := v6, cap := v7, cod := v8
          ir0 := h.infrared.1, ir1 := h.infrared.2.le, ambT := by linarith [h.temperature.2.2.1], vol := hvol
          air := h.buoyant.2.1.le, clock := h.flying.2.1.ge
          charge0 := by rw [v7] at c0; norm_num at c0; linarith
          charge1 := c1.le }

theorem start_envelope {α : ℝ} {b : BState} (h : Spec.ValidStart α b) {date : ℤ} (hd : b.dateTime = date)
    (d0 : 0 ≤ date) (d1 : date < 3999000000 * 1000000) : Spec.Envelope b :=
  { date := by rw [hd]; exact ⟨d0, d1⟩
    lat := by linarith [h.station.2.2]
    pressure := ⟨by linarith [h.height.1], by linarith [h.height.2.1]⟩
    temp := ⟨by linarith [h.temperature.1], by linarith [h.temperature.2.1]⟩
    sp := start_superpressure h }

/-- C102, `BalloonArena.reset`. Whatever the random draws, the wind field's past and the previous episode, a reset
succeeds: it returns an observation in the observation space, and leaves an arena in episode with a flying balloon in
the envelope. -/
theorem C102_reset (E : World K W) (hJ : Spec.SaneDraws E.J) (two : Bool) (hR : E.R = gpr two) (cal : Calendar)
    (hcal : Spec.Gregorian cal) (hE : E.sun = realSun cal) (hC : Spec.GoodWind E.C) (key : K) (A : Arena K W) :
    ∃ A' obs i, A.reset E key = (A', .ok obs) ∧ Spec.InEpisode E A' i ∧ Spec.Envelope (A'.heap.balls i) ∧
      (∃ α, Spec.ValidStart α (A'.heap.balls i)) ∧ obs.length = 1099 ∧
      ∀ j x, obs[j]? = some x → obsLow j ≤ x ∧ ∀ u, obsHigh j = some u → x ≤ u := by
  have hcnt : sampleTimeCount timeBegin timeEnd = 126144000 := by decide
  have hch := (hJ (E.J.split key 3 2)).2.2.2 (sampleTimeCount timeBegin timeEnd).toNat (by rw [hcnt]; norm_num)
  have hd := C78_time timeBegin timeEnd (E.J.choice (E.J.split key 3 2) (sampleTimeCount timeBegin timeEnd).toNat)
    (by rw [hcnt] at *; omega) (by decide)
  obtain ⟨a0, a1⟩ := (hJ (E.J.split key 3 1)).1
  unfold Arena.reset
  simp only
  generalize sampleTime timeBegin _ = date at *
  generalize E.J.uniform (E.J.split key 3 1) = α at *
  have hd0 : 1293840000 * 1000000 ≤ date := hd.1
  have hd1 : date < 1419984000 * 1000000 := hd.2
  rcases C95_init E hJ (by rw [hE]; exact C94_real_sun cal hcal.1) α a0 a1.le (E.J.split key 3 0) date with
    ⟨b, hb, hvs, hdt⟩ | ⟨-, l, hl, hbad⟩
  swap
  · refine absurd ?_ hbad
    rw [hE]
    exact midSun_ordinary cal hcal l (midlat_of_degrees (by linarith)) date (by omega) (by omega)
  rw [hb]
  simp only [hvs.flying.1, ne_eq, not_true, if_false]
  generalize hB : Arena.mk _ _ _ _ _ _ = B
  have hep : Spec.InEpisode E B A.heap.nextBall := by
    subst hB
    refine { ball := rfl, feat := ⟨_, rfl, rfl, rfl⟩, weather := ⟨_, _, _, Function.update_self ..⟩, blend := ?_, flyer := ?_ }
    · simp only [Function.update_self]; exact ⟨a0, a1.le⟩
    · simp only [Function.update_self]; exact start_flyer hvs
  have hbb : B.heap.balls A.heap.nextBall = b := by rw [← hB]; exact Function.update_self ..
  have hbf : B.feat = some { wind := A.wind, atm := A.atm, data := [], last := none } := by rw [← hB]
  have henv := start_envelope hvs hdt (by omega) (by omega)
  obtain ⟨obs, ho, hs⟩ := C102_observation E two hR cal hcal hE hC B _ hep _ hbf (by rw [hbb]; exact henv)
  refine ⟨_, obs, A.heap.nextBall, Prod.ext rfl ho, inEpisode_measure hep hbf, ?_, ⟨α, ?_⟩, hs⟩
  · rw [(measure_frame E B _ _).1, hbb]; exact henv
  · rw [(measure_frame E B _ _).1, hbb]; exact hvs

/-! ## Stepping -/

theorem inEpisode_step {E : World K W} {A : Arena K W} {i : ℕ} (hA : Spec.InEpisode E A i) (a : Command) :
    Spec.InEpisode E (A.step E a).1 i := by
  obtain ⟨F, hF, fw, fa⟩ := hA.feat
  unfold Arena.step
  rw [hA.ball]
  simp only
  rcases windAtBalloon E (A.heap.winds A.wind) (A.heap.balls i) with e | w
  · exact hA
  simp only
  have hmut : Spec.InEpisode E (A.mutate i (simulateStep E.sun (A.heap.atms A.atm) w.1 w.2 a agentStep defaultStride
      (A.heap.balls i)).1) i :=
    { ball := hA.ball, feat := hA.feat, weather := hA.weather, blend := hA.blend
      flyer := by
        show Spec.Flyer (Function.update A.heap.balls i _ i)
        rw [Function.update_self]
        exact flyer_step hA.blend.1 hA.blend.2 _ _ _ _ hA.flyer }
  rcases (simulateStep E.sun (A.heap.atms A.atm) w.1 w.2 a agentStep defaultStride (A.heap.balls i)).2 with e | u
  · exact hmut
  · have hF' : (A.mutate i (simulateStep E.sun (A.heap.atms A.atm) w.1 w.2 a agentStep defaultStride
      (A.heap.balls i)).1).feat = some F := hF
    simp only [hF']
    exact inEpisode_measure hmut hF'

/-- C102, `BalloonArena.step`. During an episode a flying balloon can be stepped by every command: if it is in the envelope
before and where it comes to rest, the step succeeds and returns an observation in the observation space. -/
theorem C102_arena_step (E : World K W) (two : Bool) (hR : E.R = gpr two) (cal : Calendar) (hcal : Spec.Gregorian cal)
    (hE : E.sun = realSun cal) (hC : Spec.GoodWind E.C) (A : Arena K W) (i : ℕ) (hA : Spec.InEpisode E A i) (a : Command)
    (hok : (A.heap.balls i).status = .ok) (he : Spec.Envelope (A.heap.balls i))
    (he' : Spec.Envelope ((A.step E a).1.heap.balls i)) :
    ∃ obs, (A.step E a).2 = .ok obs ∧ obs.length = 1099 ∧
      ∀ j x, obs[j]? = some x → obsLow j ≤ x ∧ ∀ u, obsHigh j = some u → x ≤ u := by
  obtain ⟨k, d, w0, hw⟩ := hA.weather
  have hfl := hA.flyer
  obtain ⟨g, hg⟩ := reset_wind_ok E hC k d w0 (A.heap.balls i).x (A.heap.balls i).y (A.heap.balls i).pressure hfl.clock
  have hg' : windAtBalloon E (A.heap.winds A.wind) (A.heap.balls i) = .ok g := by rw [hw]; exact hg
  have hball : (A.step E a).1.heap.balls i = (simulateStep E.sun (A.heap.atms A.atm) g.1 g.2 a agentStep defaultStride
      (A.heap.balls i)).1 := by
    rcases arenaStep_ball E a A i hA.ball with ⟨e, h, -⟩ | ⟨w, h, h1, -⟩
    · rw [hg'] at h; cases h
    · rw [hg'] at h
      injection h with h
      subst h
      rw [h1, Function.update_self]
  have hsim : (simulateStep E.sun (A.heap.atms A.atm) g.1 g.2 a agentStep defaultStride (A.heap.balls i)).2 = .ok () := by
    rcases hx : (simulateStep E.sun (A.heap.atms A.atm) g.1 g.2 a agentStep defaultStride (A.heap.balls i)).2 with e | u
    swap
    · rfl
    rcases C80_no_exception E.sun (fun l t => by
        rw [hE]
        obtain ⟨e0, e1, -⟩ := C100_real_sun cal hcal.1 l t
        exact ⟨e0, e1⟩) (A.heap.atms A.atm) hA.blend.1 hA.blend.2 g.1 g.2 a 180 10 (by norm_num) (by norm_num)
        (A.heap.balls i) hok hfl.sound hfl.ambT hfl.vol hfl.air e hx with h | h
    · exact absurd he.pressure h
    · refine absurd ?_ h
      rw [hball] at he'
      exact ⟨he'.pressure.1, he'.pressure.2, he'.temp.1, he'.temp.2⟩
  obtain ⟨F, hF, fw, fa⟩ := hA.feat
  have hmut : Spec.InEpisode E (A.mutate i (simulateStep E.sun (A.heap.atms A.atm) g.1 g.2 a agentStep defaultStride
      (A.heap.balls i)).1) i :=
    { ball := hA.ball, feat := hA.feat, weather := hA.weather, blend := hA.blend
      flyer := by
        show Spec.Flyer (Function.update A.heap.balls i _ i)
        rw [Function.update_self]
        exact flyer_step hA.blend.1 hA.blend.2 _ _ _ _ hA.flyer }
  have hF' : (A.mutate i (simulateStep E.sun (A.heap.atms A.atm) g.1 g.2 a agentStep defaultStride
      (A.heap.balls i)).1).feat = some F := hF
  obtain ⟨obs, ho, hs⟩ := C102_observation E two hR cal hcal hE hC _ i hmut F hF' (by
    show Spec.Envelope (Function.update A.heap.balls i _ i)
    rw [Function.update_self, ← hball]
    exact he')
  refine ⟨obs, ?_, hs⟩
  unfold Arena.step
  rw [hA.ball]
  simp only
  rw [hg']
  simp only
  rw [hsim]
  simp only [hF']
  exact ho

/-- C102, `BalloonEnv.step`, whole episodes. Start from a reset that has just succeeded (they always do, `C102_env_reset`)
and issue any actions. A further step raises only if the action is not one of 0, 1, 2, or the flight had already been
reported as over, or the balloon has left the envelope. -/
theorem C102_episode (c : EnvCfg K W Rd) (two : Bool) (hR : c.world.R = gpr two) (cal : Calendar)
    (hcal : Spec.Gregorian cal) (hE : c.world.sun = realSun cal) (hC : Spec.GoodWind c.world.C) (q : RewardParams)
    (hh : 0 < q.halflife) (hrew : c.rewardFn = reward c.world.sun q) (v : Env K W Rd) (i : ℕ)
    (hv : Spec.InEpisode c.world v.arena i) (as : List ℤ) (a : ℤ) (e : Err)
    (herr : ((Spec.after c as v).step c a).2 = .error e) :
    (a ≠ 0 ∧ a ≠ 1 ∧ a ≠ 2) ∨ ((Spec.after c as v).arena.heap.balls i).status ≠ .ok ∨
      ¬ Spec.Envelope ((Spec.after c as v).arena.heap.balls i) ∨
      ¬ Spec.Envelope ((Spec.after c (as ++ [a]) v).arena.heap.balls i) := by
  have hep : ∀ as : List ℤ, Spec.InEpisode c.world (Spec.after c as v).arena i := by
    intro as
    induction as using List.reverseRecOn with
    | nil => exact hv
    | append_singleton as a ih =>
      unfold Spec.after at ih ⊢
      rw [List.foldl_append]
      simp only [List.foldl_cons, List.foldl_nil]
      rcases envStep_arena c a (as.foldl (fun v a => (v.step c a).1) v) with h | ⟨cmd, h⟩
      · rw [h]; exact ih
      · rw [h]; exact inEpisode_step ih cmd
  have hA := hep as
  have happ : Spec.after c (as ++ [a]) v = ((Spec.after c as v).step c a).1 := by
    unfold Spec.after
    rw [List.foldl_append]; rfl
  rw [happ]
  generalize Spec.after c as v = u at *
  by_contra hcon
  push Not at hcon
  obtain ⟨h1, h2, h3, h4⟩ := hcon
  have hcmd : ∃ cmd, Command.ofInt a = .ok cmd := by
    by_cases x0 : a = 0
    · exact ⟨.down, by rw [x0]; rfl⟩
    by_cases x1 : a = 1
    · exact ⟨.stay, by rw [x1]; rfl⟩
    · exact ⟨.up, by rw [h1 x0 x1]; rfl⟩
  obtain ⟨cmd, hcmd⟩ := hcmd
  have harena : (u.step c a).1.arena = (u.arena.step c.world cmd).1 := by
    unfold Env.step
    rw [hcmd]
    simp only
    split
    · rfl
    · split
      · rfl
      · split <;> rfl
  rw [harena] at h4
  obtain ⟨obs, ho, -⟩ := C102_arena_step c.world two hR cal hcal hE hC u.arena i hA cmd h2 h3 h4
  have hb : (u.arena.step c.world cmd).1.ball = some i := (inEpisode_step hA cmd).ball
  obtain ⟨r, hr⟩ := C19_total c.world.sun (fun l t => by
      rw [hE]
      obtain ⟨e0, e1, -⟩ := C100_real_sun cal hcal.1 l t
      exact ⟨e0, e1⟩) q hh ((u.arena.step c.world cmd).1.heap.balls i) (by linarith [h4.pressure.1]) h4.pressure.2
      (inEpisode_step hA cmd).flyer.sound.cap
  unfold Env.step at herr
  rw [hcmd] at herr
  simp only [ho, hb, hrew, hr] at herr
  cases herr

/-- C102, `BalloonEnv.reset`: with or without a seed, from any state, it succeeds, and what follows is an episode. -/
theorem C102_env_reset (c : EnvCfg K W Rd) (hJ : Spec.SaneDraws c.world.J) (two : Bool) (hR : c.world.R = gpr two)
    (cal : Calendar) (hcal : Spec.Gregorian cal) (hE : c.world.sun = realSun cal) (hC : Spec.GoodWind c.world.C)
    (v : Env K W Rd) (seed : Option ℤ) :
    ∃ v' obs info i, v.reset c seed = (v', .ok (obs, info)) ∧ Spec.InEpisode c.world v'.arena i ∧
      Spec.Envelope (v'.arena.heap.balls i) ∧ (v'.arena.heap.balls i).status = .ok ∧ obs.length = 1099 ∧
      info.outOfPower = false ∧ info.envelopeBurst = false ∧ info.zeropressure = false ∧ info.timeElapsed = 0 := by
  have key : ∀ v0 : Env K W Rd, ∃ A' obs i, v0.arena.reset c.world (c.world.J.split v0.rng 2 1) = (A', .ok obs) ∧
      Spec.InEpisode c.world A' i ∧ Spec.Envelope (A'.heap.balls i) ∧ (∃ α, Spec.ValidStart α (A'.heap.balls i)) ∧
      obs.length = 1099 := by
    intro v0
    obtain ⟨A', obs, i, h1, h2, h3, h4, h5, -⟩ := C102_reset c.world hJ two hR cal hcal hE hC (c.world.J.split v0.rng 2 1) v0.arena
    exact ⟨A', obs, i, h1, h2, h3, h4, h5⟩
  have fin : ∀ A' i, (∃ α, Spec.ValidStart α ((A' : Arena K W).heap.balls i)) → (A'.heap.balls i).status = .ok ∧
      (getInfo (A'.heap.balls i)).outOfPower = false ∧ (getInfo (A'.heap.balls i)).envelopeBurst = false ∧
      (getInfo (A'.heap.balls i)).zeropressure = false ∧ (getInfo (A'.heap.balls i)).timeElapsed = 0 := by
    rintro A' i ⟨α, h⟩
    unfold getInfo
    simp only [h.flying.1, h.flying.2.1]
    decide
  unfold Env.reset
  cases seed with
  | none =>
    obtain ⟨A', obs, i, h1, h2, h3, h4, h5⟩ := key v
    simp only [h1, h2.ball]
    exact ⟨_, obs, _, i, rfl, h2, h3, (fin A' i h4).1, h5, (fin A' i h4).2⟩
  | some s =>
    obtain ⟨A', obs, i, h1, h2, h3, h4, h5⟩ := key (v.seed c s)
    simp only [h1, h2.ball]
    exact ⟨_, obs, _, i, rfl, h2, h3, (fin A' i h4).1, h5, (fin A' i h4).2⟩

/-- C102, `BalloonEnv.__init__` never raises, whatever the wind field object's past, the radius, the seed or the clock. -/
theorem C102_new (c : EnvCfg K W Rd) (hJ : Spec.SaneDraws c.world.J) (two : Bool) (hR : c.world.R = gpr two)
    (cal : Calendar) (hcal : Spec.Gregorian cal) (hE : c.world.sun = realSun cal) (hC : Spec.GoodWind c.world.C)
    (w : WindField W) (dead : BState) (km : ℝ) (seed : Option ℤ) (rd : Option Rd) (clock1 clock2 : ℤ) :
    ∃ v i, Env.new c w dead km seed rd clock1 clock2 = .ok v ∧ Spec.InEpisode c.world v.arena i ∧
      Spec.Envelope (v.arena.heap.balls i) ∧ (v.arena.heap.balls i).status = .ok := by
  unfold Env.new Arena.new
  simp only
  obtain ⟨A', obs, i, h1, -⟩ := C102_reset c.world hJ two hR cal hcal hE hC (c.world.J.prngKey clock1)
    { heap := { balls := fun _ => dead, nextBall := 0, winds := fun _ => w
                atms := fun _ => c.world.J.uniform (c.world.J.prngKey 0) }
      rng := c.world.J.prngKey 0, wind := 0, atm := 0, ball := none, feat := none }
  rw [h1]
  simp only
  obtain ⟨v', obs', info, j, e, g1, g2, g3, -⟩ := C102_env_reset c hJ two hR cal hcal hE hC
    { arena := A', rng := c.world.J.prngKey 0, radius := km * 1000, iteration := 0, renderer := rd }
    (some (seed.getD clock2))
  rw [e]
  exact ⟨v', j, rfl, g1, g2, g3⟩

/-! ### Concrete instances -/

/-- A world with the real sun, the static wind and dull random numbers. -/
noncomputable def sunnyWorld : World (List ℕ) Unit := { demoWorld with sun := realSun gregorian }

theorem sunnyWorld_draws : Spec.SaneDraws sunnyWorld.J := by
  intro k
  refine ⟨⟨le_rfl, ?_⟩, ⟨le_rfl, ?_⟩, ⟨?_, ?_⟩, fun n hn => hn⟩ <;> norm_num [sunnyWorld, demoWorld]

/-- The default reward, no renderer. -/
noncomputable def sunnyCfg : EnvCfg (List ℕ) Unit Unit :=
  { world := sunnyWorld, rewardFn := reward sunnyWorld.sun RewardParams.default
    render := { reset := id, step := fun r _ _ _ => r, render := id } }

/-- In it an environment can be made with any seed, and a first step fails only if the balloon leaves the envelope. -/
example (seed a : ℤ) (ha : a = 0 ∨ a = 1 ∨ a = 2) :
    ∃ v i, Env.new sunnyCfg ⟨(), NoiseModel.new⟩ demo 50 (some seed) none 0 0 = .ok v ∧
      ((∃ out, (v.step sunnyCfg a).2 = .ok out) ∨ ¬ Spec.Envelope ((v.step sunnyCfg a).1.arena.heap.balls i)) := by
  obtain ⟨v, i, h1, h2, h3, h4⟩ := C102_new sunnyCfg
    sunnyWorld_draws true rfl gregorian gregorian_ok rfl good_static ⟨(), NoiseModel.new⟩ demo 50 (some seed) none 0 0
  refine ⟨v, i, h1, ?_⟩
  rcases hs : (v.step sunnyCfg a).2 with e | out
  · rcases C102_episode sunnyCfg true rfl gregorian gregorian_ok rfl good_static RewardParams.default
      (by norm_num [RewardParams.default]) rfl v i h2 [] a e hs with h | h | h | h
    · omega
    · exact absurd h4 h
    · exact absurd h3 h
    · exact .inr h
  · exact .inl ⟨out, rfl⟩

end BLE
