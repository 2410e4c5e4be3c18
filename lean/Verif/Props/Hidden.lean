import Verif.Props.Turned

/-!
# C155: what of a balloon shows in an observation
-/

namespace BLE

/-- Two balloons that differ at most in what is hidden: gas and air temperature, the air in the ballonet, the volume, the power and flow of the
compressor, charging and load, the status, the safety layers (except whether one of them has paused navigation), a negative
superpressure, the night load, the valve, the drag coefficient, and the station's place if the balloon's is the same. -/
structure Spec.SameToSee (s s' : BState) : Prop where
  x : s'.x = s.x
  y : s'.y = s.y
  place : s'.latlng = s.latlng
  date : s'.dateTime = s.dateTime
  elapsed : s'.timeElapsed = s.timeElapsed
  pressure : s'.pressure = s.pressure
  sp : max s'.sp 0 = max s.sp 0
  charge : s'.charge = s.charge
  cap : s'.cap = s.cap
  dayLoad : s'.dayLoad = s.dayLoad
  command : s'.lastCommand = s.lastCommand
  paused : (s'.power.paused || s'.env.paused || s'.alt.paused) = (s.power.paused || s.env.paused || s.alt.paused)
  volBase : s'.volBase = s.volBase
  dvdp : s'.dvdp = s.dvdp
  envMass : s'.envMass = s.envMass
  payload : s'.payload = s.payload
  molsLift : s'.molsLift = s.molsLift
  maxSp : s'.maxSp = s.maxSp
  upwelling : s'.upwelling = s.upwelling

/-- Two earlier observations that leave the same trace: the wind measured, where and when. -/
def Spec.SameTrace (o o' : BState × (ℝ × ℝ)) : Prop :=
  o'.1.x = o.1.x ∧ o'.1.y = o.1.y ∧ o'.1.pressure = o.1.pressure ∧ o'.1.timeElapsed = o.1.timeElapsed ∧ o'.2 = o.2

theorem features_same (R : Regressor) (sun : Sun) (F F' : FeatState) (ha : F'.α = F.α) (s s' : BState)
    (hg : F'.gp.queryBatch R (columnQuery s) = F.gp.queryBatch R (columnQuery s))
    (hs : F.last = some s) (hs' : F'.last = some s') (h : Spec.SameToSee s s') : F'.features R sun = F.features R sun := by
  have e1 : s'.soc = s.soc := by unfold BState.soc; rw [h.charge, h.cap]
  have e2 : s'.navPaused = s.navPaused := h.paused
  have e3 : s'.pressureRatio = s.pressureRatio := by unfold BState.pressureRatio; rw [h.pressure, h.sp]
  have e4 : s'.excessEnergy sun = s.excessEnergy sun := by
    unfold BState.excessEnergy; rw [h.place, h.date, h.pressure, h.dayLoad, e1]
  have e5 : computeSunriseTime sun s' = computeSunriseTime sun s := by
    unfold computeSunriseTime; rw [h.place, h.date]
  have e6 : columnQuery s' = columnQuery s := by rw [columnQuery_eq, columnQuery_eq, h.x, h.y, h.elapsed]
  have e7 : pressureRange sun F'.α s' = pressureRange sun F.α s := by
    have h1 : floatSp sun F'.α s' = floatSp sun F.α s := by
      funext p
      unfold floatSp
      rw [h.volBase, h.dvdp, h.envMass, h.payload, h.molsLift, h.place, h.date, h.upwelling, ha]
    have h2 : emptyPoverT s' = emptyPoverT s := by
      unfold emptyPoverT; rw [h.payload, h.envMass, h.molsLift, h.volBase]
    unfold pressureRange
    rw [h1, h2, h.maxSp, ha]
  have a : addAmbient sun s' = addAmbient sun s := by
    funext b
    unfold addAmbient
    rw [h.pressure, e1, h.place, h.date, e5, h.x, h.y, h.command, e2, e4, e3]
  have w : addWind R sun F' s' = addWind R sun F s := by
    funext b
    unfold addWind
    rw [e6, hg, h.pressure, e7, h.x, h.y]
  unfold FeatState.features FeatState.fill
  rw [hs, hs']
  simp only [a, w]

theorem observe_same (F F' : FeatState) (hg : F'.gp = F.gp) (ha : F'.α = F.α) (o o' : BState × (ℝ × ℝ)) (h : Spec.SameTrace o o') :
    (F'.observe o'.1 o'.2).1.gp = (F.observe o.1 o.2).1.gp ∧ (F'.observe o'.1 o'.2).1.α = (F.observe o.1 o.2).1.α := by
  obtain ⟨h1, h2, h3, h4, h5⟩ := h
  unfold FeatState.observe
  rw [hg, h1, h2, h3, h4, h5]
  cases F.gp.observe o.1.x o.1.y o.1.pressure o.1.timeElapsed o.2 with
  | error e => exact ⟨rfl, ha⟩
  | ok g => exact ⟨rfl, ha⟩

theorem afterAll_same (obs obs' : List (BState × (ℝ × ℝ))) (h : List.Forall₂ Spec.SameTrace obs obs') (F F' : FeatState)
    (hg : F'.gp = F.gp) (ha : F'.α = F.α) :
    (Spec.afterAll F' obs').gp = (Spec.afterAll F obs).gp ∧ (Spec.afterAll F' obs').α = (Spec.afterAll F obs).α := by
  induction h generalizing F F' with
  | nil => exact ⟨hg, ha⟩
  | @cons o o' obs obs' h1 h2 ih =>
    obtain ⟨g1, g2⟩ := observe_same F F' hg ha o o' h1
    exact ih _ _ g1 g2

/-- C155. Observations reveal nothing of the balloon but what is listed in `Spec.SameToSee`, and of its past nothing but the winds measured,
where and when: two histories that agree in that are observed alike. For every regressor, sun, forecast and air. -/
theorem C155_hidden (f : Forecaster) (α : ℝ) (R : Regressor) (sun : Sun) (past past' : List (BState × (ℝ × ℝ)))
    (hp : List.Forall₂ Spec.SameTrace past past') (s s' : BState) (h : Spec.SameToSee s s') (w : ℝ × ℝ) :
    (Spec.afterAll (FeatState.new f α) (past' ++ [(s', w)])).features R sun =
      (Spec.afterAll (FeatState.new f α) (past ++ [(s, w)])).features R sun := by
  obtain ⟨g1, g2⟩ := afterAll_same (past ++ [(s, w)]) (past' ++ [(s', w)])
    (List.rel_append hp (.cons ⟨h.x, h.y, h.pressure, h.elapsed, rfl⟩ .nil)) (FeatState.new f α) (FeatState.new f α) rfl rfl
  exact features_same R sun _ _ g2 s s' (by rw [g1]) (turn_last _ past s w) (turn_last _ past' s' w) h

/-- A bursting, overheated balloon that has just measured a wind looks like a sound one, after any past. -/
example (f : Forecaster) (α : ℝ) (R : Regressor) (sun : Sun) (past : List (BState × (ℝ × ℝ))) (w : ℝ × ℝ) :
    (Spec.afterAll (FeatState.new f α) (past ++ [({ demo with intT := 400, ambT := 100, status := .burst }, w)])).features R sun =
      (Spec.afterAll (FeatState.new f α) (past ++ [(demo, w)])).features R sun :=
  C155_hidden f α R sun past past (List.forall₂_same.2 fun _ _ => ⟨rfl, rfl, rfl, rfl, rfl⟩) demo
    { demo with intT := 400, ambT := 100, status := .burst }
    ⟨rfl, rfl, rfl, rfl, rfl, rfl, rfl, rfl, rfl, rfl, rfl, rfl, rfl, rfl, rfl, rfl, rfl, rfl, rfl⟩ w

/-! ## What is forgotten -/

theorem afterAll_gp (F : FeatState) (obs : List (BState × (ℝ × ℝ))) :
    (Spec.afterAll F obs).gp =
      (obs.map fun o => GpOp.observe o.1.x o.1.y o.1.pressure o.1.timeElapsed o.2).foldl GpOp.step F.gp ∧
    (Spec.afterAll F obs).α = F.α := by
  induction obs generalizing F with
  | nil => exact ⟨rfl, rfl⟩
  | cons o obs ih =>
    obtain ⟨h1, h2⟩ := ih (F.observe o.1 o.2).1
    have e : (F.observe o.1 o.2).1.gp = GpOp.step F.gp (.observe o.1.x o.1.y o.1.pressure o.1.timeElapsed o.2) ∧
        (F.observe o.1 o.2).1.α = F.α := by
      unfold FeatState.observe GpOp.step
      simp only
      cases F.gp.observe o.1.x o.1.y o.1.pressure o.1.timeElapsed o.2 <;> exact ⟨rfl, rfl⟩
    constructor
    · show (Spec.afterAll (F.observe o.1 o.2).1 obs).gp = _
      rw [h1, e.1]; rfl
    · show (Spec.afterAll (F.observe o.1 o.2).1 obs).α = _
      rw [h2, e.2]

/-- The observations less than six hours before (or after) a time. -/
noncomputable def Spec.lately (t : ℤ) (past : List (BState × (ℝ × ℝ))) : List (BState × (ℝ × ℝ)) :=
  past.filter fun o => |o.1.timeElapsed - t| < 6 * 3600 * 1000000

theorem recent_lately (f : Forecaster) (t : ℤ) (past : List (BState × (ℝ × ℝ))) :
    Spec.recent ((past.map fun o => GpOp.observe o.1.x o.1.y o.1.pressure o.1.timeElapsed o.2).flatMap (Spec.contribution f)) t =
      ((Spec.lately t past).map fun o => GpOp.observe o.1.x o.1.y o.1.pressure o.1.timeElapsed o.2).flatMap
        (Spec.contribution f) := by
  induction past with
  | nil => rfl
  | cons o past ih =>
    have happ : ∀ a b, Spec.recent (a ++ b) t = Spec.recent a t ++ Spec.recent b t := by
      intro a b; unfold Spec.recent; rw [List.filter_append]
    have hiff : |totalSeconds o.1.timeElapsed - totalSeconds t| < 6 * 3600 ↔ |o.1.timeElapsed - t| < 6 * 3600 * 1000000 := by
      have e : totalSeconds o.1.timeElapsed - totalSeconds t = ((o.1.timeElapsed - t : ℤ) : ℝ) / 1000000 := by
        unfold totalSeconds; push_cast; ring
      rw [e, abs_div, abs_of_pos (by norm_num : (0 : ℝ) < 1000000), div_lt_iff₀ (by norm_num), ← Int.cast_abs]
      constructor
      · intro h; exact_mod_cast h
      · intro h; exact_mod_cast h
    rw [List.map_cons, List.flatMap_cons, happ, ih]
    have hone : Spec.recent (Spec.contribution f (.observe o.1.x o.1.y o.1.pressure o.1.timeElapsed o.2)) t =
        if |o.1.timeElapsed - t| < 6 * 3600 * 1000000 then
          Spec.contribution f (.observe o.1.x o.1.y o.1.pressure o.1.timeElapsed o.2) else [] := by
      unfold Spec.contribution
      simp only
      cases f.single o.1.x o.1.y o.1.pressure o.1.timeElapsed with
      | error e => simp [Spec.recent]
      | ok w =>
        unfold Spec.recent
        by_cases h : |o.1.timeElapsed - t| < 6 * 3600 * 1000000
        · rw [if_pos h, List.filter_cons_of_pos (by simpa using hiff.2 h), List.filter_nil]
        · rw [if_neg h, List.filter_cons_of_neg (by simpa using fun hc => h (hiff.1 hc)), List.filter_nil]
    rw [hone]
    unfold Spec.lately
    by_cases h : |o.1.timeElapsed - t| < 6 * 3600 * 1000000
    · rw [if_pos h, List.filter_cons_of_pos (by simpa using h), List.map_cons, List.flatMap_cons]
    · rw [if_neg h, List.filter_cons_of_neg (by simpa using h), List.nil_append]

/-- C155. Of the past only the last six hours show: two histories of any lengths that agree there (in the winds measured, where and when) are
observed alike, provided the forecast answers at the balloon (otherwise the measurement there is lost). -/
theorem C155_forgotten (f : Forecaster) (α : ℝ) (R : Regressor) (sun : Sun) (past past' : List (BState × (ℝ × ℝ))) (s s' : BState)
    (hp : List.Forall₂ Spec.SameTrace (Spec.lately s.timeElapsed past) (Spec.lately s.timeElapsed past'))
    (h : Spec.SameToSee s s') (w m : ℝ × ℝ) (hf : f.single s.x s.y s.pressure s.timeElapsed = .ok m) :
    (Spec.afterAll (FeatState.new f α) (past' ++ [(s', w)])).features R sun =
      (Spec.afterAll (FeatState.new f α) (past ++ [(s, w)])).features R sun := by
  have hno : ∀ obs : List (BState × (ℝ × ℝ)), ∀ o ∈ obs.map (fun o => GpOp.observe o.1.x o.1.y o.1.pressure o.1.timeElapsed o.2),
      ∀ f', o ≠ .reset f' := by
    intro obs o ho f' e
    obtain ⟨a, -, rfl⟩ := List.mem_map.1 ho
    cases e
  have hgp : ∀ obs, (Spec.afterAll (FeatState.new f α) obs).gp.data =
      (obs.map fun o => GpOp.observe o.1.x o.1.y o.1.pressure o.1.timeElapsed o.2).flatMap (Spec.contribution f) ∧
      (Spec.afterAll (FeatState.new f α) obs).gp.forecast = f := by
    intro obs
    rw [(afterAll_gp _ obs).1]
    exact C38_history_new f _ (hno obs)
  have hone : ∀ (q : BState), q.x = s.x → q.y = s.y → q.pressure = s.pressure → q.timeElapsed = s.timeElapsed →
      ([(q, w)].map fun o => GpOp.observe o.1.x o.1.y o.1.pressure o.1.timeElapsed o.2).flatMap (Spec.contribution f) =
        [(⟨s.x, s.y, s.pressure, totalSeconds s.timeElapsed⟩, (w.1 - m.1, w.2 - m.2))] := by
    intro q h1 h2 h3 h4
    simp only [List.map_cons, List.map_nil, List.flatMap_cons, List.flatMap_nil, List.append_nil, h1, h2, h3, h4, Spec.contribution, hf]
  have o1 := hone s rfl rfl rfl rfl
  have o2 := hone s' h.x h.y h.pressure h.elapsed
  have hlate : ((Spec.lately s.timeElapsed past').map fun o => GpOp.observe o.1.x o.1.y o.1.pressure o.1.timeElapsed o.2) =
      (Spec.lately s.timeElapsed past).map fun o => GpOp.observe o.1.x o.1.y o.1.pressure o.1.timeElapsed o.2 := by
    generalize Spec.lately s.timeElapsed past = l at hp
    generalize Spec.lately s.timeElapsed past' = l' at hp
    induction hp with
    | nil => rfl
    | cons h1 _ ih =>
      obtain ⟨k1, k2, k3, k4, k5⟩ := h1
      rw [List.map_cons, List.map_cons, ih, k1, k2, k3, k4, k5]
  have happ : ∀ a b, Spec.recent (a ++ b) s.timeElapsed = Spec.recent a s.timeElapsed ++ Spec.recent b s.timeElapsed := by
    intro a b; unfold Spec.recent; rw [List.filter_append]
  obtain ⟨d1, e1⟩ := hgp (past ++ [(s, w)])
  obtain ⟨d2, e2⟩ := hgp (past' ++ [(s', w)])
  rw [List.map_append, List.flatMap_append, o1] at d1
  rw [List.map_append, List.flatMap_append, o2] at d2
  refine features_same R sun _ _ (by rw [(afterAll_gp _ _).2, (afterAll_gp _ _).2]) s s' ?_ (turn_last _ past s w)
    (turn_last _ past' s' w) h
  rw [columnQuery_eq, List.range_succ_eq_map, List.map_cons, queryBatch_data _ _ (by rw [d2]; simp),
    queryBatch_data _ _ (by rw [d1]; simp), e1, e2, d1, d2, happ, happ, recent_lately, recent_lately, hlate]

/-- Whatever is inside the balloon, and whatever was measured seven hours ago: the observation over the static wind is the same. -/
example (R : Regressor) (sun : Sun) (α T n V : ℝ) (w w' : ℝ × ℝ) :
    (Spec.afterAll (FeatState.new (Forecaster.of (staticWind ℕ) ()) α)
      [({ demo with timeElapsed := demo.timeElapsed - 7 * 3600 * 1000000 }, w'),
        ({ demo with intT := T, molsAir := n, vol := V, status := .burst }, w)]).features R sun =
      (Spec.afterAll (FeatState.new (Forecaster.of (staticWind ℕ) ()) α) [(demo, w)]).features R sun := by
  obtain ⟨m, hm⟩ := ((good_static (K := ℕ)) 0 0 ()).single demo.x demo.y demo.pressure 0 le_rfl
  refine C155_forgotten (Forecaster.of (staticWind ℕ) ()) α R sun [] [({ demo with timeElapsed := demo.timeElapsed - 7 * 3600 * 1000000 }, w')]
    demo { demo with intT := T, molsAir := n, vol := V, status := .burst } ?_
    ⟨rfl, rfl, rfl, rfl, rfl, rfl, rfl, rfl, rfl, rfl, rfl, rfl, rfl, rfl, rfl, rfl, rfl, rfl, rfl⟩ w m hm
  unfold Spec.lately
  rw [List.filter_cons_of_neg (by simp)]
  exact .nil

end BLE
