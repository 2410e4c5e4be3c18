import Verif.Props.Decoupled
import Verif.Props.Hidden

/-!
# C159: the simulator has no calendar but the sun
-/

namespace BLE

/-- The power layer with its clock put forward by `δ`. -/
def Spec.postponedLayer (δ : ℤ) (L : PowerLayer) : PowerLayer := { L with sunriseH := L.sunriseH + δ, sunset := L.sunset + δ }

/-- The balloon, everything it does put off by `δ`, and having been counted as flying for `ε` longer. -/
def Spec.postponed (δ ε : ℤ) (s : BState) : BState :=
  { s with dateTime := s.dateTime + δ, timeElapsed := s.timeElapsed + ε, power := Spec.postponedLayer δ s.power }

/-- The sun going through the same motions `δ` later. -/
def Spec.postponedSun (δ : ℤ) (sun : Sun) : Sun := fun l t => sun l (t - δ)

theorem catchUp_postponed (δ now t : ℤ) : catchUp (now + δ) (t + δ) = catchUp now t + δ := by
  fun_induction catchUp now t with
  | case1 t h ih =>
    rw [catchUp, if_pos (by omega)]
    rw [← ih]
    congr 1
    ring
  | case2 t h =>
    rw [catchUp, if_neg (by omega)]

theorem power_postponed (δ : ℤ) (L : PowerLayer) (a : Command) (now : ℤ) (night charge cap : ℝ) :
    (Spec.postponedLayer δ L).getAction a (now + δ) night charge cap =
      (Spec.postponedLayer δ (L.getAction a now night charge cap).1, (L.getAction a now night charge cap).2) := by
  unfold PowerLayer.getAction
  simp only [Spec.postponedLayer, catchUp_postponed]
  have e : catchUp now L.sunriseH + δ - (now + δ) = catchUp now L.sunriseH - now := by ring
  simp only [e, add_lt_add_iff_right]
  split_ifs with h1 h2
  · cases pyDiv charge cap with
    | error e => rfl
    | ok soc =>
      simp only
      split_ifs <;> rfl
  · rfl
  · cases pyDiv (charge - night * hoursOf (catchUp now L.sunriseH - now)) cap with
    | error e => rfl
    | ok soc =>
      simp only
      split_ifs <;> rfl

theorem substep_postponed (sun : Sun) (α u v : ℝ) (a : Command) (stride δ ε : ℤ) (s : BState) :
    substep (Spec.postponedSun δ sun) α u v a stride (Spec.postponed δ ε s) =
      (substep sun α u v a stride s).map (Spec.postponed δ ε) := by
  unfold substep
  have e0 : Spec.postponedSun δ sun (Spec.postponed δ ε s).latlng (Spec.postponed δ ε s).dateTime = sun s.latlng s.dateTime := by
    show sun s.latlng (s.dateTime + δ - δ) = _
    rw [add_sub_cancel_right]
  have e1 : newPressure α (Spec.postponed δ ε s) stride = newPressure α s stride := rfl
  have e2 : acsEffect (Spec.postponed δ ε s) a = acsEffect s a := by cases a <;> rfl
  rw [e0, e1, e2]
  simp only [bind, Except.bind]
  cases newPressure α s stride with
  | error e => rfl
  | ok p' =>
  simp only
  have e3 : (Spec.postponed δ ε s).pressure = s.pressure := rfl
  rw [e3]
  cases atPressure α s.pressure with
  | error e => rfl
  | ok amb =>
  simp only
  have e5 : dTempDt (Spec.postponed δ ε s).vol (Spec.postponed δ ε s).envMass (Spec.postponed δ ε s).intT
      (Spec.postponed δ ε s).ambT s.pressure (sun s.latlng s.dateTime).el (sun s.latlng s.dateTime).flux
      (Spec.postponed δ ε s).upwelling =
      dTempDt s.vol s.envMass s.intT s.ambT s.pressure (sun s.latlng s.dateTime).el (sun s.latlng s.dateTime).flux s.upwelling := rfl
  rw [e5]
  cases dTempDt s.vol s.envMass s.intT s.ambT s.pressure (sun s.latlng s.dateTime).el (sun s.latlng s.dateTime).flux s.upwelling with
  | error e => rfl
  | ok dT =>
  simp only
  have c1 : (Spec.postponed δ ε s).dateTime + stride = s.dateTime + stride + δ := by
    show s.dateTime + δ + stride = _; ring
  have c2 : (Spec.postponed δ ε s).timeElapsed + stride = s.timeElapsed + stride + ε := by
    show s.timeElapsed + ε + stride = _; ring
  rw [c1, c2]
  split_ifs
  · cases solarPower (sun s.latlng s.dateTime).el s.pressure <;> rfl
  · rfl

theorem substepLoop_postponed (sun : Sun) (α u v : ℝ) (a : Command) (stride δ ε : ℤ) (n : ℕ) (s : BState) :
    substepLoop (substep (Spec.postponedSun δ sun) α u v a stride) n (Spec.postponed δ ε s) =
      (Spec.postponed δ ε (substepLoop (substep sun α u v a stride) n s).1, (substepLoop (substep sun α u v a stride) n s).2) := by
  induction n generalizing s with
  | zero => rfl
  | succ n ih =>
    unfold substepLoop
    rw [substep_postponed]
    cases h : substep sun α u v a stride s with
    | error er => rfl
    | ok t =>
      simp only [Except.map]
      have hst : (Spec.postponed δ ε t).status = t.status := rfl
      rw [hst]
      by_cases h1 : t.status ≠ .ok
      · simp only [if_pos h1]
      · simp only [if_neg h1]; exact ih t

theorem safetyChain_postponed (α : ℝ) (s : BState) (a : Command) (δ ε : ℤ) :
    safetyChain α (Spec.postponed δ ε s) a = (Spec.postponed δ ε (safetyChain α s a).1, (safetyChain α s a).2) := by
  unfold safetyChain
  have e : (Spec.postponed δ ε s).powerEnabled = s.powerEnabled := rfl
  by_cases hpe : s.powerEnabled = true
  · simp only [e, hpe, if_true]
    simp only [Spec.postponed, power_postponed]
    generalize s.power.getAction a s.dateTime s.nightLoad s.charge s.cap = pr
    rcases pr with ⟨pw, er | a1⟩
    · rfl
    · simp only
      cases atPressure α s.pressure <;> rfl
  · have hpe : s.powerEnabled = false := by simpa using hpe
    simp only [e, hpe, Bool.false_eq_true, if_false]
    simp only [Spec.postponed]
    cases atPressure α s.pressure <;> rfl

theorem simulateStep_postponed (sun : Sun) (α u v : ℝ) (a : Command) (td stride δ ε : ℤ) (s : BState) :
    simulateStep (Spec.postponedSun δ sun) α u v a td stride (Spec.postponed δ ε s) =
      (Spec.postponed δ ε (simulateStep sun α u v a td stride s).1, (simulateStep sun α u v a td stride s).2) := by
  unfold simulateStep
  have e1 : ({ Spec.postponed δ ε s with lastCommand := a } : BState) = Spec.postponed δ ε { s with lastCommand := a } := rfl
  simp only [e1, safetyChain_postponed]
  have e2 : (Spec.postponed δ ε s).status = s.status := rfl
  rw [e2]
  by_cases h : s.status ≠ .ok
  · simp only [if_pos h]
  · simp only [if_neg h]
    generalize safetyChain α { s with lastCommand := a } a = sc
    rcases sc with ⟨s1, e | eff⟩
    · rfl
    · simp only
      split_ifs
      · rfl
      · rfl
      · exact substepLoop_postponed sun α u v eff stride δ ε _ s1

/-- C159. A flight put off by any time, with the sun going through the same motions that much later, is the same flight put off by that
time: the states correspond at all times whatever the elapsed time is counted from, every call has the same outcome, and rewards and excess
energy are equal. -/
theorem C159_postponed (sun : Sun) (α : ℝ) (δ ε : ℤ) (s : BState) (calls : List StepCall) :
    simulateMany (Spec.postponedSun δ sun) α (Spec.postponed δ ε s) calls = Spec.postponed δ ε (simulateMany sun α s calls) ∧
    (∀ u v a td stride, (simulateStep (Spec.postponedSun δ sun) α u v a td stride
        (simulateMany (Spec.postponedSun δ sun) α (Spec.postponed δ ε s) calls)).2 =
      (simulateStep sun α u v a td stride (simulateMany sun α s calls)).2) ∧
    ∀ q, reward (Spec.postponedSun δ sun) q (simulateMany (Spec.postponedSun δ sun) α (Spec.postponed δ ε s) calls) =
      reward sun q (simulateMany sun α s calls) := by
  have main : simulateMany (Spec.postponedSun δ sun) α (Spec.postponed δ ε s) calls = Spec.postponed δ ε (simulateMany sun α s calls) := by
    induction calls generalizing s with
    | nil => rfl
    | cons c calls ih =>
      show simulateMany _ α (simulateStep (Spec.postponedSun δ sun) α c.u c.v c.action c.timeDelta c.stride (Spec.postponed δ ε s)).1
        calls = _
      rw [simulateStep_postponed]
      exact ih _
  refine ⟨main, fun u v a td stride => by rw [main, simulateStep_postponed], fun q => ?_⟩
  rw [main]
  generalize simulateMany sun α s calls = t
  have hex : (Spec.postponed δ ε t).excessEnergy (Spec.postponedSun δ sun) = t.excessEnergy sun := by
    unfold BState.excessEnergy
    have e0 : Spec.postponedSun δ sun (Spec.postponed δ ε t).latlng (Spec.postponed δ ε t).dateTime = sun t.latlng t.dateTime := by
      show sun t.latlng (t.dateTime + δ - δ) = _
      rw [add_sub_cancel_right]
    rw [e0]
    rfl
  unfold reward
  rw [hex]
  rfl

/-! ## The search for sunrise and sunset -/

theorem findSolar_postponed (el : ℤ → ℝ) (tr : ℝ → ℝ) (tmin tmax delta δ : ℤ) :
    findSolar (fun t => el (t - δ)) tr (tmin + δ) (tmax + δ) delta = (findSolar el tr tmin tmax delta).map (· + δ) := by
  unfold findSolar
  have e1 : tmax + δ - (tmin + δ) = tmax - tmin := by ring
  have e2 : ∀ i, tmin + δ + delta * i - δ = tmin + delta * i := by intro i; ring
  simp only [e1, e2, add_lt_add_iff_right]
  split_ifs
  · rfl
  · rfl
  · simp only [Except.map, Except.ok.injEq]; ring
  · rfl

theorem isAfternoon_postponed (el : ℤ → ℝ) (t δ : ℤ) : isAfternoon (fun t => el (t - δ)) (t + δ) = isAfternoon el t := by
  unfold isAfternoon
  have e1 : t + δ + usPerSec - δ = t + usPerSec := by ring
  have e2 : t + δ - δ = t := by ring
  simp only [e1, e2]

theorem nextNoon_postponed (el : ℤ → ℝ) (t delta δ : ℤ) :
    nextNoon (fun t => el (t - δ)) (t + δ) delta = (nextNoon el t delta).map (· + δ) := by
  unfold nextNoon
  have e1 : t + δ + halfDay = t + halfDay + δ := by ring
  have e2 : t + δ + 2 * halfDay = t + 2 * halfDay + δ := by ring
  rw [isAfternoon_postponed, e1, e2, findSolar_postponed, findSolar_postponed]
  split_ifs <;> rfl

theorem nextMidnight_postponed (el : ℤ → ℝ) (t delta δ : ℤ) :
    nextMidnight (fun t => el (t - δ)) (t + δ) delta = (nextMidnight el t delta).map (· + δ) := by
  unfold nextMidnight
  have e1 : t + δ + halfDay = t + halfDay + δ := by ring
  have e2 : t + δ + 2 * halfDay = t + 2 * halfDay + δ := by ring
  rw [isAfternoon_postponed, e1, e2, findSolar_postponed, findSolar_postponed]
  split_ifs <;> rfl

/-- C159. Sunrise and sunset of a postponed sun are found that much later or not at all for both, so that a power layer set up then is the
postponed one; the number of steps to sunrise and the position within the cycle of day and night, which agents see, are the same. -/
theorem C159_search (el : ℤ → ℝ) (latDeg : ℝ) (t delta δ : ℤ) :
    nextSunriseSunset (fun t => el (t - δ)) latDeg (t + δ) delta =
      (nextSunriseSunset el latDeg t delta).map (fun r => (r.1 + δ, r.2 + δ)) ∧
    (∀ r : ℤ × ℤ, PowerLayer.new (r.1 + δ) (r.2 + δ) = Spec.postponedLayer δ (PowerLayer.new r.1 r.2)) ∧
    stepsToSunrise (fun t => el (t - δ)) latDeg (t + δ) delta = stepsToSunrise el latDeg t delta ∧
    ∀ r : ℤ × ℤ, sunriseTime (t + δ) (r.1 + δ) (r.2 + δ) = sunriseTime t r.1 r.2 := by
  have main : nextSunriseSunset (fun t => el (t - δ)) latDeg (t + δ) delta =
      (nextSunriseSunset el latDeg t delta).map (fun r => (r.1 + δ, r.2 + δ)) := by
    unfold nextSunriseSunset
    rw [nextNoon_postponed, nextMidnight_postponed, isAfternoon_postponed]
    simp only [bind, Except.bind, pure, Except.pure, throw, throwThe, MonadExceptOf.throw]
    split_ifs with h1 h2
    · cases nextNoon el t delta with
      | error e => rfl
      | ok noon =>
      cases nextMidnight el t delta with
      | error e => rfl
      | ok midnight =>
      simp only [Except.map]
      have e1 : noon + δ - usPerDay = noon - usPerDay + δ := by ring
      have e2 : midnight + δ - usPerDay = midnight - usPerDay + δ := by ring
      simp only [findSunLevel, e1, e2, findSolar_postponed]
      cases findSolar el (fun x => |x - minSolarEl|) midnight noon delta with
      | error e => rfl
      | ok a =>
      cases findSolar el (fun x => |x - minSolarEl|) (noon - usPerDay) midnight delta with
      | error e => rfl
      | ok b =>
      simp only [Except.map, add_lt_add_iff_right, Except.ok.injEq, Prod.mk.injEq]
      constructor <;> split_ifs <;> ring
    · cases nextNoon el t delta with
      | error e => rfl
      | ok noon =>
      cases nextMidnight el t delta with
      | error e => rfl
      | ok midnight =>
      simp only [Except.map]
      have e1 : noon + δ - usPerDay = noon - usPerDay + δ := by ring
      have e2 : midnight + δ - usPerDay = midnight - usPerDay + δ := by ring
      simp only [findSunLevel, e1, e2, findSolar_postponed]
      cases findSolar el (fun x => |x - minSolarEl|) (midnight - usPerDay) noon delta with
      | error e => rfl
      | ok a =>
      cases findSolar el (fun x => |x - minSolarEl|) noon midnight delta with
      | error e => rfl
      | ok b =>
      simp only [Except.map, add_lt_add_iff_right, Except.ok.injEq, Prod.mk.injEq]
      constructor <;> split_ifs <;> ring
    · rfl
  refine ⟨main, fun r => ?_, ?_, fun r => ?_⟩
  · unfold PowerLayer.new Spec.postponedLayer
    simp only [PowerLayer.mk.injEq, true_and, and_true]
    ring
  · unfold stepsToSunrise
    rw [main]
    have e : t + δ - δ = t := by ring
    simp only [e]
    split_ifs
    · rfl
    · cases nextSunriseSunset el latDeg t delta with
      | error e => rfl
      | ok r =>
        simp only [Except.map]
        have e : r.1 + δ - (t + δ) = r.1 - t := by ring
        rw [e]
  · unfold sunriseTime
    have e1 : t + δ - (r.1 + δ - usPerDay) = t - (r.1 - usPerDay) := by ring
    have e2 : t + δ - (r.2 + δ - usPerDay) = t - (r.2 - usPerDay) := by ring
    have e3 : r.2 + δ - (r.1 + δ - usPerDay) = r.2 - (r.1 - usPerDay) := by ring
    have e4 : r.1 + δ - (r.2 + δ - usPerDay) = r.1 - (r.2 - usPerDay) := by ring
    have e5 : (r.1 + δ - usPerDay ≤ t + δ) ↔ r.1 - usPerDay ≤ t := by constructor <;> intro h <;> linarith
    have e6 : (r.2 + δ - usPerDay ≤ t + δ) ↔ r.2 - usPerDay ≤ t := by constructor <;> intro h <;> linarith
    simp only [e1, e2, e3, e4, e5, e6, add_le_add_iff_right, add_lt_add_iff_right]

theorem features_postponed (R : Regressor) (sun : Sun) (δ : ℤ) (F F' : FeatState) (ha : F'.α = F.α) (hg : F'.gp = F.gp) (s : BState)
    (hs : F.last = some s) (hs' : F'.last = some (Spec.postponed δ 0 s)) :
    F'.features R (Spec.postponedSun δ sun) = F.features R sun := by
  have e0 : Spec.postponedSun δ sun (Spec.postponed δ 0 s).latlng (Spec.postponed δ 0 s).dateTime = sun s.latlng s.dateTime := by
    show sun s.latlng (s.dateTime + δ - δ) = _
    rw [add_sub_cancel_right]
  have e4 : (Spec.postponed δ 0 s).excessEnergy (Spec.postponedSun δ sun) = s.excessEnergy sun := by
    unfold BState.excessEnergy; rw [e0]; rfl
  have e5 : computeSunriseTime (Spec.postponedSun δ sun) (Spec.postponed δ 0 s) = computeSunriseTime sun s := by
    obtain ⟨h1, -, -, h4⟩ := C159_search (fun t => (sun s.latlng t).el) (degrees s.latlng.lat) s.dateTime searchDelta δ
    unfold computeSunriseTime
    have hl : nextSunriseSunset (fun t => (Spec.postponedSun δ sun (Spec.postponed δ 0 s).latlng t).el)
        (degrees (Spec.postponed δ 0 s).latlng.lat) (Spec.postponed δ 0 s).dateTime searchDelta =
        (nextSunriseSunset (fun t => (sun s.latlng t).el) (degrees s.latlng.lat) s.dateTime searchDelta).map
          (fun r => (r.1 + δ, r.2 + δ)) := h1
    rw [hl]
    cases nextSunriseSunset (fun t => (sun s.latlng t).el) (degrees s.latlng.lat) s.dateTime searchDelta with
    | error e => rfl
    | ok r => exact h4 r
  have e6 : columnQuery (Spec.postponed δ 0 s) = columnQuery s := by
    have : (Spec.postponed δ 0 s).timeElapsed = s.timeElapsed := add_zero _
    rw [columnQuery_eq, columnQuery_eq, this]; rfl
  have e7 : pressureRange (Spec.postponedSun δ sun) F'.α (Spec.postponed δ 0 s) = pressureRange sun F.α s := by
    have h1 : floatSp (Spec.postponedSun δ sun) F'.α (Spec.postponed δ 0 s) = floatSp sun F.α s := by
      funext p
      unfold floatSp stableParams
      rw [e0, ha]
      rfl
    have h2 : emptyPoverT (Spec.postponed δ 0 s) = emptyPoverT s := rfl
    have h3 : (Spec.postponed δ 0 s).maxSp = s.maxSp := rfl
    unfold pressureRange
    rw [h1, h2, h3, ha]
  have e1 : (Spec.postponed δ 0 s).soc = s.soc := rfl
  have e2 : (Spec.postponed δ 0 s).navPaused = s.navPaused := rfl
  have e3 : (Spec.postponed δ 0 s).pressureRatio = s.pressureRatio := rfl
  have e8 : (Spec.postponed δ 0 s).pressure = s.pressure := rfl
  have e9 : (Spec.postponed δ 0 s).x = s.x := rfl
  have e10 : (Spec.postponed δ 0 s).y = s.y := rfl
  have e11 : (Spec.postponed δ 0 s).lastCommand = s.lastCommand := rfl
  have a : addAmbient (Spec.postponedSun δ sun) (Spec.postponed δ 0 s) = addAmbient sun s := by
    funext b
    unfold addAmbient
    rw [e0, e1, e2, e3, e4, e5, e8, e9, e10, e11]
  have w : addWind R (Spec.postponedSun δ sun) F' (Spec.postponed δ 0 s) = addWind R sun F s := by
    funext b
    unfold addWind
    rw [e6, hg, e8, e7, e9, e10]
  unfold FeatState.features FeatState.fill
  rw [hs, hs']
  simp only [a, w]

/-- C159. And what an agent observes of a postponed flight is what it observes of the flight, whatever winds have been measured. -/
theorem C159_observation (f : Forecaster) (α : ℝ) (R : Regressor) (sun : Sun) (δ : ℤ) (past : List (BState × (ℝ × ℝ))) (s : BState)
    (w : ℝ × ℝ) :
    (Spec.afterAll (FeatState.new f α) ((past ++ [(s, w)]).map fun o => (Spec.postponed δ 0 o.1, o.2))).features R
        (Spec.postponedSun δ sun) =
      (Spec.afterAll (FeatState.new f α) (past ++ [(s, w)])).features R sun := by
  have hp : List.Forall₂ Spec.SameTrace (past ++ [(s, w)]) ((past ++ [(s, w)]).map fun o => (Spec.postponed δ 0 o.1, o.2)) := by
    generalize past ++ [(s, w)] = obs
    induction obs with
    | nil => exact .nil
    | cons o obs ih => exact .cons ⟨rfl, rfl, rfl, add_zero _, rfl⟩ ih
  obtain ⟨g1, g2⟩ := afterAll_same _ _ hp (FeatState.new f α) (FeatState.new f α) rfl rfl
  refine features_postponed R sun δ _ _ g2 g1 s (turn_last _ past s w) ?_
  rw [List.map_append]
  exact turn_last _ _ _ w

/-- A year later, under the sun of this year, the demonstration balloon has the same pressure and charge after two steps. -/
example (α : ℝ) (a b : Command) :
    let calls : List StepCall := [⟨3, 4, a, 180 * usPerSec, 10 * usPerSec⟩, ⟨-1, 2, b, 180 * usPerSec, 10 * usPerSec⟩]
    let t := simulateMany nightSun α demo calls
    let t' := simulateMany nightSun α (Spec.postponed (365 * usPerDay) 0 demo) calls
    t'.pressure = t.pressure ∧ t'.charge = t.charge ∧ t'.dateTime = t.dateTime + 365 * usPerDay := by
  simp only
  have h := (C159_postponed nightSun α (365 * usPerDay) 0 demo
    [⟨3, 4, a, 180 * usPerSec, 10 * usPerSec⟩, ⟨-1, 2, b, 180 * usPerSec, 10 * usPerSec⟩]).1
  have e : Spec.postponedSun (365 * usPerDay) nightSun = nightSun := rfl
  rw [e] at h
  rw [h]
  exact ⟨rfl, rfl, rfl⟩

/-- And a year later it observes what it observes today, though its date is another. -/
example (f : Forecaster) (α : ℝ) (R : Regressor) (w : ℝ × ℝ) :
    (Spec.afterAll (FeatState.new f α) [(Spec.postponed (365 * usPerDay) 0 demo, w)]).features R nightSun =
      (Spec.afterAll (FeatState.new f α) [(demo, w)]).features R nightSun ∧
    (Spec.postponed (365 * usPerDay) 0 demo).dateTime ≠ demo.dateTime :=
  ⟨C159_observation f α R nightSun (365 * usPerDay) [] demo w, by
    show demo.dateTime + 365 * usPerDay ≠ demo.dateTime
    have : (0 : ℤ) < 365 * usPerDay := by norm_num [usPerDay, usPerSec]
    exact (Int.lt_add_of_pos_right _ this).ne'⟩

end BLE
