import Verif.Model.Env
import Verif.Lemmas.Newton
import Verif.Lemmas.Atmosphere4
import Verif.Props.StableInit
import Verif.Props.Geometry
import Verif.Props.SolarSearch
import Verif.Props.Ephemeris

/-!
# C94, C95: starting an episode
-/

namespace BLE

/-- What is assumed of the sun: elevations are elevations and the flux is at most 1500 W/m². -/
def Spec.SaneSun (sun : Sun) : Prop :=
  ∀ l t, -90 ≤ (sun l t).el ∧ (sun l t).el ≤ 90 ∧ 0 ≤ (sun l t).flux ∧ (sun l t).flux ≤ 1500

/-- C94. The Newton search for the initial gas temperature never fails: at any pressure the atmosphere
supports (up to the sea-level pressure accepted by the attenuation formula), with any sun, any upwelling
flux from 225 to 450 W/m² and any envelope, the cold start succeeds, and the temperature found is not
below the smaller of 206 K and (a hundredth of a kelvin below) the ambient temperature, nor above 850 K.
In particular every evaluation along the way stays in the domain of the absorptivity formula. -/
theorem C94_cold_start_total (sun : Sun) (hsun : Spec.SaneSun sun) (α : ℝ) (h0 : 0 ≤ α) (h1 : α ≤ 1) (s : BState)
    (hp : 100 ≤ s.pressure) (hp' : s.pressure ≤ 101325) (hv : 0 < s.volBase) (hm : 0 < s.envMass)
    (hu : 225 ≤ s.upwelling) (hu' : s.upwelling ≤ 450) :
    ∃ s', coldStart sun α s = .ok s' ∧ min 206 (s'.ambT - 0.01) ≤ s'.intT ∧ s'.intT ≤ 850 := by
  obtain ⟨amb, hamb⟩ := atPressure_in h0 h1 hp (by linarith)
  obtain ⟨t0, t1⟩ := atPressure_temp_range h0 h1 hamb
  obtain ⟨e0, e1, f0, f1⟩ := hsun s.latlng s.dateTime
  obtain ⟨t, ht, l1, l2⟩ := newton_total hv hm t0 t1 (by linarith : (0 : ℝ) ≤ s.pressure) hp' e0 e1 f0 f1 hu hu' 10
  refine ⟨_, by unfold coldStart stableParams; simp only [bind, Except.bind, pure, Except.pure, hamb, ht]; rfl, l1, l2⟩

/-- C94. A stock vehicle starting where episodes start (at least 6,500 Pa, at least 50,000 ft high) has air
in its ballonet, is neutrally buoyant at its base volume, and its envelope is superpressured — so it
does not begin its flight in the "zero pressure" end-of-flight state. -/
theorem C94_starts_superpressured (sun : Sun) (hsun : Spec.SaneSun sun) (α : ℝ) (h0 : 0 ≤ α) (h1 : α ≤ 1)
    (s : BState) (v : AtmVals) (hv : atPressure α s.pressure = .ok v) (hp : 6500 ≤ s.pressure)
    (hh : 15240 ≤ v.height) (hveh : s.volBase = 1804 ∧ s.dvdp = 0.0199 ∧ s.envMass = 68.5 ∧ s.payload = 92.5 ∧
      s.molsLift = 6830) (hu : 225 ≤ s.upwelling) (hu' : s.upwelling ≤ 450) :
    ∃ s', coldStart sun α s = .ok s' ∧ 0 < s'.sp ∧ 0 < s'.molsAir ∧
      Spec.mass s' = Spec.displaced s' 1804 ∧ 160 < s'.intT ∧ s'.intT ≤ 850 ∧ 169 < s'.ambT ∧ s'.ambT ≤ 210 := by
  obtain ⟨v1, v2, v3, v4, v5⟩ := hveh
  obtain ⟨a1, a2⟩ := start_air h0 h1 hv hp hh
  obtain ⟨a3, _⟩ := atPressure_temp_range h0 h1 hv
  obtain ⟨s', hs', l1, l2⟩ := C94_cold_start_total sun hsun α h0 h1 s (by linarith) (by linarith) (by rw [v1]; norm_num)
    (by rw [v3]; norm_num) hu hu'
  obtain ⟨⟨w, hw, hT⟩, hnn, hneut, _, hframe⟩ := C79_neutral_at_base_volume sun α h0 h1 s s' hs'
  rw [hv] at hw
  injection hw with hw
  subst hw
  have hint : 160 < s'.intT := by
    refine lt_of_lt_of_le (lt_min (by norm_num) ?_) l1
    rw [hT]; norm_num at *; linarith
  have hbal := C79_envelope_balanced sun α h0 h1 s s' hs' (by rw [v5]; norm_num) (by rw [v1]; norm_num)
    (by rw [v2]; norm_num) (by linarith)
  have f1 : s'.pressure = s.pressure := by rw [hframe]
  have f2 : s'.volBase = 1804 := by rw [hframe]; exact v1
  have f3 : s'.molsLift = 6830 := by rw [hframe]; exact v5
  have f4 : s'.envMass = 68.5 := by rw [hframe]; exact v3
  have f5 : s'.payload = 92.5 := by rw [hframe]; exact v4
  rw [v1] at hneut
  -- displaced mass
  have hd : Spec.displaced s' 1804 * (8.3144621 * v.temperature) = s.pressure * 0.02896492248116 * 1804 := by
    unfold Spec.displaced
    rw [hT, f1]
    have : v.temperature ≠ 0 := by linarith
    field_simp
  have hd1 : 189 < Spec.displaced s' 1804 := by
    by_contra hc
    have hc := not_lt.1 hc
    have : Spec.displaced s' 1804 * (8.3144621 * v.temperature) ≤ 189 * (8.3144621 * 210) :=
      mul_le_mul hc (by linarith) (by linarith) (by norm_num)
    norm_num at *; linarith
  have hd2 : Spec.displaced s' 1804 < 485 := by
    by_contra hc
    have hc := not_lt.1 hc
    have : 485 * (8.3144621 * 169.6) ≤ Spec.displaced s' 1804 * (8.3144621 * v.temperature) :=
      mul_le_mul hc (by linarith) (by norm_num) (by linarith)
    norm_num at *; linarith
  have hmass : Spec.mass s' = Spec.displaced s' 1804 := by
    apply hneut
    unfold Spec.mass
    simp only [f3, f4, f5]
    norm_num at *; linarith
  have hair : 0.02896492248116 * s'.molsAir = Spec.displaced s' 1804 - 161 - 0.004002602 * 6830 := by
    rw [← hmass]; unfold Spec.mass; rw [f3, f4, f5]; ring
  have hairpos : 0 < s'.molsAir := by norm_num at *; linarith
  refine ⟨s', hs', ?_, hairpos, hmass, hint, l2, by rw [hT]; norm_num at *; linarith, by rw [hT]; exact a1⟩
  -- superpressured
  unfold Spec.EnvelopeBalance at hbal
  have hgt : s'.pressure * s'.volBase < (s'.molsLift + s'.molsAir) * 8.3144621 * s'.intT := by
    rw [f1, f2, f3]
    have hnt : (6830 + s'.molsAir) * 0.02896492248116 = Spec.displaced s' 1804 + (6830 * (0.02896492248116 - 0.004002602) - 161) := by
      linarith
    have key : Spec.displaced s' 1804 * v.temperature < (6830 + s'.molsAir) * 0.02896492248116 * s'.intT := by
      rw [hnt]
      generalize Spec.displaced s' 1804 = D at *
      rw [hT] at l1
      have h9 : D + 9 ≤ D + (6830 * (0.02896492248116 - 0.004002602) - 161) := by norm_num
      refine lt_of_lt_of_le ?_ (mul_le_mul_of_nonneg_right h9 (by linarith))
      rcases min_le_iff.1 l1 with h | h
      · nlinarith
      · nlinarith
    have : s.pressure * 1804 * 0.02896492248116 < (6830 + s'.molsAir) * 8.3144621 * s'.intT * 0.02896492248116 := by
      nlinarith
    norm_num at this ⊢
    linarith
  exact (hbal.2 hgt).1

/-- The real ephemeris is a sane sun, whatever calendar is used, as long as it yields dates. -/
theorem C94_real_sun (cal : Calendar) (hcal : ∀ t, (1 ≤ (cal t).1 ∧ (cal t).1 ≤ 9999) ∧
    (1 ≤ (cal t).2.1 ∧ (cal t).2.1 ≤ 12) ∧ 1 ≤ (cal t).2.2 ∧ (cal t).2.2 ≤ 31) : Spec.SaneSun (realSun cal) := by
  intro l t
  obtain ⟨⟨a, b⟩, ⟨c, d⟩, e, f⟩ := hcal t
  obtain ⟨p1, p2⟩ := (C85_position (julianCentury (cal t).1 (cal t).2.1 (cal t).2.2 t) (fractionOfDay t) l.lat
    (degrees l.lng)).2.2.1
  obtain ⟨q1, q2⟩ := C85_flux (cal t).1 (cal t).2.1 (cal t).2.2 t a b c d e f l.lat (degrees l.lng)
  refine ⟨p1, p2, ?_, ?_⟩
  · exact le_trans (by norm_num) q1
  · exact le_trans q2 (by norm_num)

/-! ## The sun search succeeds on ordinary days -/

theorem bracketLoop_le (f : ℤ → ℝ) (low high : ℤ) :
    min (f (bracketLoop f low high).1) (f (bracketLoop f low high).2) ≤ min (f low) (f high) := by
  fun_induction bracketLoop f low high with
  | case1 low high h1 h2 ih =>
    refine ih.trans ?_
    rw [min_eq_left h2.le]; exact min_le_left _ _
  | case2 low high h1 h2 ih =>
    refine ih.trans ?_
    rw [min_eq_right (not_lt.1 h2)]; exact min_le_right _ _
  | case3 low high h1 => exact le_refl _

/-- The value found is no worse than at the ends and in the middle of the window. -/
theorem searchIndex_le (f : ℤ → ℝ) (n : ℤ) (hn : 0 < n) :
    f (searchIndex f (2 * n)) ≤ f 0 ∧ f (searchIndex f (2 * n)) ≤ f n ∧ f (searchIndex f (2 * n)) ≤ f (2 * n) := by
  have hpick : f (searchIndex f (2 * n)) = min (f (bracketLoop f 0 (2 * n)).1) (f (bracketLoop f 0 (2 * n)).2) := by
    unfold searchIndex
    by_cases h : f (bracketLoop f 0 (2 * n)).1 < f (bracketLoop f 0 (2 * n)).2
    · simp only [if_pos h]; rw [min_eq_left h.le]
    · simp only [if_neg h]; rw [min_eq_right (not_lt.1 h)]
  rw [hpick]
  have h1 := bracketLoop_le f 0 (2 * n)
  refine ⟨h1.trans (min_le_left _ _), ?_, h1.trans (min_le_right _ _)⟩
  rw [bracketLoop]
  by_cases h : 2 * n > 0 + 1
  · rw [dif_pos h]
    split_ifs
    · refine (bracketLoop_le f _ _).trans ((min_le_right _ _).trans (le_of_eq ?_))
      congr 1; omega
    · refine (bracketLoop_le f _ _).trans ((min_le_left _ _).trans (le_of_eq ?_))
      congr 1; omega
  · omega

/-- Elevation at the instant found by the search, over a window of twelve hours with three-minute steps. -/
theorem findSolar_le {el : ℤ → ℝ} {tr : ℝ → ℝ} {t r : ℤ}
    (h : findSolar el tr t (t + halfDay) searchDelta = .ok r) :
    tr (el r) ≤ tr (el t) ∧ tr (el r) ≤ tr (el (t + 6 * 3600 * usPerSec)) ∧ tr (el r) ≤ tr (el (t + halfDay)) := by
  have hs : Int.tdiv (t + halfDay - t) searchDelta = 2 * 120 := by
    rw [add_sub_cancel_left]; decide
  unfold findSolar at h
  rw [if_neg (by unfold halfDay usPerSec; omega), if_neg (by decide)] at h
  simp only [hs] at h
  rw [if_neg (by norm_num)] at h
  injection h with h
  obtain ⟨a, b, c⟩ := searchIndex_le (fun i => tr (el (t + searchDelta * i))) 120 (by norm_num)
  rw [← h]
  refine ⟨by simpa using a, ?_, ?_⟩
  · convert b using 3
    norm_num [searchDelta, usPerSec]
  · convert c using 3
    norm_num [searchDelta, usPerSec, halfDay]

/-- What an ordinary day looks like from instant `t` on: within two days the elevation changes by less than 15° in
three minutes and from one day to the next, and the half day with the noon reaches (at one of its ends or its middle)
30° more than the half day with the midnight. -/
def Spec.OrdinaryDay (el : ℤ → ℝ) (t : ℤ) : Prop :=
  (∀ s s', t ≤ s → s ≤ t + 48 * 3600 * 1000000 → t ≤ s' → s' ≤ t + 48 * 3600 * 1000000 →
    |s - s'| < 180 * 1000000 → |el s - el s'| < 15) ∧
  (∀ s, t ≤ s → s ≤ t + 24 * 3600 * 1000000 → |el (s + 24 * 3600 * 1000000) - el s| < 15) ∧
  ∃ i ∈ [0, 1, 2], ∃ j ∈ [0, 1, 2],
    if el (t + 1000000) < el t then
      el (t + (2 + i) * 6 * 3600 * 1000000) > el (t + j * 6 * 3600 * 1000000) + 30
    else el (t + i * 6 * 3600 * 1000000) > el (t + (2 + j) * 6 * 3600 * 1000000) + 30

/-- C95, sunrise search. On an ordinary day and outside the polar regions the next sunrise and sunset are
found. -/
theorem C95_sunrise_found (el : ℤ → ℝ) (lat : ℝ) (t : ℤ) (hlat : |lat| < 60) (hday : Spec.OrdinaryDay el t) :
    ∃ r, nextSunriseSunset el lat t searchDelta = .ok r := by
  obtain ⟨hlip, hper, i, hi, j, hj, hcon⟩ := hday
  have hsd : searchDelta = 180000000 := by norm_num [searchDelta, usPerSec]
  have hh : halfDay = 43200000000 := by norm_num [halfDay, usPerSec]
  have hus : usPerSec = 1000000 := rfl
  obtain ⟨noon, midnight, hn, hm, hok | ⟨-, hbad⟩⟩ := C50_failures el lat t searchDelta (by rw [hsd]; norm_num)
    (by rw [hsd]; norm_num) hlat
  · exact hok
  exfalso
  have hfar : el noon > el midnight + 30 := by
    unfold nextNoon isAfternoon at hn
    unfold nextMidnight isAfternoon at hm
    rw [hus] at hn hm
    by_cases hc : el (t + 1000000) < el t
    · simp only [hc, decide_true, if_true] at hn hm hcon
      rw [show t + 2 * halfDay = t + halfDay + halfDay by ring] at hn
      obtain ⟨a1, a2, a3⟩ := findSolar_le hn
      obtain ⟨b1, b2, b3⟩ := findSolar_le hm
      simp only [hh, hus] at a1 a2 a3 b1 b2 b3
      rw [show t + 43200000000 + 6 * 3600 * 1000000 = t + 64800000000 by ring] at a2
      rw [show t + 43200000000 + 43200000000 = t + 86400000000 by ring] at a3
      simp only [List.mem_cons, List.not_mem_nil, or_false] at hi hj
      rcases hi with rfl | rfl | rfl <;> rcases hj with rfl | rfl | rfl <;> norm_num at * <;> linarith
    · simp only [hc, decide_false, Bool.false_eq_true, if_false] at hn hm hcon
      rw [show t + 2 * halfDay = t + halfDay + halfDay by ring] at hm
      obtain ⟨a1, a2, a3⟩ := findSolar_le hn
      obtain ⟨b1, b2, b3⟩ := findSolar_le hm
      simp only [hh, hus] at a1 a2 a3 b1 b2 b3
      rw [show t + 43200000000 + 6 * 3600 * 1000000 = t + 64800000000 by ring] at b2
      rw [show t + 43200000000 + 43200000000 = t + 86400000000 by ring] at b3
      simp only [List.mem_cons, List.not_mem_nil, or_false] at hi hj
      rcases hi with rfl | rfl | rfl <;> rcases hj with rfl | rfl | rfl <;> norm_num at * <;> linarith
  rw [hsd] at hbad
  have r1 := nextNoon_range (by rw [hsd]; norm_num) hn
  have r2 := nextMidnight_range (by rw [hsd]; norm_num) hm
  rw [hh] at r1 r2
  have b1 : t ≤ noon ∧ noon ≤ t + 24 * 3600 * 1000000 := by
    cases hb : isAfternoon el t
    · have := r1.2 hb; omega
    · have := r1.1 hb; omega
  have b2 : t ≤ midnight ∧ midnight ≤ t + 24 * 3600 * 1000000 := by
    cases hb : isAfternoon el t
    · have := r2.2 hb; omega
    · have := r2.1 hb; omega
  rcases hbad with hbad | hbad
  · have := abs_lt.1 (hlip noon midnight (by omega) (by omega) (by omega) (by omega) (by omega))
    linarith [this.2]
  · rcases le_total noon midnight with hle | hle
    · rw [abs_of_nonpos (by omega)] at hbad
      have h1 := abs_lt.1 (hper noon b1.1 b1.2)
      have h2 := abs_lt.1 (hlip (noon + 24 * 3600 * 1000000) midnight (by omega) (by omega) (by omega) (by omega)
        (by rw [abs_of_nonneg (by omega)]; omega))
      linarith [h1.1, h1.2, h2.1, h2.2]
    · rw [abs_of_nonneg (by omega)] at hbad
      have h1 := abs_lt.1 (hper midnight b2.1 b2.2)
      have h2 := abs_lt.1 (hlip (midnight + 24 * 3600 * 1000000) noon (by omega) (by omega) (by omega) (by omega)
        (by rw [abs_of_nonneg (by omega)]; omega))
      linarith [h1.1, h1.2, h2.1, h2.2]

/-! ## The initial state of an episode -/

/-- What is assumed of the random draws: they are in the documented range of their distribution. -/
def Spec.SaneDraws {K : Type} (J : Jax K) : Prop :=
  ∀ k, (0 ≤ J.uniform k ∧ J.uniform k < 1) ∧ (0 ≤ J.beta k ∧ J.beta k ≤ 1) ∧
    (225 ≤ J.upwelling k ∧ J.upwelling k < 315) ∧ ∀ n, 0 < n → J.choice k n < n

/-- A balloon as it should be at the start of an episode with atmosphere `α`. -/
structure Spec.ValidStart (α : ℝ) (b : BState) : Prop where
  /-- it is flying, its clock is at zero, and nothing has been commanded -/
  flying : b.status = .ok ∧ b.timeElapsed = 0 ∧ b.lastCommand = .stay
  /-- within 200 km of the station -/
  near : Real.sqrt (b.x ^ 2 + b.y ^ 2) ≤ 200 * 1000
  /-- the station is in the tropics away from the date line, and so is the balloon -/
  station : |degrees b.center.lat| ≤ 10 ∧ |degrees b.center.lng| ≤ 175 ∧ |degrees b.latlng.lat| ≤ 12
  /-- pressure and altitude -/
  height : 6500 ≤ b.pressure ∧ b.pressure < 13000 ∧ ∃ v, atPressure α b.pressure = .ok v ∧ 15240 < v.height
  /-- battery nearly full, solar power running -/
  battery : 0.94 * b.cap < b.charge ∧ b.charge < b.cap ∧ b.powerEnabled = true
  /-- superpressured, air in the ballonet, neutrally buoyant at base volume -/
  buoyant : 0 < b.sp ∧ 0 < b.molsAir ∧ Spec.mass b = Spec.displaced b b.volBase
  /-- temperatures -/
  temperature : 160 < b.intT ∧ b.intT ≤ 850 ∧ 169 < b.ambT ∧ b.ambT ≤ 210
  /-- no safety layer is active -/
  unpaused : b.navPaused = false ∧ b.env.state = .nominal ∧ b.alt = .nominal ∧ b.env.maxSp = b.maxSp
  /-- upwelling infrared in its range -/
  infrared : 225 ≤ b.upwelling ∧ b.upwelling < 315
  /-- the stock vehicle -/
  vehicle : b.volBase = 1804 ∧ b.dvdp = 0.0199 ∧ b.envMass = 68.5 ∧ b.payload = 92.5 ∧ b.molsLift = 6830 ∧
    b.maxSp = 2380 ∧ b.cap = 3058.56 ∧ b.cod = 0.25 ∧ b.dayLoad = 120.4 ∧ b.nightLoad = 183.7 ∧ b.valveDiam = 0.04
  /-- volume and superpressure obey the envelope equations -/
  balance : Spec.EnvelopeBalance (b.molsLift + b.molsAir) b.intT b.pressure b.volBase b.dvdp b.vol b.sp

theorem degrees_radians (d : ℝ) : degrees (radians d) = d := by
  unfold degrees radians
  have := Real.pi_pos.ne'
  field_simp

/-- Moving along the Earth's surface changes the latitude by at most the angle travelled. -/
theorem offset_latitude (c : LatLng) (x y : ℝ) (hc : |c.lat| + Real.sqrt (x ^ 2 + y ^ 2) / 6371000 ≤ Real.pi / 2) :
    |(latlngFromOffset c x y).lat| ≤ |c.lat| + Real.sqrt (x ^ 2 + y ^ 2) / 6371000 := by
  obtain ⟨_, hlat, _⟩ := latlngFromOffset_trig c x y
  rw [hlat]
  have hθ : relativeDistance x y / earthRadius = Real.sqrt (x ^ 2 + y ^ 2) / 6371000 := by
    simp only [relativeDistance, earthRadius]; norm_num
  unfold Spec.sinNewLat
  simp only
  rw [hθ]
  have hθ0 : 0 ≤ Real.sqrt (x ^ 2 + y ^ 2) / 6371000 := by positivity
  generalize Real.sqrt (x ^ 2 + y ^ 2) / 6371000 = θ at *
  generalize atan2 (x / 1000) (y / 1000) = h
  have hl := abs_le.1 (le_refl |c.lat|)
  have hpi := Real.pi_pos
  have hnn := abs_nonneg c.lat
  have hs : 0 ≤ Real.sin θ := Real.sin_nonneg_of_nonneg_of_le_pi hθ0 (by linarith)
  have hcs : 0 ≤ Real.cos c.lat := Real.cos_nonneg_of_neg_pi_div_two_le_of_le (by linarith) (by linarith)
  have hsc : 0 ≤ Real.sin θ * Real.cos c.lat := mul_nonneg hs hcs
  have hc1 := Real.neg_one_le_cos h
  have hc2 := Real.cos_le_one h
  have up : Real.cos θ * Real.sin c.lat + Real.sin θ * Real.cos c.lat * Real.cos h ≤ Real.sin (c.lat + θ) := by
    rw [Real.sin_add]; nlinarith
  have lo : Real.sin (c.lat - θ) ≤ Real.cos θ * Real.sin c.lat + Real.sin θ * Real.cos c.lat * Real.cos h := by
    rw [Real.sin_sub]; nlinarith
  rw [abs_le]
  constructor
  · have := Real.arcsin_le_arcsin lo
    rw [Real.arcsin_sin (by linarith) (by linarith)] at this
    linarith
  · have := Real.arcsin_le_arcsin up
    rw [Real.arcsin_sin (by linarith) (by linarith)] at this
    linarith

/-- C95. Whatever the random draws, the initialisation of an episode either produces a balloon in a valid
start state with the requested date, or fails in the search for the next sunrise (which it does not on
an ordinary day, `C95_sunrise_found`). No other failure is possible. -/
theorem C95_init {K W : Type} (E : World K W) (hJ : Spec.SaneDraws E.J) (hsun : Spec.SaneSun E.sun) (α : ℝ)
    (h0 : 0 ≤ α) (h1 : α ≤ 1) (rng : K) (date : ℤ) :
    (∃ b, initBalloon E α rng date = .ok b ∧ Spec.ValidStart α b ∧ b.dateTime = date) ∨
    (initBalloon E α rng date = .error .assertion ∧
      ∃ l : LatLng, |degrees l.lat| ≤ 12 ∧ ¬ Spec.OrdinaryDay (fun t => (E.sun l t).el) date) := by
  have hpi := Real.pi_pos
  have hpi3 := Real.pi_gt_three
  unfold initBalloon
  simp only [bind, Except.bind]
  generalize E.J.split rng 6 = key
  obtain ⟨_, ⟨hb0, hb1⟩, _⟩ := hJ (key (0 + 1))
  generalize E.J.beta (key (0 + 1)) = beta at *
  generalize uniform 0 (2 * Real.pi) (E.J.uniform (key (1 + 1))) = θ
  obtain ⟨⟨u0, u1⟩, _⟩ := hJ (E.J.split (key (2 + 1)) 2 0)
  obtain ⟨⟨w0, w1⟩, _⟩ := hJ (E.J.split (key (2 + 1)) 2 1)
  obtain ⟨⟨q0, q1⟩, _⟩ := hJ (key (3 + 1))
  obtain ⟨_, _, ⟨i0, i1⟩, _⟩ := hJ (key (4 + 1))
  obtain ⟨p, v, hp, hp0, hv, hh⟩ := C46_start_above_floor α h0 h1 _ q0 q1
  simp only [hp]
  obtain ⟨l1, l2, l3, l4⟩ := C78_location _ _ ⟨u0, u1⟩ ⟨w0, w1⟩
  generalize sampleLocation (E.J.uniform (E.J.split (key (2 + 1)) 2 0)) (E.J.uniform (E.J.split (key (2 + 1)) 2 1)) = loc at *
  generalize E.J.upwelling (key (4 + 1)) = ir at *
  have hdist : Real.sqrt ((Real.cos θ * (200 * beta * 1000)) ^ 2 + (Real.sin θ * (200 * beta * 1000)) ^ 2) = 200 * beta * 1000 := by
    have : (Real.cos θ * (200 * beta * 1000)) ^ 2 + (Real.sin θ * (200 * beta * 1000)) ^ 2 = (200 * beta * 1000) ^ 2 := by
      linear_combination (200 * beta * 1000) ^ 2 * Real.sin_sq_add_cos_sq θ
    rw [this, Real.sqrt_sq (by linarith)]
  have hlat10 : |radians loc.1| ≤ 10 * (Real.pi / 180) := by
    unfold radians
    rw [abs_mul, abs_of_pos (show 0 < Real.pi / 180 by positivity)]
    exact mul_le_mul_of_nonneg_right (abs_le.2 ⟨l1, by linarith⟩) (by positivity)
  have hθle : Real.sqrt ((Real.cos θ * (200 * beta * 1000)) ^ 2 + (Real.sin θ * (200 * beta * 1000)) ^ 2) / 6371000 ≤ 0.032 := by
    rw [hdist, div_le_iff₀ (by norm_num)]; norm_num; linarith
  have hlat := offset_latitude ⟨radians loc.1, radians loc.2⟩ (Real.cos θ * (200 * beta * 1000))
    (Real.sin θ * (200 * beta * 1000)) (by simp only; linarith)
  have hlat12 : |degrees (latlngFromOffset ⟨radians loc.1, radians loc.2⟩ (Real.cos θ * (200 * beta * 1000))
      (Real.sin θ * (200 * beta * 1000))).lat| ≤ 12 := by
    have hl : |(latlngFromOffset ⟨radians loc.1, radians loc.2⟩ (Real.cos θ * (200 * beta * 1000))
      (Real.sin θ * (200 * beta * 1000))).lat| ≤ 12 * (Real.pi / 180) := by
      refine hlat.trans ?_
      simp only
      linarith
    unfold degrees
    rw [abs_mul, abs_of_pos (show 0 < 180 / Real.pi by positivity)]
    calc _ ≤ 12 * (Real.pi / 180) * (180 / Real.pi) := mul_le_mul_of_nonneg_right hl (by positivity)
      _ = 12 := by field_simp
  unfold newBalloonState
  simp only
  generalize hl : latlngFromOffset ⟨radians loc.1, radians loc.2⟩ (Real.cos θ * (200 * beta * 1000))
      (Real.sin θ * (200 * beta * 1000)) = l at *
  cases hs : nextSunriseSunset (fun t => (E.sun l t).el) (degrees l.lat) date searchDelta with
  | error e =>
    right
    have he : e = .assertion := by
      obtain ⟨_, _, _, _, ⟨_, hok⟩ | ⟨hbad, _⟩⟩ := C50_failures (fun t => (E.sun l t).el) (degrees l.lat) date searchDelta
        (by norm_num [searchDelta, usPerSec]) (by norm_num [searchDelta, usPerSec]) (by linarith)
      · rw [hs] at hok; exact absurd hok (by simp)
      · rw [hs] at hbad; injection hbad
    refine ⟨by simp only [he], l, hlat12, fun hday => ?_⟩
    obtain ⟨r, hr⟩ := C95_sunrise_found _ (degrees l.lat) date (by linarith) hday
    rw [hs] at hr
    exact absurd hr (by simp)
  | ok r =>
    left
    simp only
    generalize hb : BState.mk _ _ _ _ _ _ _ _ _ _ _ _ _ _ _ _ _ _ _ _ _ _ _ _ _ _ _ _ _ _ _ _ _ _ = b
    have hbp : b.pressure = p := by rw [← hb]
    have hbu : b.upwelling = ir := by rw [← hb]
    obtain ⟨s', hs', g1, g2, g3, g4, g5, g6, g7⟩ := C94_starts_superpressured E.sun hsun α h0 h1 b v (by rw [hbp]; exact hv)
      (by rw [hbp]; exact hp0) hh.le (by rw [← hb]; exact ⟨rfl, rfl, rfl, rfl, rfl⟩) (by rw [hbu]; exact i0)
      (by rw [hbu]; linarith)
    obtain ⟨-, -, -, -, hframe⟩ := C79_neutral_at_base_volume E.sun α h0 h1 b s' hs'
    obtain ⟨-, a2⟩ := start_air h0 h1 hv hp0 hh.le
    refine ⟨s', hs', ⟨?_, ?_, ?_, ?_, ?_, ⟨g1, g2, ?_⟩, ⟨g4, g5, g6, g7⟩, ?_, ?_, ?_, ?_⟩, ?_⟩
    · rw [hframe, ← hb]; exact ⟨rfl, rfl, rfl⟩
    · rw [hframe, ← hb]
      simp only
      rw [hdist]; linarith
    · have hl' : s'.latlng = l := by rw [hframe, ← hb, ← hl]; rfl
      have hc : s'.center = ⟨radians loc.1, radians loc.2⟩ := by rw [hframe, ← hb]
      rw [hl', hc]
      simp only [degrees_radians]
      exact ⟨abs_le.2 ⟨l1, l2.le⟩, abs_le.2 ⟨l3, l4.le⟩, hlat12⟩
    · have hpp : s'.pressure = p := by rw [hframe, ← hb]
      rw [hpp]
      exact ⟨hp0, a2, v, hv, hh⟩
    · rw [hframe, ← hb]
      norm_num
    · have : s'.volBase = 1804 := by rw [hframe, ← hb]
      rw [this]; exact g3
    · rw [hframe, ← hb]
      exact ⟨rfl, rfl, rfl, rfl⟩
    · rw [hframe, ← hb]
      exact ⟨i0, i1⟩
    · rw [hframe, ← hb]
      exact ⟨rfl, rfl, rfl, rfl, rfl, rfl, rfl, rfl, rfl, rfl, rfl⟩
    · have hbv : b.volBase = 1804 ∧ b.dvdp = 0.0199 ∧ b.molsLift = 6830 := by rw [← hb]; exact ⟨rfl, rfl, rfl⟩
      exact C79_envelope_balanced E.sun α h0 h1 b s' hs' (by rw [hbv.2.2]; norm_num) (by rw [hbv.1]; norm_num)
        (by rw [hbv.2.1]; norm_num) (by linarith)
    · rw [hframe, ← hb]

/-- C78, the position. A balloon starts at most 200 km from its station: its distance is 200 km times the
Beta draw, its direction is spread evenly over the full circle by the uniform draw, and the two draws
use different keys. -/
theorem C78_distance {K W : Type} (E : World K W) (hJ : Spec.SaneDraws E.J) (α : ℝ) (h0 : 0 ≤ α) (h1 : α ≤ 1) (rng : K)
    (date : ℤ) (b : BState) (hb : initBalloon E α rng date = .ok b) :
    ∃ r θ : ℝ, b.x = r * Real.cos θ ∧ b.y = r * Real.sin θ ∧ 0 ≤ r ∧ r ≤ 200 * 1000 ∧ 0 ≤ θ ∧ θ < 2 * Real.pi ∧
      r = 200 * 1000 * E.J.beta (E.J.split rng 6 1) ∧ θ = 2 * Real.pi * E.J.uniform (E.J.split rng 6 2) ∧
      Real.sqrt (b.x ^ 2 + b.y ^ 2) = r := by
  have hpi := Real.pi_pos
  unfold initBalloon at hb
  simp only [bind, Except.bind] at hb
  obtain ⟨_, ⟨b0, b1⟩, _⟩ := hJ (E.J.split rng 6 1)
  obtain ⟨⟨u0, u1⟩, _⟩ := hJ (E.J.split rng 6 2)
  cases hp : samplePressure (E.J.uniform (E.J.split rng 6 (3 + 1))) (some α) with
  | error e => rw [hp] at hb; simp at hb
  | ok p =>
    rw [hp] at hb
    simp only at hb
    unfold newBalloonState at hb
    simp only at hb
    split at hb
    · simp at hb
    · rename_i s hs
      split at hs
      · simp at hs
      · injection hs with hs
        obtain ⟨-, -, -, -, hframe⟩ := C79_neutral_at_base_volume E.sun α h0 h1 s b hb
        have hx : b.x = 200 * 1000 * E.J.beta (E.J.split rng 6 1) *
            Real.cos (2 * Real.pi * E.J.uniform (E.J.split rng 6 2)) := by
          rw [hframe, ← hs]
          simp only [uniform]
          norm_num
          ring_nf
        have hy : b.y = 200 * 1000 * E.J.beta (E.J.split rng 6 1) *
            Real.sin (2 * Real.pi * E.J.uniform (E.J.split rng 6 2)) := by
          rw [hframe, ← hs]
          simp only [uniform]
          norm_num
          ring_nf
        refine ⟨_, _, hx, hy, by positivity, by linarith, by positivity, by nlinarith, rfl, rfl, ?_⟩
        rw [hx, hy]
        generalize 2 * Real.pi * E.J.uniform (E.J.split rng 6 2) = θ
        have : (200 * 1000 * E.J.beta (E.J.split rng 6 1) * Real.cos θ) ^ 2 +
            (200 * 1000 * E.J.beta (E.J.split rng 6 1) * Real.sin θ) ^ 2 =
            (200 * 1000 * E.J.beta (E.J.split rng 6 1)) ^ 2 := by
          linear_combination (200 * 1000 * E.J.beta (E.J.split rng 6 1)) ^ 2 * Real.sin_sq_add_cos_sq θ
        rw [this, Real.sqrt_sq (by positivity)]

/-- C95, `BalloonArena.reset`. For every arena, key and source of random numbers, `reset` either installs a
new balloon in a valid start state for the newly sampled atmosphere, dated within [1 January 2011,
31 December 2014), with the wind field told the same date; or it raises the assertion error of the
sunrise search. In particular its own assertion on the status of the balloon never fails. -/
theorem C95_reset {K W : Type} (E : World K W) (hJ : Spec.SaneDraws E.J) (hsun : Spec.SaneSun E.sun) (key : K)
    (A : Arena K W) :
    ∃ date : ℤ, 1293840000 * 1000000 ≤ date ∧ date < 1419984000 * 1000000 ∧
      ((∃ α : ℝ, 0 ≤ α ∧ α < 1 ∧ (A.reset E key).1.heap.atms A.atm = α ∧
          (A.reset E key).1.ball = some A.heap.nextBall ∧
          Spec.ValidStart α ((A.reset E key).1.heap.balls A.heap.nextBall) ∧
          ((A.reset E key).1.heap.balls A.heap.nextBall).dateTime = date ∧
          ∃ k, (A.reset E key).1.heap.winds A.wind = (A.heap.winds A.wind).reset E.J E.C k date) ∨
        ((A.reset E key).2 = .error .assertion ∧ (A.reset E key).1.ball = A.ball ∧
          ∃ l : LatLng, |degrees l.lat| ≤ 12 ∧ ¬ Spec.OrdinaryDay (fun t => (E.sun l t).el) date)) := by
  have hcnt : sampleTimeCount timeBegin timeEnd = 126144000 := by decide
  have hch := (hJ (E.J.split key 3 2)).2.2.2 (sampleTimeCount timeBegin timeEnd).toNat (by rw [hcnt]; norm_num)
  have hd := C78_time timeBegin timeEnd (E.J.choice (E.J.split key 3 2) (sampleTimeCount timeBegin timeEnd).toNat)
    (by rw [hcnt] at *; omega) (by decide)
  obtain ⟨a0, a1⟩ := (hJ (E.J.split key 3 1)).1
  unfold Arena.reset
  simp only
  generalize sampleTime timeBegin _ = date at *
  generalize E.J.uniform (E.J.split key 3 1) = α at *
  refine ⟨date, hd.1, hd.2, ?_⟩
  rcases C95_init E hJ hsun α a0 a1.le (E.J.split key 3 0) date with ⟨b, hb, hvs, hdt⟩ | ⟨he, hl⟩
  · left
    rw [hb]
    simp only [hvs.flying.1, ne_eq, not_true, if_false]
    have hm : ∀ (B : Arena K W) (i : ℕ) (F : Feat), (Arena.measure E B i F).1.heap = B.heap ∧
        (Arena.measure E B i F).1.ball = B.ball := by
      intro B i F
      unfold Arena.measure
      split
      · exact ⟨rfl, rfl⟩
      · simp only
        split <;> exact ⟨rfl, rfl⟩
    refine ⟨α, a0, a1, ?_, ?_, ?_, ?_, ?_⟩
    · rw [(hm _ _ _).1]; simp
    · rw [(hm _ _ _).2]
    · rw [(hm _ _ _).1]; simpa using hvs
    · rw [(hm _ _ _).1]; simpa using hdt
    · rw [(hm _ _ _).1]; exact ⟨E.J.split (E.J.split (E.J.split key 3 0) 6 0) 2 1, by simp⟩
  · right
    rw [he]
    exact ⟨rfl, rfl, hl⟩

/-- C95 and C79: every episode begins with a climb, whatever the first command and the wind. -/
theorem C95_first_climb {K W : Type} (E : World K W) (hJ : Spec.SaneDraws E.J) (hsun : Spec.SaneSun E.sun) (α : ℝ)
    (h0 : 0 ≤ α) (h1 : α ≤ 1) (rng : K) (date : ℤ) (b b' : BState) (hb : initBalloon E α rng date = .ok b)
    (sun' : Sun) (u v : ℝ) (a : Command) (stride : ℤ) (hst : 0 < stride)
    (hstep : substep sun' α u v a stride b = .ok b') : b'.pressure < b.pressure := by
  rcases C95_init E hJ hsun α h0 h1 rng date with ⟨b2, hb2, hvs, -⟩ | ⟨he, -⟩
  · rw [hb] at hb2
    injection hb2 with hb2
    subst hb2
    unfold initBalloon at hb
    simp only [bind, Except.bind] at hb
    split at hb
    · cases hb
    · split at hb
      · cases hb
      · rename_i p hp s hs
        unfold newBalloonState at hs
        simp only at hs
        split at hs
        · cases hs
        · injection hs with hs
          exact C79_starts_climbing E.sun sun' α h0 h1 s b b' hb (by rw [← hs]; norm_num) (by rw [← hs]; norm_num)
            (by rw [← hs]; norm_num) (by linarith [hvs.temperature.1]) hvs.buoyant.2.1 hvs.buoyant.1 u v a stride hst hstep
  · rw [hb] at he; cases he

/-! ## The hypotheses can be met -/

/-- An idealised equatorial sun: the elevation swings between 90° at noon and −90° at midnight. -/
noncomputable def Spec.cosineSun : Sun := fun _ t =>
  ⟨90 * Real.cos (2 * Real.pi * ((t : ℝ) / (86400 * 1000000))), 1000⟩

theorem cosineSun_sane : Spec.SaneSun Spec.cosineSun := by
  intro l t
  simp only [Spec.cosineSun]
  have h1 := Real.neg_one_le_cos (2 * Real.pi * ((t : ℝ) / (86400 * 1000000)))
  have h2 := Real.cos_le_one (2 * Real.pi * ((t : ℝ) / (86400 * 1000000)))
  refine ⟨?_, ?_, ?_, ?_⟩ <;> linarith

theorem cosineSun_ordinary (l : LatLng) : Spec.OrdinaryDay (fun t => (Spec.cosineSun l t).el) timeBegin := by
  have hpi := Real.pi_lt_four
  have hpi0 := Real.pi_pos
  refine ⟨?_, ?_, 2, by simp, 2, by simp, ?_⟩
  · intro s s' _ _ _ _ h
    simp only [Spec.cosineSun]
    rw [← mul_sub, abs_mul, abs_of_pos (by norm_num : (0 : ℝ) < 90)]
    have h' : |(s : ℝ) - s'| < 180 * 1000000 := by exact_mod_cast h
    have hl : |Real.cos (2 * Real.pi * ((s : ℝ) / (86400 * 1000000))) - Real.cos (2 * Real.pi * ((s' : ℝ) / (86400 * 1000000)))| ≤
        |2 * Real.pi * ((s : ℝ) / (86400 * 1000000)) - 2 * Real.pi * ((s' : ℝ) / (86400 * 1000000))| := by
      exact Real.abs_cos_sub_cos_le _ _
    rw [show 2 * Real.pi * ((s : ℝ) / (86400 * 1000000)) - 2 * Real.pi * ((s' : ℝ) / (86400 * 1000000)) =
      2 * Real.pi / (86400 * 1000000) * (s - s') by ring, abs_mul,
      abs_of_pos (show (0 : ℝ) < 2 * Real.pi / (86400 * 1000000) by positivity)] at hl
    have : 2 * Real.pi / (86400 * 1000000) * |(s : ℝ) - s'| ≤ 8 / (86400 * 1000000) * (180 * 1000000) := by
      apply mul_le_mul _ h'.le (abs_nonneg _) (by norm_num)
      gcongr; linarith
    have h60 : (8 : ℝ) / (86400 * 1000000) * (180 * 1000000) = 1 / 60 := by norm_num
    rw [h60] at this
    linarith
  · intro s _ _
    simp only [Spec.cosineSun]
    rw [show 2 * Real.pi * (((s + 24 * 3600 * 1000000 : ℤ) : ℝ) / (86400 * 1000000)) =
      2 * Real.pi * ((s : ℝ) / (86400 * 1000000)) + 2 * Real.pi by push_cast; ring, Real.cos_add_two_pi]
    norm_num
  · have e0 : Real.cos (2 * Real.pi * ((timeBegin : ℝ) / (86400 * 1000000))) = 1 := by
      rw [show 2 * Real.pi * ((timeBegin : ℝ) / (86400 * 1000000)) = ((14975 : ℕ) : ℝ) * (2 * Real.pi) by
        norm_num [timeBegin, usPerSec]; ring]
      exact Real.cos_nat_mul_two_pi _
    have e1 : Real.cos (2 * Real.pi * (((timeBegin + 1000000 : ℤ) : ℝ) / (86400 * 1000000))) =
        Real.cos (2 * Real.pi / 86400) := by
      rw [show 2 * Real.pi * (((timeBegin + 1000000 : ℤ) : ℝ) / (86400 * 1000000)) =
        2 * Real.pi / 86400 + ((14975 : ℕ) : ℝ) * (2 * Real.pi) by norm_num [timeBegin, usPerSec]; ring]
      exact Real.cos_add_nat_mul_two_pi _ _
    have e2 : Real.cos (2 * Real.pi * (((timeBegin + (2 + 2) * 6 * 3600 * 1000000 : ℤ) : ℝ) / (86400 * 1000000))) = 1 := by
      rw [show 2 * Real.pi * (((timeBegin + (2 + 2) * 6 * 3600 * 1000000 : ℤ) : ℝ) / (86400 * 1000000)) =
        ((14976 : ℕ) : ℝ) * (2 * Real.pi) by norm_num [timeBegin, usPerSec]; ring]
      exact Real.cos_nat_mul_two_pi _
    have e3 : Real.cos (2 * Real.pi * (((timeBegin + 2 * 6 * 3600 * 1000000 : ℤ) : ℝ) / (86400 * 1000000))) = -1 := by
      rw [show 2 * Real.pi * (((timeBegin + 2 * 6 * 3600 * 1000000 : ℤ) : ℝ) / (86400 * 1000000)) =
        Real.pi + ((14975 : ℕ) : ℝ) * (2 * Real.pi) by norm_num [timeBegin, usPerSec]; ring]
      rw [Real.cos_add_nat_mul_two_pi, Real.cos_pi]
    have hlt : Real.cos (2 * Real.pi / 86400) < 1 := by
      rw [← Real.cos_zero]
      apply Real.cos_lt_cos_of_nonneg_of_le_pi (le_refl _) (by linarith) (by positivity)
    split_ifs with hc <;> simp only [Spec.cosineSun] at *
    · rw [e2, e3]; norm_num
    · exfalso
      rw [e0, e1] at hc
      linarith

/-- A generator whose draws are all in the middle of their range. -/
noncomputable def Spec.middleJax : Jax (List ℕ) where
  prngKey _ := []
  split k _ i := i :: k
  uniform _ := 1 / 2
  uniform4 _ _ := 1 / 2
  beta _ := 1 / 2
  choice _ _ := 0
  upwelling _ := 250

theorem middleJax_sane : Spec.SaneDraws Spec.middleJax := by
  intro k
  simp only [Spec.middleJax]
  norm_num

/-- With middling draws and the idealised sun the episode of 1 January 2011 does start. -/
example {W : Type} (nz : Noise4d) (C : WindClass (List ℕ) W) (R : Regressor) :
    ∃ b, initBalloon ⟨Spec.middleJax, nz, C, R, Spec.cosineSun⟩ (1 / 2) [] timeBegin = .ok b ∧
      Spec.ValidStart (1 / 2) b := by
  rcases C95_init ⟨Spec.middleJax, nz, C, R, Spec.cosineSun⟩ middleJax_sane cosineSun_sane (1 / 2) (by norm_num) (by norm_num)
    [] timeBegin with ⟨b, hb, hvs, -⟩ | ⟨-, l, -, hno⟩
  · exact ⟨b, hb, hvs⟩
  · exact absurd (cosineSun_ordinary l) hno

end BLE
