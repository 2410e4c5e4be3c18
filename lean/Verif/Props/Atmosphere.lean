import Verif.Lemmas.Atmosphere3

/-!
# C43 – C46, C78: the atmosphere and the sampled episode parameters
-/

namespace BLE

/-- C43 (height → pressure → height): looking up the pressure found at a height returns exactly the
same atmospheric values, in particular the same height and temperature. -/
theorem C43_height_roundtrip (α : ℝ) (h0 : 0 ≤ α) (h1 : α ≤ 1) (h : ℝ) (v : AtmVals)
    (hv : atHeight α h = .ok v) : v.height = h ∧ atPressure α v.pressure = .ok v := by
  obtain ⟨i, hi, ha, hb, rfl⟩ := atHeight_ok hv
  have hT := (layerT_pos h0 h1 hi ha hb.le).1
  have hlo : pTrans α (i + 1) < layerP α i h := by
    rw [← layerP_end]
    refine layerP_strictAnti h0 h1 hi (by linarith) ?_ hb
    rw [layerT_end]; linarith [(tTrans_bounds h0 h1 (i := i + 1) (by omega)).1]
  have hhi : layerP α i h ≤ pTrans α i := by
    rw [← layerP_start h0 h1 hi]
    rcases ha.lt_or_eq with hlt | heq
    · refine (layerP_strictAnti h0 h1 hi ?_ (by linarith) hlt).le
      rw [layerT_start]; linarith [(tTrans_bounds h0 h1 (i := i) (by omega)).1]
    · rw [heq]
  refine ⟨rfl, ?_⟩
  rw [atPressure_eq h0 h1 hi hlo hhi, layerH_layerP h0 h1 hi (by linarith)]

/-- C43 (pressure → height → pressure). -/
theorem C43_pressure_roundtrip (α : ℝ) (h0 : 0 ≤ α) (h1 : α ≤ 1) (p : ℝ) (v : AtmVals)
    (hv : atPressure α p = .ok v) : v.pressure = p ∧ atHeight α v.height = .ok v := by
  obtain ⟨i, hi, hlo, hhi, rfl⟩ := atPressure_ok hv
  have hp : 0 < p := lt_trans (pTrans_pos h0 h1 (by omega)) hlo
  have hPH := layerP_layerH h0 h1 hi hp
  have hT := layerT_layerH h0 h1 hi hp
  have t0 := (tTrans_bounds h0 h1 (i := i) (by omega)).1
  have t1 := (tTrans_bounds h0 h1 (i := i + 1) (by omega)).1
  have ha : hTrans i ≤ layerH α i p := by
    by_contra hc
    have := layerP_strictAnti h0 h1 hi hT (by rw [layerT_start]; linarith) (lt_of_not_ge hc)
    rw [layerP_start h0 h1 hi, hPH] at this
    linarith
  have hb : layerH α i p < hTrans (i + 1) := by
    by_contra hc
    rcases (le_of_not_gt hc).lt_or_eq with hlt | heq
    · have := layerP_strictAnti h0 h1 hi (by rw [layerT_end]; linarith) hT hlt
      rw [layerP_end, hPH] at this
      linarith
    · rw [← heq, layerP_end] at hPH
      linarith
  refine ⟨rfl, ?_⟩
  rw [atHeight_eq hi ha hb, hPH]

example : ∃ v, atHeight 0.25 15240 = .ok v := ⟨_, atHeight_eq (i := 0) (by norm_num)
  (by norm_num [hTrans]) (by norm_num [hTrans])⟩

/-- C44: higher means lower pressure and thinner air; the temperature stays between 100 K and 300 K,
and pressure and density are positive. -/
theorem C44_higher_is_thinner (α : ℝ) (h0 : 0 ≤ α) (h1 : α ≤ 1) (h h' : ℝ) (v v' : AtmVals)
    (hv : atHeight α h = .ok v) (hv' : atHeight α h' = .ok v') (hh : h < h') :
    v'.pressure < v.pressure ∧ v'.density < v.density := by
  obtain ⟨i, hi, ha, hb, rfl⟩ := atHeight_ok hv
  obtain ⟨j, hj, ha', hb', rfl⟩ := atHeight_ok hv'
  constructor
  · refine glue_strictAnti hTrans (layerP α) 7 (fun i hi => hTrans_lt hi) ?_ ?_ hi hj ⟨ha, hb⟩ ⟨ha', hb'⟩ hh
    · intro i hi x y hx hy hxy
      exact layerP_strictAnti h0 h1 hi
        (by linarith [(layerT_pos h0 h1 hi hx (by linarith)).1])
        (by linarith [(layerT_pos h0 h1 hi (h := y) (by linarith) hy).1]) hxy
    · intro i hi
      rw [layerP_end, layerP_start h0 h1 hi]
  · exact glue_strictAnti hTrans (layerD α) 7 (fun i hi => hTrans_lt hi)
      (fun i hi x y hx hy hxy => layerD_strictAnti h0 h1 hi hx hy hxy)
      (fun i hi => layerD_end h0 h1 hi) hi hj ⟨ha, hb⟩ ⟨ha', hb'⟩ hh

/-- C44: never singular. -/
theorem C44_positive (α : ℝ) (h0 : 0 ≤ α) (h1 : α ≤ 1) (h : ℝ) (v : AtmVals)
    (hv : atHeight α h = .ok v) :
    100 < v.temperature ∧ v.temperature ≤ 300 ∧ 0 < v.pressure ∧ 0 < v.density := by
  obtain ⟨i, hi, ha, hb, rfl⟩ := atHeight_ok hv
  have hT := layerT_pos h0 h1 hi ha hb.le
  have hP := layerP_pos h0 h1 hi (pTrans_pos h0 h1 (by omega)) (show 0 < layerT α i h by linarith [hT.1])
  exact ⟨hT.1, hT.2, hP, div_pos hP (mul_pos airRs_pos (by linarith [hT.1]))⟩

/-- C44 in the pressure direction: higher pressure means lower height and denser air. -/
theorem C44_pressure_direction (α : ℝ) (h0 : 0 ≤ α) (h1 : α ≤ 1) (p p' : ℝ) (v v' : AtmVals)
    (hv : atPressure α p = .ok v) (hv' : atPressure α p' = .ok v') (hp : p < p') :
    v'.height < v.height ∧ v.density < v'.density := by
  obtain ⟨e, r⟩ := C43_pressure_roundtrip α h0 h1 p v hv
  obtain ⟨e', r'⟩ := C43_pressure_roundtrip α h0 h1 p' v' hv'
  have hlt : v'.height < v.height := by
    rcases lt_trichotomy v'.height v.height with h | h | h
    · exact h
    · rw [h, r] at r'
      injection r' with r'
      rw [r'] at e; linarith
    · have := (C44_higher_is_thinner α h0 h1 _ _ v v' r r' h).1
      linarith
  exact ⟨hlt, (C44_higher_is_thinner α h0 h1 _ _ v' v r' r hlt).2⟩

/-- C44: pressure, temperature and density are continuous functions of height over the whole range,
so the layers join without jumps. -/
theorem C44_continuous (α : ℝ) (h0 : 0 ≤ α) (h1 : α ≤ 1) (h : ℝ) (v : AtmVals)
    (hv : atHeight α h = .ok v) (ε : ℝ) (hε : 0 < ε) :
    ∃ δ > 0, ∀ h' v', |h' - h| < δ → atHeight α h' = .ok v' →
      |v'.pressure - v.pressure| < ε ∧ |v'.temperature - v.temperature| < ε ∧
      |v'.density - v.density| < ε := by
  obtain ⟨i, hi, ha, hb, rfl⟩ := atHeight_ok hv
  obtain ⟨d1, hd1, k1⟩ := glue_continuous hTrans (layerP α) 7 (fun i hi => hTrans_lt hi)
    (fun i hi x hx hy => layerP_continuousAt h0 h1 hi hx hy)
    (fun i hi => by rw [layerP_end, layerP_start h0 h1 hi]) hi ⟨ha, hb⟩ hε
  obtain ⟨d2, hd2, k2⟩ := glue_continuous hTrans (layerT α) 7 (fun i hi => hTrans_lt hi)
    (fun i hi x hx hy => (layerT_continuous α i).continuousAt)
    (fun i hi => by rw [layerT_end, layerT_start]) hi ⟨ha, hb⟩ hε
  obtain ⟨d3, hd3, k3⟩ := glue_continuous hTrans (layerD α) 7 (fun i hi => hTrans_lt hi)
    (fun i hi x hx hy => layerD_continuousAt h0 h1 hi hx hy)
    (fun i hi => layerD_end h0 h1 hi) hi ⟨ha, hb⟩ hε
  refine ⟨min d1 (min d2 d3), lt_min hd1 (lt_min hd2 hd3), ?_⟩
  intro h' v' hd hv'
  obtain ⟨j, hj, ha', hb', rfl⟩ := atHeight_ok hv'
  simp only [lt_min_iff] at hd
  exact ⟨k1 j hj h' ha' hb' hd.1, k2 j hj h' ha' hb' hd.2.1, k3 j hj h' ha' hb' hd.2.2⟩

example : ∃ v v', atHeight 0.5 15240 = .ok v ∧ atHeight 0.5 40000 = .ok v' ∧ (15240 : ℝ) < 40000 :=
  ⟨_, _, atHeight_eq (i := 0) (by norm_num) (by norm_num [hTrans]) (by norm_num [hTrans]),
    atHeight_eq (i := 3) (by norm_num) (by norm_num [hTrans]) (by norm_num [hTrans]), by norm_num⟩

/-- C45: `at_height` answers exactly for heights in `[-610 m, 85 km)` and raises the assertion error
otherwise. -/
theorem C45_height_domain (α : ℝ) (h : ℝ) :
    ((∃ v, atHeight α h = .ok v) ↔ -610 ≤ h ∧ h < 85000) ∧
    (¬ (-610 ≤ h ∧ h < 85000) → atHeight α h = .error .assertion) := by
  have hH0 : hTrans 0 = -610 := rfl
  have hH7 : hTrans 7 = 85000 := rfl
  constructor
  · constructor
    · rintro ⟨v, hv⟩
      unfold atHeight at hv
      rw [hH0, hH7] at hv
      split_ifs at hv with c1 c2
      exact ⟨c1, c2⟩
    · rintro ⟨ha, hb⟩
      obtain ⟨i, hi, _, h1, h2⟩ := find_layer_of_bounds hTrans 7 h (by rw [hH0]; exact ha) (by rw [hH7]; exact hb)
      exact ⟨_, atHeight_eq hi h1 h2⟩
  · intro hn
    unfold atHeight
    rw [hH0, hH7]
    by_cases c1 : h ≥ -610
    · by_cases c2 : h < 85000
      · exact absurd ⟨c1, c2⟩ hn
      · rw [if_neg (not_not.2 c1), if_pos c2]
    · rw [if_pos c1]

/-- C45: `at_pressure` answers exactly for the pressures that occur at some valid height; the valid
pressures include everything from 100 Pa to the ground value 108870.8213 Pa and nothing above; all
other queries raise the assertion error. -/
theorem C45_pressure_domain (α : ℝ) (h0 : 0 ≤ α) (h1 : α ≤ 1) (p : ℝ) :
    ((∃ v, atPressure α p = .ok v) ↔ ∃ h v, atHeight α h = .ok v ∧ v.pressure = p) ∧
    ((¬ ∃ v, atPressure α p = .ok v) → atPressure α p = .error .assertion) ∧
    (100 ≤ p → ((∃ v, atPressure α p = .ok v) ↔ p ≤ 108870.8213)) := by
  refine ⟨⟨?_, ?_⟩, ?_, ?_⟩
  · rintro ⟨v, hv⟩
    obtain ⟨e, r⟩ := C43_pressure_roundtrip α h0 h1 p v hv
    exact ⟨_, v, r, e⟩
  · rintro ⟨h, v, hv, rfl⟩
    exact ⟨v, (C43_height_roundtrip α h0 h1 h v hv).2⟩
  · intro hn
    by_cases c1 : p > pTrans α 7
    · by_cases c2 : p ≤ pTrans α 0
      · exfalso
        obtain ⟨i, hi, hf, hlo, hhi⟩ := find_layer_of_bounds (fun i => - pTrans α i) 7 (-p)
          (by simpa using c2) (by simpa using c1)
        exact hn ⟨_, atPressure_eq h0 h1 hi (by simpa using hhi) (by simpa using hlo)⟩
      · unfold atPressure; rw [if_neg (by simpa using c1), if_pos c2]
    · unfold atPressure; rw [if_pos c1]
  · intro hp
    have htop := top_pressure h0 h1
    constructor
    · rintro ⟨v, hv⟩
      obtain ⟨i, hi, hlo, hhi, _⟩ := atPressure_ok hv
      exact hhi.trans (pTrans_antitone h0 h1 (Nat.zero_le i) (by omega))
    · intro hle
      obtain ⟨i, hi, hf, hlo, hhi⟩ := find_layer_of_bounds (fun i => - pTrans α i) 7 (-p)
          (by simpa [pTrans] using hle) (by simp; linarith)
      exact ⟨_, atPressure_eq h0 h1 hi (by simpa using hhi) (by simpa using hlo)⟩

/-- C46: the initial pressure sampled for a flight (with the flight's own atmosphere `α`, unit draw
`u`) is at least 6500 Pa, and the atmosphere places it strictly above 50,000 ft (15,240 m). In
particular the sampling interval is never empty. -/
theorem C46_start_above_floor (α : ℝ) (h0 : 0 ≤ α) (h1 : α ≤ 1) (u : ℝ) (hu0 : 0 ≤ u) (hu1 : u < 1) :
    ∃ p v, samplePressure u (some α) = .ok p ∧ 6500 ≤ p ∧ atPressure α p = .ok v ∧ 15240 < v.height := by
  have hm : minAltitude = 15240 := by norm_num [minAltitude]
  have hfl := floor_pressure h0 h1
  have hat := atHeight_eq (α := α) (h := 15240) (i := 0) (by norm_num) (by norm_num [hTrans]) (by norm_num [hTrans])
  have hlt : uniform 6500 (layerP α 0 15240) u < layerP α 0 15240 := by unfold uniform; nlinarith
  have hge : 6500 ≤ uniform 6500 (layerP α 0 15240) u := by unfold uniform; nlinarith
  have hle : layerP α 0 15240 ≤ 108870.8213 :=
    ((C45_pressure_domain α h0 h1 _).2.2 (by linarith)).1 ⟨_, (C43_height_roundtrip α h0 h1 _ _ hat).2⟩
  obtain ⟨v, hv⟩ := ((C45_pressure_domain α h0 h1 (uniform 6500 (layerP α 0 15240) u)).2.2 (by linarith)).2
    (by linarith)
  refine ⟨_, v, ?_, hge, hv, ?_⟩
  · unfold samplePressure
    simp only [hm, hat]
  · have := (C44_pressure_direction α h0 h1 _ _ v _ hv (C43_height_roundtrip α h0 h1 _ _ hat).2 hlt).1
    exact this

/-- C46, without an atmosphere argument: the "conservative" default range `[6500, 11400)` also lies
strictly above 50,000 ft, whatever atmosphere `α` the flight turns out to have. -/
theorem C46_default_range_conservative (α : ℝ) (h0 : 0 ≤ α) (h1 : α ≤ 1) (u : ℝ) (hu0 : 0 ≤ u)
    (hu1 : u < 1) :
    ∃ p v, samplePressure u none = .ok p ∧ 6500 ≤ p ∧ atPressure α p = .ok v ∧ 15240 < v.height := by
  have hfl := floor_pressure h0 h1
  have hat := atHeight_eq (α := α) (h := 15240) (i := 0) (by norm_num) (by norm_num [hTrans]) (by norm_num [hTrans])
  have hlt : uniform 6500 11400 u < layerP α 0 15240 := by unfold uniform; nlinarith
  have hge : 6500 ≤ uniform 6500 11400 u := by unfold uniform; nlinarith
  have hle : layerP α 0 15240 ≤ 108870.8213 :=
    ((C45_pressure_domain α h0 h1 _).2.2 (by linarith)).1 ⟨_, (C43_height_roundtrip α h0 h1 _ _ hat).2⟩
  obtain ⟨v, hv⟩ := ((C45_pressure_domain α h0 h1 (uniform 6500 11400 u)).2.2 (by linarith)).2
    (by linarith)
  exact ⟨_, v, rfl, hge, hv,
    (C44_pressure_direction α h0 h1 _ _ v _ hv (C43_height_roundtrip α h0 h1 _ _ hat).2 hlt).1⟩

example : (0 : ℝ) ≤ 0.3 ∧ (0.3 : ℝ) ≤ 1 ∧ (0 : ℝ) ≤ 0.99 ∧ (0.99 : ℝ) < 1 := by norm_num

/-- C78: sampled start coordinates. -/
theorem C78_location (u1 u2 : ℝ) (h1 : 0 ≤ u1 ∧ u1 < 1) (h2 : 0 ≤ u2 ∧ u2 < 1) :
    -10 ≤ (sampleLocation u1 u2).1 ∧ (sampleLocation u1 u2).1 < 10 ∧
    -175 ≤ (sampleLocation u1 u2).2 ∧ (sampleLocation u1 u2).2 < 175 := by
  unfold sampleLocation uniform
  refine ⟨?_, ?_, ?_, ?_⟩ <;> simp only <;> linarith [h1.1, h1.2, h2.1, h2.2]

/-- C78: the sampled time lies in the documented interval and is a whole number of seconds after its
beginning, for every index the random choice may return. -/
theorem C78_time (b e : ℤ) (k : ℕ) (hk : (k : ℤ) < sampleTimeCount b e) (hbe : b ≤ e) :
    b ≤ sampleTime b k ∧ sampleTime b k < e := by
  unfold sampleTimeCount at hk
  unfold sampleTime usPerSec at *
  rw [Int.tdiv_eq_ediv_of_nonneg (by omega)] at hk
  omega

example : ((5 : ℕ) : ℤ) < sampleTimeCount 0 (10 * usPerSec) := by decide

/-- C78: upwelling infrared lies in `[225, 315)` for every sequence of draws below 1 on which the
rejection loop stops. -/
theorem C78_upwelling (ds : List ℝ) (hd : ∀ d ∈ ds, d < 1) (w : ℝ) (h : sampleUpwelling ds = some w) :
    225 ≤ w ∧ w < 315 := by
  induction ds with
  | nil => simp [sampleUpwelling] at h
  | cons d ds ih =>
    unfold sampleUpwelling at h
    split_ifs at h with c
    · simp only [Option.some.injEq] at h
      have := hd d (by simp)
      constructor <;> linarith
    · exact ih (fun x hx => hd x (by simp [hx])) h

example : sampleUpwelling [0.1, 0.8] = some (315 * 0.8) := by
  norm_num [sampleUpwelling]

end BLE
