import Verif.Model.Geometry
import Mathlib.Analysis.SpecialFunctions.Trigonometric.Inverse
import Mathlib.Tactic.Linarith
import Mathlib.Tactic.FieldSimp
import Mathlib.Tactic.LinearCombination

/-!
# C53: offsets on the globe
-/

namespace BLE

/-- Position on the unit sphere. -/
noncomputable def Spec.position (l : LatLng) : ℝ × ℝ × ℝ :=
  (Real.cos l.lat * Real.cos l.lng, Real.cos l.lat * Real.sin l.lng, Real.sin l.lat)

/-- Unit vector pointing north at a place. -/
noncomputable def Spec.north (l : LatLng) : ℝ × ℝ × ℝ :=
  (-Real.sin l.lat * Real.cos l.lng, -Real.sin l.lat * Real.sin l.lng, Real.cos l.lat)

/-- Unit vector pointing east at a place. -/
noncomputable def Spec.east (l : LatLng) : ℝ × ℝ × ℝ := (-Real.sin l.lng, Real.cos l.lng, 0)

/-- Inner product. -/
def Spec.dot (a b : ℝ × ℝ × ℝ) : ℝ := a.1 * b.1 + a.2.1 * b.2.1 + a.2.2 * b.2.2

theorem relDist_sq (x y : ℝ) : relativeDistance x y ^ 2 = x ^ 2 + y ^ 2 :=
  Real.sq_sqrt (by positivity)

/-- The heading's cosine and sine, scaled by the distance, are the offsets. -/
theorem heading_spec (x y : ℝ) :
    relativeDistance x y * Real.cos (atan2 (x / 1000) (y / 1000)) = y ∧
    relativeDistance x y * Real.sin (atan2 (x / 1000) (y / 1000)) = x := by
  have hn : ‖(⟨y / 1000, x / 1000⟩ : ℂ)‖ = relativeDistance x y / 1000 := by
    rw [Complex.norm_def, Complex.normSq_mk]
    unfold relativeDistance
    rw [show y / 1000 * (y / 1000) + x / 1000 * (x / 1000) = (x ^ 2 + y ^ 2) / 1000 ^ 2 by ring,
      Real.sqrt_div (by positivity), Real.sqrt_sq (by norm_num)]
  unfold atan2
  by_cases h0 : relativeDistance x y = 0
  · have hs := relDist_sq x y
    rw [h0] at hs ⊢
    have hx : x = 0 := by nlinarith [sq_nonneg x, sq_nonneg y]
    have hy : y = 0 := by nlinarith [sq_nonneg x, sq_nonneg y]
    simp [hx, hy]
  · have hz : (⟨y / 1000, x / 1000⟩ : ℂ) ≠ 0 := by
      intro h; rw [h, norm_zero] at hn; apply h0; linarith
    rw [Complex.cos_arg hz, Complex.sin_arg, hn]
    constructor <;> field_simp

theorem sinLat_range (θ φ h : ℝ) :
    1 - (Real.cos θ * Real.sin φ + Real.sin θ * Real.cos φ * Real.cos h) ^ 2 =
      (Real.cos θ * Real.cos φ - Real.sin θ * Real.sin φ * Real.cos h) ^ 2 + (Real.sin θ * Real.sin h) ^ 2 := by
  have h1 := Real.sin_sq_add_cos_sq θ
  have h2 := Real.sin_sq_add_cos_sq φ
  have h3 := Real.sin_sq_add_cos_sq h
  have e1 : Real.sin h ^ 2 = 1 - Real.cos h ^ 2 := by linarith
  have e2 : Real.sin φ ^ 2 = 1 - Real.cos φ ^ 2 := by linarith
  have e3 : Real.sin θ ^ 2 = 1 - Real.cos θ ^ 2 := by linarith
  rw [mul_pow (Real.sin θ) (Real.sin h), e1]
  ring_nf
  rw [e2, e3]; ring

/-- The sine of the new latitude, as the code computes it. -/
noncomputable def Spec.sinNewLat (c : LatLng) (x y : ℝ) : ℝ :=
  let θ := relativeDistance x y / earthRadius
  let h := atan2 (x / 1000) (y / 1000)
  Real.cos θ * Real.sin c.lat + Real.sin θ * Real.cos c.lat * Real.cos h

/-- The argument of the arcsine never leaves [-1,1], for any centre and offset. -/
theorem C53_arcsine_argument (c : LatLng) (x y : ℝ) :
    -1 ≤ Spec.sinNewLat c x y ∧ Spec.sinNewLat c x y ≤ 1 := by
  have := sinLat_range (relativeDistance x y / earthRadius) c.lat (atan2 (x / 1000) (y / 1000))
  constructor <;> (unfold Spec.sinNewLat; simp only; nlinarith [sq_nonneg (Real.cos (relativeDistance x y / earthRadius) * Real.cos c.lat - Real.sin (relativeDistance x y / earthRadius) * Real.sin c.lat * Real.cos (atan2 (x / 1000) (y / 1000))), sq_nonneg (Real.sin (relativeDistance x y / earthRadius) * Real.sin (atan2 (x / 1000) (y / 1000)))])

theorem normalized_trig (l : LatLng) (h0 : -(Real.pi / 2) ≤ l.lat) (h1 : l.lat ≤ Real.pi / 2) :
    l.normalized.lat = l.lat ∧ Real.cos l.normalized.lng = Real.cos l.lng ∧
      Real.sin l.normalized.lng = Real.sin l.lng := by
  refine ⟨?_, ?_, ?_⟩
  · simp only [LatLng.normalized]
    rw [min_eq_right h1, max_eq_right (by linarith)]
  · simp only [LatLng.normalized]
    rw [show (2 * Real.pi * (round (l.lng / (2 * Real.pi)) : ℝ)) =
      (round (l.lng / (2 * Real.pi)) : ℤ) * (2 * Real.pi) by ring]
    exact Real.cos_sub_int_mul_two_pi _ _
  · simp only [LatLng.normalized]
    rw [show (2 * Real.pi * (round (l.lng / (2 * Real.pi)) : ℝ)) =
      (round (l.lng / (2 * Real.pi)) : ℤ) * (2 * Real.pi) by ring]
    exact Real.sin_sub_int_mul_two_pi _ _

/-- The computed place, as a latitude and an unnormalised longitude. -/
theorem latlngFromOffset_trig (c : LatLng) (x y : ℝ) :
    ∃ dl : ℝ, (latlngFromOffset c x y).lat = Real.arcsin (Spec.sinNewLat c x y) ∧
      dl = atan2 (Real.sin (relativeDistance x y / earthRadius) * Real.cos c.lat *
          Real.sin (atan2 (x / 1000) (y / 1000)))
        (Real.cos (relativeDistance x y / earthRadius) - Real.sin c.lat * Spec.sinNewLat c x y) ∧
      Real.cos (latlngFromOffset c x y).lng = Real.cos (c.lng + dl) ∧
      Real.sin (latlngFromOffset c x y).lng = Real.sin (c.lng + dl) := by
  have a0 := Real.neg_pi_div_two_le_arcsin (Spec.sinNewLat c x y)
  have a1 := Real.arcsin_le_pi_div_two (Spec.sinNewLat c x y)
  have e : min (max (Real.arcsin (Spec.sinNewLat c x y)) (-Real.pi / 2)) (Real.pi / 2) =
      Real.arcsin (Spec.sinNewLat c x y) := by
    rw [max_eq_left (by linarith), min_eq_left a1]
  refine ⟨_, ?_, rfl, ?_, ?_⟩
  · have := (normalized_trig ⟨Real.arcsin (Spec.sinNewLat c x y), c.lng +
      atan2 (Real.sin (relativeDistance x y / earthRadius) * Real.cos c.lat *
          Real.sin (atan2 (x / 1000) (y / 1000)))
        (Real.cos (relativeDistance x y / earthRadius) - Real.sin c.lat * Spec.sinNewLat c x y)⟩ a0 a1).1
    simp only at this
    rw [← this, ← e]; rfl
  · have := (normalized_trig ⟨Real.arcsin (Spec.sinNewLat c x y), c.lng +
      atan2 (Real.sin (relativeDistance x y / earthRadius) * Real.cos c.lat *
          Real.sin (atan2 (x / 1000) (y / 1000)))
        (Real.cos (relativeDistance x y / earthRadius) - Real.sin c.lat * Spec.sinNewLat c x y)⟩ a0 a1).2.1
    rw [← this]; rfl
  · have := (normalized_trig ⟨Real.arcsin (Spec.sinNewLat c x y), c.lng +
      atan2 (Real.sin (relativeDistance x y / earthRadius) * Real.cos c.lat *
          Real.sin (atan2 (x / 1000) (y / 1000)))
        (Real.cos (relativeDistance x y / earthRadius) - Real.sin c.lat * Spec.sinNewLat c x y)⟩ a0 a1).2.2
    rw [← this]; rfl

theorem polar {a : ℝ} (ha : 0 < a) (m k : ℝ) :
    Real.sqrt (m ^ 2 + k ^ 2) * Real.cos (atan2 (a * k) (a * m)) = m ∧
      Real.sqrt (m ^ 2 + k ^ 2) * Real.sin (atan2 (a * k) (a * m)) = k := by
  have hnorm : ‖(⟨a * m, a * k⟩ : ℂ)‖ = a * Real.sqrt (m ^ 2 + k ^ 2) := by
    rw [Complex.norm_def, Complex.normSq_mk]
    rw [show a * m * (a * m) + a * k * (a * k) = a ^ 2 * (m ^ 2 + k ^ 2) by ring,
      Real.sqrt_mul (by positivity), Real.sqrt_sq ha.le]
  by_cases hz : m ^ 2 + k ^ 2 = 0
  · have h1 : m = 0 := by nlinarith [sq_nonneg m, sq_nonneg k]
    have h2 : k = 0 := by nlinarith [sq_nonneg m, sq_nonneg k]
    rw [hz, h1, h2]; simp
  · have hpos : 0 < Real.sqrt (m ^ 2 + k ^ 2) :=
      Real.sqrt_pos.2 (lt_of_le_of_ne (by positivity) (Ne.symm hz))
    have hne : (⟨a * m, a * k⟩ : ℂ) ≠ 0 := by
      intro he; rw [he, norm_zero] at hnorm
      exact (mul_pos ha hpos).ne hnorm
    unfold atan2
    rw [Complex.cos_arg hne, Complex.sin_arg, hnorm]
    constructor <;> field_simp

/-- Away from the poles: the new position is reached from the centre by travelling the angle
`distance / R` along the great circle with bearing `atan2(x, y)` — `y` metres north, `x` metres east.
With `d` the offset length, `d · (bearing direction) = y·north + x·east`. -/
theorem C53_destination (c : LatLng) (x y : ℝ) (h0 : -(Real.pi / 2) < c.lat) (h1 : c.lat < Real.pi / 2) :
    let d := Real.sqrt (x ^ 2 + y ^ 2)
    let θ := d / 6371000
    ∃ b : ℝ × ℝ × ℝ, d • b = y • Spec.north c + x • Spec.east c ∧
      Spec.position (latlngFromOffset c x y) = Real.cos θ • Spec.position c + Real.sin θ • b := by
  intro d θ
  have hθ : θ = relativeDistance x y / earthRadius := by
    simp only [θ, d, relativeDistance, earthRadius]; norm_num
  obtain ⟨hh1, hh2⟩ := heading_spec x y
  refine ⟨Real.cos (atan2 (x / 1000) (y / 1000)) • Spec.north c +
    Real.sin (atan2 (x / 1000) (y / 1000)) • Spec.east c, ?_, ?_⟩
  · rw [smul_add, smul_smul, smul_smul]
    rw [show d = relativeDistance x y from rfl, hh1, hh2]
  obtain ⟨dl, hlat, hdl, hcos, hsin⟩ := latlngFromOffset_trig c x y
  obtain ⟨r0, r1⟩ := C53_arcsine_argument c x y
  have hr := sinLat_range (relativeDistance x y / earthRadius) c.lat (atan2 (x / 1000) (y / 1000))
  rw [← hθ] at hdl hr
  have hs : Spec.sinNewLat c x y = Real.cos θ * Real.sin c.lat +
      Real.sin θ * Real.cos c.lat * Real.cos (atan2 (x / 1000) (y / 1000)) := by rw [hθ]; rfl
  generalize atan2 (x / 1000) (y / 1000) = h at *
  have hcφ : 0 < Real.cos c.lat := Real.cos_pos_of_mem_Ioo ⟨h0, h1⟩
  have hslat : Real.sin (latlngFromOffset c x y).lat = Spec.sinNewLat c x y := by
    rw [hlat, Real.sin_arcsin r0 r1]
  have hclat : Real.cos (latlngFromOffset c x y).lat = Real.sqrt ((Real.cos θ * Real.cos c.lat -
      Real.sin θ * Real.sin c.lat * Real.cos h) ^ 2 + (Real.sin θ * Real.sin h) ^ 2) := by
    rw [hlat, Real.cos_arcsin, hs, hr]
  set m := Real.cos θ * Real.cos c.lat - Real.sin θ * Real.sin c.lat * Real.cos h with hm
  set k := Real.sin θ * Real.sin h with hk
  have hA : Real.sin θ * Real.cos c.lat * Real.sin h = Real.cos c.lat * k := by rw [hk]; ring
  have hB : Real.cos θ - Real.sin c.lat * Spec.sinNewLat c x y = Real.cos c.lat * m := by
    rw [hs, hm]
    have := Real.sin_sq_add_cos_sq c.lat
    linear_combination (-Real.cos θ) * this
  rw [hA, hB] at hdl
  have key := polar hcφ m k
  rw [← hdl] at key
  obtain ⟨k1, k2⟩ := key
  rw [← hclat] at k1 k2
  simp only [Spec.position, Spec.north, Spec.east, Prod.smul_mk, Prod.mk_add_mk, smul_eq_mul, Prod.mk.injEq]
  rw [hcos, hsin, hslat, Real.cos_add, Real.sin_add, hs]
  refine ⟨?_, ?_, ?_⟩
  · linear_combination Real.cos c.lng * k1 - Real.sin c.lng * k2
  · linear_combination Real.sin c.lng * k1 + Real.cos c.lng * k2
  · ring

/-- Great-circle distance: away from the poles the central angle between the centre and the result is
`distance / R` (for offsets up to half the circumference). -/
theorem C53_distance (c : LatLng) (x y : ℝ) (h0 : -(Real.pi / 2) < c.lat) (h1 : c.lat < Real.pi / 2)
    (hd : Real.sqrt (x ^ 2 + y ^ 2) ≤ 6371000 * Real.pi) :
    6371000 * Real.arccos (Spec.dot (Spec.position c) (Spec.position (latlngFromOffset c x y))) =
      Real.sqrt (x ^ 2 + y ^ 2) := by
  obtain ⟨b, hb, hp⟩ := C53_destination c x y h0 h1
  have hd0 := Real.sqrt_nonneg (x ^ 2 + y ^ 2)
  have horth : Real.sqrt (x ^ 2 + y ^ 2) * Spec.dot (Spec.position c) b = 0 := by
    have e : Real.sqrt (x ^ 2 + y ^ 2) * Spec.dot (Spec.position c) b =
        Spec.dot (Spec.position c) (Real.sqrt (x ^ 2 + y ^ 2) • b) := by
      simp only [Spec.dot, Prod.smul_fst, Prod.smul_snd, smul_eq_mul]; ring
    rw [e, hb]
    simp only [Spec.dot, Spec.position, Spec.north, Spec.east, Prod.smul_mk, Prod.mk_add_mk, smul_eq_mul]
    have := Real.sin_sq_add_cos_sq c.lng
    linear_combination (-y * Real.cos c.lat * Real.sin c.lat) * this
  have hpp : Spec.dot (Spec.position c) (Spec.position c) = 1 := by
    simp only [Spec.dot, Spec.position]
    have a := Real.sin_sq_add_cos_sq c.lng
    have b := Real.sin_sq_add_cos_sq c.lat
    linear_combination (Real.cos c.lat ^ 2) * a + b
  have hsum : Spec.dot (Spec.position c) (Spec.position (latlngFromOffset c x y)) =
      Real.cos (Real.sqrt (x ^ 2 + y ^ 2) / 6371000) +
        Real.sin (Real.sqrt (x ^ 2 + y ^ 2) / 6371000) * Spec.dot (Spec.position c) b := by
    have e : Spec.dot (Spec.position c) (Spec.position (latlngFromOffset c x y)) =
      Real.cos (Real.sqrt (x ^ 2 + y ^ 2) / 6371000) * Spec.dot (Spec.position c) (Spec.position c) +
        Real.sin (Real.sqrt (x ^ 2 + y ^ 2) / 6371000) * Spec.dot (Spec.position c) b := by
      rw [hp]
      simp only [Spec.dot, Prod.fst_add, Prod.snd_add, Prod.smul_fst, Prod.smul_snd, smul_eq_mul]; ring
    rw [e, hpp, mul_one]
  have hz : Real.sin (Real.sqrt (x ^ 2 + y ^ 2) / 6371000) * Spec.dot (Spec.position c) b = 0 := by
    rcases mul_eq_zero.1 horth with h | h
    · rw [h]; simp
    · rw [h, mul_zero]
  rw [hsum, hz, add_zero, Real.arccos_cos (by positivity) (by
    rw [div_le_iff₀ (by norm_num)]; linarith)]
  field_simp

/-- Zero offset: back at the centre (for a centre with normalised coordinates away from the
antimeridian, where `-π` and `π` name the same place). -/
theorem C53_zero_offset (c : LatLng) (h0 : -(Real.pi / 2) ≤ c.lat) (h1 : c.lat ≤ Real.pi / 2)
    (h2 : -Real.pi < c.lng) (h3 : c.lng < Real.pi) : latlngFromOffset c 0 0 = c := by
  have hrd : relativeDistance 0 0 = 0 := by simp [relativeDistance]
  have hs : Spec.sinNewLat c 0 0 = Real.sin c.lat := by simp [Spec.sinNewLat, hrd]
  have hdl : atan2 (Real.sin (relativeDistance 0 0 / earthRadius) * Real.cos c.lat *
          Real.sin (atan2 (0 / 1000) (0 / 1000)))
        (Real.cos (relativeDistance 0 0 / earthRadius) - Real.sin c.lat * Spec.sinNewLat c 0 0) = 0 := by
    rw [hs, hrd]
    simp only [zero_div, Real.sin_zero, zero_mul, Real.cos_zero, atan2]
    rw [Complex.arg_eq_zero_iff]
    simp only [and_true]
    nlinarith [Real.sin_sq_add_cos_sq c.lat, sq_nonneg (Real.cos c.lat)]
  have e : latlngFromOffset c 0 0 = LatLng.normalized ⟨min (max (Real.arcsin (Spec.sinNewLat c 0 0)) (-Real.pi / 2)) (Real.pi / 2),
      c.lng + atan2 (Real.sin (relativeDistance 0 0 / earthRadius) *
          Real.cos c.lat * Real.sin (atan2 (0 / 1000) (0 / 1000)))
        (Real.cos (relativeDistance 0 0 / earthRadius) - Real.sin c.lat * Spec.sinNewLat c 0 0)⟩ := rfl
  rw [e, hdl, hs, Real.arcsin_sin h0 h1, max_eq_left (by linarith), min_eq_left h1]
  have hpi := Real.pi_pos
  have hr : round ((c.lng + 0) / (2 * Real.pi)) = 0 := by
    rw [round_eq, Int.floor_eq_zero_iff]
    constructor
    · have : -(1 / 2) ≤ (c.lng + 0) / (2 * Real.pi) := by rw [le_div_iff₀ (by positivity)]; linarith
      linarith
    · have : (c.lng + 0) / (2 * Real.pi) < 1 / 2 := by rw [div_lt_iff₀ (by positivity)]; linarith
      linarith
  cases c
  simp only [LatLng.normalized, hr] at *
  rw [min_eq_right h1, max_eq_right (by linarith)]
  simp

/-- At the north pole the distance is still right, but the requested bearing is ignored: the result
always lies on the centre's own meridian. -/
theorem C53_pole_bearing_ignored (l x y : ℝ) :
    Real.sin (latlngFromOffset ⟨Real.pi / 2, l⟩ x y).lat = Real.cos (Real.sqrt (x ^ 2 + y ^ 2) / 6371000) ∧
    Real.cos (latlngFromOffset ⟨Real.pi / 2, l⟩ x y).lng = Real.cos l ∧
    Real.sin (latlngFromOffset ⟨Real.pi / 2, l⟩ x y).lng = Real.sin l := by
  obtain ⟨dl, hlat, hdl, hcos, hsin⟩ := latlngFromOffset_trig ⟨Real.pi / 2, l⟩ x y
  have hs : Spec.sinNewLat ⟨Real.pi / 2, l⟩ x y = Real.cos (Real.sqrt (x ^ 2 + y ^ 2) / 6371000) := by
    simp only [Spec.sinNewLat, Real.sin_pi_div_two, Real.cos_pi_div_two, relativeDistance, earthRadius]
    norm_num
  have hd0 : dl = 0 := by
    rw [hdl, hs]
    simp only [Real.sin_pi_div_two, Real.cos_pi_div_two, relativeDistance, earthRadius]
    norm_num [atan2]
    exact Complex.arg_zero
  rw [hlat, hcos, hsin, hd0, hs, Real.sin_arcsin (Real.neg_one_le_cos _) (Real.cos_le_one _)]
  simp

/-- A non-trivial instance: from (0°, 0°), 1000 km due east. The latitude stays 0 and the sine of the
longitude is that of the travelled angle. -/
example : Real.sin (latlngFromOffset ⟨0, 0⟩ 1000000 0).lat = 0 ∧
    Real.cos (latlngFromOffset ⟨0, 0⟩ 1000000 0).lat * Real.sin (latlngFromOffset ⟨0, 0⟩ 1000000 0).lng =
      Real.sin (1000 / 6371) := by
  have hpi := Real.pi_pos
  obtain ⟨b, hb, hp⟩ := C53_destination ⟨0, 0⟩ 1000000 0 (by simp [hpi]) (by simp [hpi])
  have hd : Real.sqrt ((1000000 : ℝ) ^ 2 + 0 ^ 2) = 1000000 := by
    rw [zero_pow (by norm_num), add_zero]; exact Real.sqrt_sq (by norm_num)
  obtain ⟨b1, b2, b3⟩ := b
  simp only [hd, Spec.position, Spec.north, Spec.east, Prod.smul_mk, Prod.mk_add_mk, smul_eq_mul,
    Prod.mk.injEq, Real.sin_zero, Real.cos_zero] at hb hp
  have e2 : b2 = 1 := by linarith [hb.2.1]
  have e3 : b3 = 0 := by linarith [hb.2.2]
  rw [hp.2.2, hp.2.1, e2, e3]
  constructor
  · simp
  · norm_num

end BLE
