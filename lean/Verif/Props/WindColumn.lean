import Mathlib.Analysis.Convex.Topology
import Mathlib.Analysis.LocallyConvex.Separation
import Mathlib.LinearAlgebra.AffineSpace.FiniteDimensional
import Mathlib.Tactic.Linarith
import Mathlib.Tactic.Ring
import Verif.Model.WindColumn

/-!
# C110, C111: station-keeping winds and wind speeds (`utils/wind.py`)
-/

namespace BLE

/-- What SciPy documents: both functions fail (`QhullError`, a `RuntimeError`) exactly if the (one or more) points all lie on one line;
otherwise `hull` returns indices of points with the same convex hull, and `inside` tells whether a point is in the convex
hull. -/
structure Spec.QhullOk (Q : Qhull) : Prop where
  flat : ∀ ps, ps ≠ [] → Collinear ℝ {x | x ∈ ps} → Q.hull ps = .error .runtime
  hull : ∀ ps, ¬ Collinear ℝ {x | x ∈ ps} → ∃ is, Q.hull ps = .ok is ∧ (∀ i ∈ is, i < ps.length) ∧
    convexHull ℝ {x | x ∈ is.map fun i => ps.getD i (0, 0)} = convexHull ℝ {x | x ∈ ps}
  inside : ∀ ps x, ¬ Collinear ℝ {x | x ∈ ps} → ∃ b, Q.inside ps x = .ok b ∧ (b = true ↔ x ∈ convexHull ℝ {x | x ∈ ps})

theorem collinear_hull {s t : Set (ℝ × ℝ)} (h : convexHull ℝ s = convexHull ℝ t) (hs : Collinear ℝ s) : Collinear ℝ t := by
  have : vectorSpan ℝ t = vectorSpan ℝ s := by
    rw [← direction_affineSpan, ← direction_affineSpan, ← affineSpan_convexHull t, ← h, affineSpan_convexHull]
  unfold Collinear at *
  rw [this]
  exact hs

theorem isStationKeeping_hull (Q : Qhull) (hQ : Spec.QhullOk Q) (column : List (ℝ × ℝ))
    (hc : ¬ Collinear ℝ {x | x ∈ column}) :
    ∃ b, isStationKeeping Q column = .ok b ∧ (b = true ↔ (0, 0) ∈ convexHull ℝ {x | x ∈ column}) := by
  obtain ⟨is, h1, -, h3⟩ := hQ.hull column hc
  obtain ⟨b, h4, h5⟩ := hQ.inside (is.map fun i => column.getD i (0, 0)) (0, 0) fun h => hc (collinear_hull h3 h)
  refine ⟨b, ?_, by rw [h5, h3]⟩
  unfold isStationKeeping
  rw [h1]
  exact h4

/-- The hull of a column is the set of its time-averaged winds. -/
theorem hull_shares (column : List (ℝ × ℝ)) (x : ℝ × ℝ) :
    x ∈ convexHull ℝ {y | y ∈ column} ↔
    ∃ share : Fin column.length → ℝ, (∀ i, 0 ≤ share i) ∧ ∑ i, share i = 1 ∧
      ∑ i, share i * (column[i]).1 = x.1 ∧ ∑ i, share i * (column[i]).2 = x.2 := by
  constructor
  · let T : Set (ℝ × ℝ) := {x | ∃ share : Fin column.length → ℝ, (∀ i, 0 ≤ share i) ∧ ∑ i, share i = 1 ∧
      ∑ i, share i * (column[i]).1 = x.1 ∧ ∑ i, share i * (column[i]).2 = x.2}
    have hT : Convex ℝ T := by
      rintro x ⟨f, f0, f1, f2, f3⟩ y ⟨g, g0, g1, g2, g3⟩ a b ha hb hab
      refine ⟨fun i => a * f i + b * g i, fun i => by have := f0 i; have := g0 i; positivity, ?_, ?_, ?_⟩
      · rw [Finset.sum_add_distrib, ← Finset.mul_sum, ← Finset.mul_sum, f1, g1]; linarith
      · simp only [add_mul, mul_assoc]
        rw [Finset.sum_add_distrib, ← Finset.mul_sum, ← Finset.mul_sum, f2, g2]; rfl
      · simp only [add_mul, mul_assoc]
        rw [Finset.sum_add_distrib, ← Finset.mul_sum, ← Finset.mul_sum, f3, g3]; rfl
    have hsub : {y | y ∈ column} ⊆ T := by
      intro y hy
      obtain ⟨k, hk, rfl⟩ := List.getElem_of_mem hy
      refine ⟨fun i => if i = ⟨k, hk⟩ then 1 else 0, fun i => ?_, by simp, by simp, by simp⟩
      show (0 : ℝ) ≤ if i = ⟨k, hk⟩ then 1 else 0
      split_ifs <;> norm_num
    exact fun hx => convexHull_min hsub hT hx
  · rintro ⟨f, f0, f1, f2, f3⟩
    have := (convex_convexHull ℝ {y | y ∈ column}).sum_mem (t := Finset.univ) (w := f) (z := fun i => column[i])
      (fun i _ => f0 i) f1 (fun i _ => subset_convexHull ℝ _ (List.getElem_mem _))
    convert this using 1
    refine Prod.ext ?_ ?_
    · rw [← f2, Prod.fst_sum]; rfl
    · rw [← f3, Prod.snd_sum]; rfl

theorem hull_directions (column : List (ℝ × ℝ)) :
    (0, 0) ∈ convexHull ℝ {y | y ∈ column} ↔ ∀ d : ℝ × ℝ, ∃ w ∈ column, 0 ≤ w.1 * d.1 + w.2 * d.2 := by
  constructor
  · intro h d
    by_contra hc
    push Not at hc
    have hconv : Convex ℝ {w : ℝ × ℝ | w.1 * d.1 + w.2 * d.2 < 0} := by
      intro x hx y hy a b ha hb hab
      simp only [Set.mem_ofPred_eq, Prod.fst_add, Prod.snd_add, Prod.smul_fst, Prod.smul_snd, smul_eq_mul] at *
      rcases ha.lt_or_eq with ha | ha
      · nlinarith
      · have : b = 1 := by linarith
        subst this; rw [← ha]; linarith
    have h0 : ((0, 0) : ℝ × ℝ).1 * d.1 + ((0, 0) : ℝ × ℝ).2 * d.2 < 0 := convexHull_min (fun w hw => hc w hw) hconv h
    simp at h0
  · intro h
    by_contra hc
    have hfin : {y | y ∈ column}.Finite := column.finite_toSet
    obtain ⟨f, u, h1, h2⟩ := geometric_hahn_banach_point_closed (convex_convexHull ℝ {y | y ∈ column})
      (hfin.isClosed_convexHull ℝ) hc
    obtain ⟨w, hw, hw'⟩ := h (-(f (1, 0)), -(f (0, 1)))
    have h3 := h2 w (subset_convexHull ℝ _ hw)
    have h4 : f w = w.1 * f (1, 0) + w.2 * f (0, 1) := by
      have : w = w.1 • ((1, 0) : ℝ × ℝ) + w.2 • ((0, 1) : ℝ × ℝ) := by ext <;> simp
      conv_lhs => rw [this]
      rw [map_add, map_smul, map_smul]; rfl
    have h5 : f (0, 0) = 0 := map_zero f
    rw [h5] at h1
    simp only at hw'
    nlinarith

/-- C110. For a column whose winds do not all lie on one line, `is_station_keeping_winds` answers, and the answer is yes
exactly if flying the levels in suitable shares of the time cancels the drift; equivalently, if in every direction some
level does not blow the balloon away. -/
theorem C110_answer_partial (Q : Qhull) (hQ : Spec.QhullOk Q) (column : List (ℝ × ℝ))
    (hc : ¬ Collinear ℝ {x | x ∈ column}) :
    ∃ b, isStationKeeping Q column = .ok b ∧
      (b = true ↔ ∃ share : Fin column.length → ℝ, (∀ i, 0 ≤ share i) ∧ ∑ i, share i = 1 ∧
        ∑ i, share i * (column[i]).1 = 0 ∧ ∑ i, share i * (column[i]).2 = 0) ∧
      (b = true ↔ ∀ d : ℝ × ℝ, ∃ w ∈ column, 0 ≤ w.1 * d.1 + w.2 * d.2) := by
  obtain ⟨b, h1, h2⟩ := isStationKeeping_hull Q hQ column hc
  exact ⟨b, h1, h2.trans (hull_shares column (0, 0)), h2.trans (hull_directions column)⟩

/-- C110. Consequently the answer does not depend on the strength of the winds, and more levels never hurt. -/
theorem C110_monotone (Q : Qhull) (hQ : Spec.QhullOk Q) (column column' : List (ℝ × ℝ))
    (hc : ¬ Collinear ℝ {x | x ∈ column})
    (hmore : ∀ w ∈ column, ∃ k : ℝ, 0 < k ∧ (k * w.1, k * w.2) ∈ column')
    (hc' : ¬ Collinear ℝ {x | x ∈ column'}) (h : isStationKeeping Q column = .ok true) :
    isStationKeeping Q column' = .ok true := by
  obtain ⟨b, h1, -, h2⟩ := C110_answer_partial Q hQ column hc
  obtain ⟨b', h1', -, h2'⟩ := C110_answer_partial Q hQ column' hc'
  rw [h] at h1
  have hb : true = b := Except.ok.inj h1
  rw [h1']
  congr 1
  rw [h2']
  intro d
  obtain ⟨w, hw, hw'⟩ := h2.1 hb.symm d
  obtain ⟨k, hk, hk'⟩ := hmore w hw
  refine ⟨_, hk', ?_⟩
  have : k * w.1 * d.1 + k * w.2 * d.2 = k * (w.1 * d.1 + w.2 * d.2) := by ring
  rw [this]
  positivity

/-- C110 is false of the code for every column whose winds lie on one line — a constant wind, one or two levels, or
winds straight to and fro: instead of yes or no there is a `QhullError`, even if equal time at two of the levels would
keep the balloon in place. -/
theorem C110_collinear_raises (Q : Qhull) (hQ : Spec.QhullOk Q) (column : List (ℝ × ℝ)) (hne : column ≠ [])
    (hc : Collinear ℝ {x | x ∈ column}) : isStationKeeping Q column = .error .runtime := by
  unfold isStationKeeping
  rw [hQ.flat column hne hc]
  rfl

open Classical in
/-- A `Qhull` that does what is documented. -/
noncomputable def demoQhull : Qhull where
  hull ps := if Collinear ℝ {x | x ∈ ps} then .error .runtime else .ok (List.range ps.length)
  inside ps x := if Collinear ℝ {x | x ∈ ps} then .error .runtime else .ok (decide (x ∈ convexHull ℝ {x | x ∈ ps}))

theorem demoQhull_ok : Spec.QhullOk demoQhull where
  flat ps _ h := if_pos h
  hull ps h := by
    refine ⟨List.range ps.length, if_neg h, fun i hi => List.mem_range.1 hi, ?_⟩
    congr 1
    ext x
    simp only [Set.mem_ofPred_eq, List.mem_map, List.mem_range]
    constructor
    · rintro ⟨i, hi, rfl⟩
      simp only [List.getD, List.getElem?_eq_getElem hi, Option.getD_some]; exact List.getElem_mem _
    · intro hx
      obtain ⟨k, hk, rfl⟩ := List.getElem_of_mem hx
      exact ⟨k, hk, by simp [List.getD, List.getElem?_eq_getElem hk]⟩
  inside ps x h := ⟨_, if_neg h, by simp⟩

theorem two_collinear (a b : ℝ × ℝ) : Collinear ℝ {x | x ∈ [a, b]} := by
  have : {x | x ∈ [a, b]} = ({a, b} : Set (ℝ × ℝ)) := by ext x; simp
  rw [this]
  exact collinear_pair ℝ a b

/-- East and west wind in equal shares cancel, yet the question raises; east, north-west and south-west winds: yes. -/
example : isStationKeeping demoQhull [(5, 0), (-5, 0)] = .error .runtime ∧
    isStationKeeping demoQhull [(5, 0), (-3, 3), (-3, -3)] = .ok true := by
  refine ⟨C110_collinear_raises _ demoQhull_ok _ (by simp) (two_collinear _ _), ?_⟩
  have hc : ¬ Collinear ℝ {x : ℝ × ℝ | x ∈ [(5, 0), (-3, 3), (-3, -3)]} := by
    intro h
    rw [collinear_iff_of_mem (p₀ := ((5, 0) : ℝ × ℝ)) (by simp)] at h
    obtain ⟨v, h⟩ := h
    obtain ⟨r1, e1⟩ := h (-3, 3) (by simp)
    obtain ⟨r2, e2⟩ := h (-3, -3) (by simp)
    simp [Prod.ext_iff] at e1 e2
    obtain ⟨a1, a2⟩ := e1
    obtain ⟨b1, b2⟩ := e2
    have : r1 * v.1 * (r2 * v.2) = r1 * v.2 * (r2 * v.1) := by ring
    rw [← a2, ← b2, show r1 * v.1 = -8 by linarith, show r2 * v.1 = -8 by linarith] at this
    norm_num at this
  obtain ⟨b, h1, h2, -⟩ := C110_answer_partial demoQhull demoQhull_ok _ hc
  rw [h1, h2.2]
  refine ⟨![3 / 8, 5 / 16, 5 / 16], ?_, ?_, ?_, ?_⟩
  · intro i; fin_cases i <;> norm_num
  · simp [Fin.sum_univ_three]; norm_num
  · simp [Fin.sum_univ_three]; norm_num
  · simp [Fin.sum_univ_three]

/-! ## Speeds -/

/-- C111. Speeds are the lengths of the winds: never negative, zero exactly in calm air; the mean speed of a non-empty
field is zero exactly if all of it is calm, at most the top speed, and at least the speed of the mean wind. -/
theorem C111_speed (field : List (ℝ × ℝ)) (hne : field ≠ []) :
    (∀ (i : ℕ) (w : ℝ × ℝ), field[i]? = some w → ∃ v, (windSpeeds field)[i]? = some v ∧ 0 ≤ v ∧ v ^ 2 = w.1 ^ 2 + w.2 ^ 2) ∧
    0 ≤ meanSpeed field ∧ (meanSpeed field = 0 ↔ ∀ w ∈ field, w = (0, 0)) ∧
    (∀ top, (∀ w ∈ field, Real.sqrt (w.1 ^ 2 + w.2 ^ 2) ≤ top) → meanSpeed field ≤ top) ∧
    Real.sqrt (((field.map (·.1)).sum / field.length) ^ 2 + ((field.map (·.2)).sum / field.length) ^ 2) ≤
      meanSpeed field := by
  have hlen : (windSpeeds field).length = field.length := List.length_map _
  have hpos : (0 : ℝ) < field.length := by
    exact_mod_cast List.length_pos_iff.2 hne
  have hnn : ∀ v ∈ windSpeeds field, 0 ≤ v := by
    intro v hv
    obtain ⟨w, -, rfl⟩ := List.mem_map.1 hv
    exact Real.sqrt_nonneg _
  refine ⟨?_, ?_, ?_, ?_, ?_⟩
  · intro i w hw
    refine ⟨Real.sqrt (w.1 * w.1 + w.2 * w.2), by simp [windSpeeds, hw], Real.sqrt_nonneg _, ?_⟩
    rw [Real.sq_sqrt (by nlinarith [sq_nonneg w.1, sq_nonneg w.2])]; ring
  · exact div_nonneg (List.sum_nonneg hnn) (Nat.cast_nonneg _)
  · unfold meanSpeed
    rw [hlen, div_eq_zero_iff, or_iff_left hpos.ne']
    constructor
    · intro h w hw
      have h1 : Real.sqrt (w.1 * w.1 + w.2 * w.2) ≤ 0 := by
        rw [← h]; exact List.single_le_sum hnn _ (List.mem_map.2 ⟨w, hw, rfl⟩)
      have h2 : w.1 * w.1 + w.2 * w.2 ≤ 0 := Real.sqrt_eq_zero'.1 (le_antisymm h1 (Real.sqrt_nonneg _))
      have h3 : w.1 = 0 := by nlinarith [sq_nonneg w.1, sq_nonneg w.2]
      have h4 : w.2 = 0 := by nlinarith [sq_nonneg w.1, sq_nonneg w.2]
      exact Prod.ext h3 h4
    · intro h
      refine List.sum_eq_zero ?_
      intro v hv
      obtain ⟨w, hw, rfl⟩ := List.mem_map.1 hv
      rw [h w hw]; simp
  · intro top htop
    unfold meanSpeed
    rw [hlen, div_le_iff₀ hpos]
    have := List.sum_le_card_nsmul (windSpeeds field) top (by
      intro v hv
      obtain ⟨w, hw, rfl⟩ := List.mem_map.1 hv
      have := htop w hw
      rwa [sq, sq] at this)
    rw [hlen, nsmul_eq_mul] at this
    linarith
  · have hmain : ∀ l : List (ℝ × ℝ), Real.sqrt ((l.map (·.1)).sum ^ 2 + (l.map (·.2)).sum ^ 2) ≤ (windSpeeds l).sum := by
      intro l
      induction l with
      | nil => simp [windSpeeds]
      | cons w l ih =>
        simp only [windSpeeds, List.map_cons, List.sum_cons] at *
        set a := (l.map (·.1)).sum
        set b := (l.map (·.2)).sum
        refine le_trans ?_ (add_le_add_right ih _)
        have s1 := Real.sqrt_nonneg (w.1 * w.1 + w.2 * w.2)
        have s2 := Real.sqrt_nonneg (a ^ 2 + b ^ 2)
        have q1 := Real.sq_sqrt (show 0 ≤ w.1 * w.1 + w.2 * w.2 by nlinarith [sq_nonneg w.1, sq_nonneg w.2])
        have q2 := Real.sq_sqrt (show 0 ≤ a ^ 2 + b ^ 2 by positivity)
        set p := Real.sqrt (w.1 * w.1 + w.2 * w.2)
        set q := Real.sqrt (a ^ 2 + b ^ 2)
        refine Real.sqrt_le_iff.2 ⟨by positivity, ?_⟩
        have hcs : w.1 * a + w.2 * b ≤ p * q := by
          refine le_of_abs_le (abs_le_of_sq_le_sq ?_ (by positivity))
          rw [mul_pow, q1, q2]
          nlinarith [sq_nonneg (w.1 * b - w.2 * a)]
        nlinarith
    unfold meanSpeed
    rw [hlen, div_pow, div_pow, ← add_div, Real.sqrt_div' _ (by positivity), Real.sqrt_sq hpos.le]
    exact div_le_div_of_nonneg_right (hmain field) hpos.le

/-- Opposite winds: mean speed 5, mean wind 0. -/
example : meanSpeed [(3, 4), (-3, -4)] = 5 := by
  have : Real.sqrt ((3 : ℝ) * 3 + 4 * 4) = 5 := by
    rw [show (3 : ℝ) * 3 + 4 * 4 = 5 ^ 2 by norm_num]; exact Real.sqrt_sq (by norm_num)
  norm_num [meanSpeed, windSpeeds]
  norm_num at this
  rw [this]

end BLE
