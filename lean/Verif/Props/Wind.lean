import Mathlib.Algebra.BigOperators.Field
import Verif.Lemmas.Wind

/-!
# C33–C37, C40, C87: wind fields
-/

namespace BLE

/-! ## C33 — time reflection -/

/-- C33. For a horizon `h > 0` and non-negative times: the reflected time is in `[0,h]`, is the time
itself below the horizon, has period `2h`, and two times are never further apart after reflection
than before. -/
theorem C33_reflection (h : ℝ) (hh : 0 < h) (t : ℝ) (ht : 0 ≤ t) :
    (0 ≤ boomerang t h ∧ boomerang t h ≤ h) ∧ (t < h → boomerang t h = t) ∧
    boomerang (t + 2 * h) h = boomerang t h ∧
    ∀ s, 0 ≤ s → |boomerang t h - boomerang s h| ≤ |t - s| :=
  ⟨⟨(boomerang_spec ht hh).2.2.1, (boomerang_spec ht hh).2.2.2⟩, boomerang_below ht,
    boomerang_period ht hh, fun _ hs => boomerang_lipschitz hs ht hh⟩

-- A non-trivial instance: 60 h on a 48 h field is hour 36, as is 132 h.
example : boomerang 60 48 = 36 := by
  have h : ⌊(60 : ℝ) / 48⌋ = 1 := by rw [Int.floor_eq_iff]; norm_num
  unfold boomerang; rw [h]; norm_num

/-! ## C34 — queries stay on the grid -/

/-- A field shape for which the grids are proper: at least two points per axis, non-empty box, time
grid points distinct after truncation to whole hours. -/
structure Spec.ProperShape (s : FieldShape) : Prop where
  latlng : 2 ≤ s.latlngSlices
  pressure : 2 ≤ s.pressureSlices
  time : 2 ≤ s.timeSlices
  box : 0 < s.displacementKm
  band : s.minPressure < s.maxPressure
  hours : s.timeSlices ≤ s.horizonHours + 1

/-- The default shape is proper. -/
example : Spec.ProperShape FieldShape.default := by
  constructor <;> norm_num [FieldShape.default]

theorem linspace_first (a b : ℝ) (n : ℕ) : linspace a b n 0 = a := by simp [linspace]

theorem linspace_last (a b : ℝ) (n : ℕ) (hn : 2 ≤ n) : linspace a b n (n - 1) = b := by
  have : (2 : ℝ) ≤ n := by exact_mod_cast hn
  have h1 : ((n - 1 : ℕ) : ℝ) = (n : ℝ) - 1 := by rw [Nat.cast_sub (by omega)]; simp
  unfold linspace
  rw [h1]
  have : (n : ℝ) - 1 ≠ 0 := by linarith
  field_simp; ring

theorem linspace_strict (a b : ℝ) (n : ℕ) (hn : 2 ≤ n) (hab : a < b) (i j : ℕ) (hij : i < j) :
    linspace a b n i < linspace a b n j := by
  have h2 : (2 : ℝ) ≤ n := by exact_mod_cast hn
  have hij' : (i : ℝ) < j := by exact_mod_cast hij
  unfold linspace
  have hp : 0 < (n : ℝ) - 1 := by linarith
  have : (i : ℝ) * (b - a) / ((n : ℝ) - 1) < j * (b - a) / ((n : ℝ) - 1) := by
    apply div_lt_div_of_pos_right _ hp
    nlinarith
  linarith

theorem timeGrid_strict (s : FieldShape) (hs : Spec.ProperShape s) (i j : ℕ) (hij : i < j) :
    s.timeGrid i < s.timeGrid j := by
  have h2 : (2 : ℝ) ≤ s.timeSlices := by exact_mod_cast hs.time
  have hh : (s.timeSlices : ℝ) ≤ s.horizonHours + 1 := by exact_mod_cast hs.hours
  have hij' : (i : ℝ) + 1 ≤ j := by exact_mod_cast hij
  unfold FieldShape.timeGrid
  have key : linspace 0 s.horizonHours s.timeSlices i + 1 ≤ linspace 0 s.horizonHours s.timeSlices j := by
    unfold linspace
    have hp : 0 < (s.timeSlices : ℝ) - 1 := by linarith
    rw [zero_add, zero_add, sub_zero]
    have : (i : ℝ) * s.horizonHours / ((s.timeSlices : ℝ) - 1) + 1 =
        (i * s.horizonHours + ((s.timeSlices : ℝ) - 1)) / ((s.timeSlices : ℝ) - 1) := by field_simp
    rw [this]
    apply div_le_div_of_nonneg_right _ hp.le
    have : (0 : ℝ) ≤ s.horizonHours := Nat.cast_nonneg _
    nlinarith
  have : ⌊linspace 0 s.horizonHours s.timeSlices i⌋ + 1 ≤ ⌊linspace 0 s.horizonHours s.timeSlices j⌋ := by
    rw [← Int.floor_add_one]; exact Int.floor_le_floor key
  exact_mod_cast this

theorem grid_ends (s : FieldShape) (hs : Spec.ProperShape s) :
    s.latlngGrid 0 = -s.displacementKm ∧ s.latlngGrid (s.latlngSlices - 1) = s.displacementKm ∧
    s.pressureGrid 0 = s.minPressure ∧ s.pressureGrid (s.pressureSlices - 1) = s.maxPressure ∧
    s.timeGrid 0 = 0 ∧ s.timeGrid (s.timeSlices - 1) = s.horizonHours := by
  refine ⟨linspace_first _ _ _, linspace_last _ _ _ hs.latlng, linspace_first _ _ _,
    linspace_last _ _ _ hs.pressure, ?_, ?_⟩
  · simp [FieldShape.timeGrid, linspace_first]
  · unfold FieldShape.timeGrid
    rw [linspace_last _ _ _ hs.time]; simp

theorem hoursOf_nonneg {t : ℤ} (ht : 0 ≤ t) : 0 ≤ hoursOf t := by
  have : (0 : ℝ) ≤ (t : ℝ) := by exact_mod_cast ht
  unfold hoursOf totalSeconds; positivity

theorem timePosition_eq (s : FieldShape) (hs : Spec.ProperShape s) {t : ℤ} (ht : 0 ≤ t) :
    timePosition s t = boomerang (hoursOf t) s.horizonHours := by
  unfold timePosition
  split_ifs with h
  · exact (boomerang_below (hoursOf_nonneg ht) h).symm
  · rfl

theorem horizon_pos (s : FieldShape) (hs : Spec.ProperShape s) : (0 : ℝ) < s.horizonHours := by
  have h1 := hs.time
  have h2 := hs.hours
  have : 1 ≤ s.horizonHours := by omega
  exact_mod_cast this

theorem clip_mem (x lo hi : ℝ) (h : lo ≤ hi) : lo ≤ clip x lo hi ∧ clip x lo hi ≤ hi :=
  ⟨le_min (le_max_right _ _) h, min_le_right _ _⟩

theorem prepare_inGrid (s : FieldShape) (hs : Spec.ProperShape s) (x y p : ℝ) {t : ℤ} (ht : 0 ≤ t) :
    inGrid s (prepare s x y p t) := by
  obtain ⟨e1, e2, e3, e4, e5, e6⟩ := grid_ends s hs
  unfold inGrid
  rw [e1, e2, e3, e4, e5, e6]
  have hb := hs.box
  refine ⟨clip_mem _ _ _ (by linarith), clip_mem _ _ _ (by linarith), clip_mem _ _ _ hs.band.le, ?_⟩
  show 0 ≤ timePosition s t ∧ timePosition s t ≤ _
  rw [timePosition_eq s hs ht]
  have := boomerang_spec (hoursOf_nonneg ht) (horizon_pos s hs)
  exact ⟨this.2.2.1, this.2.2.2⟩

/-- C34. For every position, pressure and non-negative elapsed time the interpolation point is in the
box of the grid, so a forecast exists. -/
theorem C34_on_grid (s : FieldShape) (hs : Spec.ProperShape s) (f : GridField) (x y p : ℝ) (t : ℤ)
    (ht : 0 ≤ t) :
    let q := prepare s x y p t
    (-s.displacementKm ≤ q.x ∧ q.x ≤ s.displacementKm) ∧ (-s.displacementKm ≤ q.y ∧ q.y ≤ s.displacementKm) ∧
    (s.minPressure ≤ q.p ∧ q.p ≤ s.maxPressure) ∧ (0 ≤ q.t ∧ q.t ≤ s.horizonHours) ∧
    ∃ w, gridForecast s (some f) x y p t = .ok w := by
  have h := prepare_inGrid s hs x y p ht
  obtain ⟨e1, e2, e3, e4, e5, e6⟩ := grid_ends s hs
  have h' := h
  unfold inGrid at h'
  rw [e1, e2, e3, e4, e5, e6] at h'
  refine ⟨h'.1, h'.2.1, h'.2.2.1, h'.2.2.2, ?_⟩
  unfold gridForecast interpn
  simp only [h, decide_true, if_true]
  exact ⟨_, rfl⟩

/-- Negative elapsed times are not reflected: they leave the grid and the query raises. -/
theorem C34_negative_time (s : FieldShape) (hs : Spec.ProperShape s) (f : GridField) (x y p : ℝ) (t : ℤ)
    (ht : t < 0) : gridForecast s (some f) x y p t = .error .value := by
  obtain ⟨e1, e2, e3, e4, e5, e6⟩ := grid_ends s hs
  have hneg : hoursOf t < 0 := by
    have : (t : ℝ) < 0 := by exact_mod_cast ht
    unfold hoursOf totalSeconds
    apply div_neg_of_neg_of_pos (div_neg_of_neg_of_pos this (by norm_num)) (by norm_num)
  have hp := horizon_pos s hs
  have hn : ¬ inGrid s (prepare s x y p t) := by
    unfold inGrid
    rw [e5]
    intro h
    have : 0 ≤ timePosition s t := h.2.2.2.1
    unfold timePosition at this
    rw [if_pos (by linarith)] at this
    linarith
  unfold gridForecast interpn
  simp only [hn, decide_false, Bool.false_eq_true, if_false]

/-! ## C35 — interpolation -/

theorem strict_of_shape (s : FieldShape) (hs : Spec.ProperShape s) :
    (∀ i j, i < j → j < s.latlngSlices → s.latlngGrid i < s.latlngGrid j) ∧
    (∀ i j, i < j → j < s.pressureSlices → s.pressureGrid i < s.pressureGrid j) ∧
    (∀ i j, i < j → j < s.timeSlices → s.timeGrid i < s.timeGrid j) :=
  ⟨fun i j h _ => linspace_strict _ _ _ hs.latlng (by linarith [hs.box]) i j h,
   fun i j h _ => linspace_strict _ _ _ hs.pressure hs.band i j h,
   fun i j h _ => timeGrid_strict s hs i j h⟩

theorem forecast_eq (s : FieldShape) (hs : Spec.ProperShape s) (f : GridField) (x y p : ℝ) {t : ℤ}
    (ht : 0 ≤ t) : gridForecast s (some f) x y p t =
      .ok (interp4 s (fun i j k l => (f i j k l).1) (prepare s x y p t),
        interp4 s (fun i j k l => (f i j k l).2) (prepare s x y p t)) := by
  have h := prepare_inGrid s hs x y p ht
  unfold gridForecast interpn
  simp only [h, decide_true, if_true]

theorem interp4_bounds (s : FieldShape) (hs : Spec.ProperShape s) (f : ℕ → ℕ → ℕ → ℕ → ℝ) (q : GridPoint)
    (hq : inGrid s q) (lo hi : ℝ)
    (hf : ∀ i < s.latlngSlices, ∀ j < s.latlngSlices, ∀ k < s.pressureSlices, ∀ l < s.timeSlices,
      lo ≤ f i j k l ∧ f i j k l ≤ hi) : lo ≤ interp4 s f q ∧ interp4 s f q ≤ hi := by
  obtain ⟨g1, g2, g3⟩ := strict_of_shape s hs
  obtain ⟨hx, hy, hp, ht⟩ := hq
  unfold interp4
  exact interp1_bounds _ _ _ _ _ _ hs.latlng g1 hx.1 hx.2 fun i hi =>
    interp1_bounds _ _ _ _ _ _ hs.latlng g1 hy.1 hy.2 fun j hj =>
    interp1_bounds _ _ _ _ _ _ hs.pressure g2 hp.1 hp.2 fun k hk =>
    interp1_bounds _ _ _ _ _ _ hs.time g3 ht.1 ht.2 fun l hl => hf i hi j hj k hk l hl

/-- C35. Every component of a forecast lies between any bounds that hold at all grid nodes (hence
between minimum and maximum of the stored field). -/
theorem C35_within_extremes (s : FieldShape) (hs : Spec.ProperShape s) (f : GridField) (x y p : ℝ) (t : ℤ)
    (ht : 0 ≤ t) (lo hi : ℝ × ℝ)
    (hf : ∀ i < s.latlngSlices, ∀ j < s.latlngSlices, ∀ k < s.pressureSlices, ∀ l < s.timeSlices,
      (lo.1 ≤ (f i j k l).1 ∧ (f i j k l).1 ≤ hi.1) ∧ (lo.2 ≤ (f i j k l).2 ∧ (f i j k l).2 ≤ hi.2)) :
    ∃ w, gridForecast s (some f) x y p t = .ok w ∧ (lo.1 ≤ w.1 ∧ w.1 ≤ hi.1) ∧ (lo.2 ≤ w.2 ∧ w.2 ≤ hi.2) := by
  have b1 := interp4_bounds s hs (fun i j k l => (f i j k l).1) _ (prepare_inGrid s hs x y p ht) lo.1 hi.1
    fun i hi j hj k hk l hl => (hf i hi j hj k hk l hl).1
  have b2 := interp4_bounds s hs (fun i j k l => (f i j k l).2) _ (prepare_inGrid s hs x y p ht) lo.2 hi.2
    fun i hi j hj k hk l hl => (hf i hi j hj k hk l hl).2
  exact ⟨_, forecast_eq s hs f x y p ht, b1, b2⟩

theorem clip_id {x lo hi : ℝ} (h0 : lo ≤ x) (h1 : x ≤ hi) : clip x lo hi = x := by
  unfold clip; rw [max_eq_left h0, min_eq_left h1]

/-- Outside the box the forecast is the forecast at the nearest point of the box (positions in
metres, the box in kilometres). -/
theorem C35_boundary_extension (s : FieldShape) (hs : Spec.ProperShape s) (field : Option GridField)
    (x y p : ℝ) (t : ℤ) :
    gridForecast s field x y p t =
      gridForecast s field (1000 * clip (x / 1000) (-s.displacementKm) s.displacementKm)
        (1000 * clip (y / 1000) (-s.displacementKm) s.displacementKm) (clip p s.minPressure s.maxPressure) t := by
  have hb := hs.box
  have e : ∀ z, clip (1000 * clip z (-s.displacementKm) s.displacementKm / 1000) (-s.displacementKm)
      s.displacementKm = clip z (-s.displacementKm) s.displacementKm := by
    intro z
    rw [mul_div_cancel_left₀ _ (by norm_num)]
    obtain ⟨h1, h2⟩ := clip_mem z (-s.displacementKm) s.displacementKm (by linarith)
    exact clip_id h1 h2
  have e' : clip (clip p s.minPressure s.maxPressure) s.minPressure s.maxPressure =
      clip p s.minPressure s.maxPressure := by
    obtain ⟨h1, h2⟩ := clip_mem p s.minPressure s.maxPressure hs.band.le
    exact clip_id h1 h2
  cases field with
  | none => rfl
  | some f =>
    unfold gridForecast prepare
    simp only [e, e']

theorem interp4_node (s : FieldShape) (hs : Spec.ProperShape s) (f : ℕ → ℕ → ℕ → ℕ → ℝ) (i j k l : ℕ)
    (hi : i < s.latlngSlices) (hj : j < s.latlngSlices) (hk : k < s.pressureSlices) (hl : l < s.timeSlices) :
    interp4 s f ⟨s.latlngGrid i, s.latlngGrid j, s.pressureGrid k, s.timeGrid l⟩ = f i j k l := by
  obtain ⟨g1, g2, g3⟩ := strict_of_shape s hs
  unfold interp4
  simp only
  rw [interp1_node _ _ _ _ hs.latlng hi g1, interp1_node _ _ _ _ hs.latlng hj g1,
    interp1_node _ _ _ _ hs.pressure hk g2, interp1_node _ _ _ _ hs.time hl g3]

theorem mono_ends {g : ℕ → ℝ} {n i : ℕ} (hg : ∀ i j, i < j → j < n → g i < g j) (hi : i < n) :
    g 0 ≤ g i ∧ g i ≤ g (n - 1) := by
  constructor
  · rcases Nat.eq_zero_or_pos i with h | h
    · rw [h]
    · exact (hg 0 i h hi).le
  · rcases Nat.lt_or_ge i (n - 1) with h | h
    · exact (hg i (n - 1) h (by omega)).le
    · rw [show i = n - 1 by omega]

/-- At a grid node, and a whole number of hours, the forecast is the stored wind. -/
theorem C35_nodes (s : FieldShape) (hs : Spec.ProperShape s) (f : GridField) (i j k l : ℕ)
    (hi : i < s.latlngSlices) (hj : j < s.latlngSlices) (hk : k < s.pressureSlices) (hl : l < s.timeSlices)
    (t : ℤ) (ht : hoursOf t = s.timeGrid l) :
    gridForecast s (some f) (1000 * s.latlngGrid i) (1000 * s.latlngGrid j) (s.pressureGrid k) t =
      .ok (f i j k l) := by
  obtain ⟨g1, g2, g3⟩ := strict_of_shape s hs
  obtain ⟨e1, e2, e3, e4, e5, e6⟩ := grid_ends s hs
  have hx := mono_ends g1 hi
  have hy := mono_ends g1 hj
  have hp := mono_ends g2 hk
  have htt := mono_ends g3 hl
  have ht0 : 0 ≤ t := by
    by_contra hc
    have : (t : ℝ) < 0 := by exact_mod_cast not_le.1 hc
    have : hoursOf t < 0 := by
      unfold hoursOf totalSeconds
      exact div_neg_of_neg_of_pos (div_neg_of_neg_of_pos this (by norm_num)) (by norm_num)
    rw [ht] at this; rw [e5] at htt; linarith [htt.1]
  have eq : prepare s (1000 * s.latlngGrid i) (1000 * s.latlngGrid j) (s.pressureGrid k) t =
      ⟨s.latlngGrid i, s.latlngGrid j, s.pressureGrid k, s.timeGrid l⟩ := by
    unfold prepare
    rw [mul_div_cancel_left₀ _ (by norm_num), mul_div_cancel_left₀ _ (by norm_num),
      clip_id (by rw [← e1]; exact hx.1) (by rw [← e2]; exact hx.2),
      clip_id (by rw [← e1]; exact hy.1) (by rw [← e2]; exact hy.2),
      clip_id (by rw [← e3]; exact hp.1) (by rw [← e4]; exact hp.2), timePosition_eq s hs ht0, ht]
    congr 1
    rcases htt.2.lt_or_eq with h | h
    · rw [e6] at h; exact boomerang_below (by rw [← e5]; exact htt.1) h
    · rw [h, e6]; exact boomerang_at_horizon (horizon_pos s hs)
  rw [forecast_eq s hs f _ _ _ ht0, eq, interp4_node s hs _ i j k l hi hj hk hl,
    interp4_node s hs _ i j k l hi hj hk hl]

theorem slopes_le (g vals : ℕ → ℝ) (n : ℕ) (M : ℝ) (hM : ∀ i < n, |vals i| ≤ M) :
    slopes g vals n ≤ ∑ i ∈ Finset.range (n - 1), 2 * M / |g (i + 1) - g i| := by
  unfold slopes
  refine Finset.sum_le_sum fun i hi => ?_
  rw [Finset.mem_range] at hi
  rw [abs_div]
  apply div_le_div_of_nonneg_right _ (abs_nonneg _)
  have a := abs_sub (vals (i + 1)) (vals i)
  have b := hM (i + 1) (by omega)
  have c := hM i (by omega)
  linarith

theorem interp1_lipschitz' (g vals : ℕ → ℝ) (n : ℕ) (x y M : ℝ) (hn : 2 ≤ n)
    (hg : ∀ i j, i < j → j < n → g i < g j) (hx0 : g 0 ≤ x) (hx1 : x ≤ g (n - 1)) (hy0 : g 0 ≤ y)
    (hy1 : y ≤ g (n - 1)) (hM : ∀ i < n, |vals i| ≤ M) :
    |interp1 g n vals x - interp1 g n vals y| ≤
      (∑ i ∈ Finset.range (n - 1), 2 * M / |g (i + 1) - g i|) * |x - y| :=
  (interp1_lipschitz g vals n x y hn hg hx0 hx1 hy0 hy1).trans
    (mul_le_mul_of_nonneg_right (slopes_le g vals n M hM) (abs_nonneg _))

/-- Lipschitz constant of an axis for fields bounded by `M`. -/
noncomputable def axisLip (g : ℕ → ℝ) (n : ℕ) (M : ℝ) : ℝ :=
  ∑ i ∈ Finset.range (n - 1), 2 * M / |g (i + 1) - g i|

theorem interp4_lipschitz (s : FieldShape) (hs : Spec.ProperShape s) (f : ℕ → ℕ → ℕ → ℕ → ℝ) (M : ℝ)
    (hf : ∀ i < s.latlngSlices, ∀ j < s.latlngSlices, ∀ k < s.pressureSlices, ∀ l < s.timeSlices,
      |f i j k l| ≤ M) (q r : GridPoint) (hq : inGrid s q) (hr : inGrid s r) :
    |interp4 s f q - interp4 s f r| ≤ axisLip s.latlngGrid s.latlngSlices M * |q.x - r.x| +
      axisLip s.latlngGrid s.latlngSlices M * |q.y - r.y| +
      axisLip s.pressureGrid s.pressureSlices M * |q.p - r.p| +
      axisLip s.timeGrid s.timeSlices M * |q.t - r.t| := by
  obtain ⟨g1, g2, g3⟩ := strict_of_shape s hs
  obtain ⟨hx, hy, hp, ht⟩ := hq
  obtain ⟨hx', hy', hp', ht'⟩ := hr
  -- bounds of the partial interpolants
  have b3 : ∀ i < s.latlngSlices, ∀ j < s.latlngSlices, ∀ k < s.pressureSlices,
      |interp1 s.timeGrid s.timeSlices (f i j k) q.t| ≤ M := fun i hi j hj k hk =>
    abs_le.2 (interp1_bounds _ _ _ _ _ _ hs.time g3 ht.1 ht.2 fun l hl => abs_le.1 (hf i hi j hj k hk l hl))
  have b2 : ∀ i < s.latlngSlices, ∀ j < s.latlngSlices, |interp1 s.pressureGrid s.pressureSlices
      (fun k => interp1 s.timeGrid s.timeSlices (f i j k) q.t) q.p| ≤ M := fun i hi j hj =>
    abs_le.2 (interp1_bounds _ _ _ _ _ _ hs.pressure g2 hp.1 hp.2 fun k hk => abs_le.1 (b3 i hi j hj k hk))
  have b1 : ∀ i < s.latlngSlices, |interp1 s.latlngGrid s.latlngSlices (fun j =>
      interp1 s.pressureGrid s.pressureSlices
      (fun k => interp1 s.timeGrid s.timeSlices (f i j k) q.t) q.p) q.y| ≤ M := fun i hi =>
    abs_le.2 (interp1_bounds _ _ _ _ _ _ hs.latlng g1 hy.1 hy.2 fun j hj => abs_le.1 (b2 i hi j hj))
  unfold interp4
  set Ft := fun (t : ℝ) (i j k : ℕ) => interp1 s.timeGrid s.timeSlices (f i j k) t with hFt
  set Fp := fun (t p : ℝ) (i j : ℕ) => interp1 s.pressureGrid s.pressureSlices (Ft t i j) p with hFp
  set Fy := fun (t p y : ℝ) (i : ℕ) => interp1 s.latlngGrid s.latlngSlices (Fp t p i) y with hFy
  have s1 : |interp1 s.latlngGrid s.latlngSlices (Fy q.t q.p q.y) q.x -
      interp1 s.latlngGrid s.latlngSlices (Fy q.t q.p q.y) r.x| ≤
      axisLip s.latlngGrid s.latlngSlices M * |q.x - r.x| :=
    interp1_lipschitz' _ _ _ _ _ _ hs.latlng g1 hx.1 hx.2 hx'.1 hx'.2 b1
  have s2 : |interp1 s.latlngGrid s.latlngSlices (Fy q.t q.p q.y) r.x -
      interp1 s.latlngGrid s.latlngSlices (Fy q.t q.p r.y) r.x| ≤
      axisLip s.latlngGrid s.latlngSlices M * |q.y - r.y| :=
    interp1_vals _ _ _ _ _ _ hs.latlng g1 hx'.1 hx'.2 fun i hi =>
      interp1_lipschitz' _ _ _ _ _ _ hs.latlng g1 hy.1 hy.2 hy'.1 hy'.2 (b2 i hi)
  have s3 : |interp1 s.latlngGrid s.latlngSlices (Fy q.t q.p r.y) r.x -
      interp1 s.latlngGrid s.latlngSlices (Fy q.t r.p r.y) r.x| ≤
      axisLip s.pressureGrid s.pressureSlices M * |q.p - r.p| :=
    interp1_vals _ _ _ _ _ _ hs.latlng g1 hx'.1 hx'.2 fun i hi =>
    interp1_vals _ _ _ _ _ _ hs.latlng g1 hy'.1 hy'.2 fun j hj =>
      interp1_lipschitz' _ _ _ _ _ _ hs.pressure g2 hp.1 hp.2 hp'.1 hp'.2 (b3 i hi j hj)
  have s4 : |interp1 s.latlngGrid s.latlngSlices (Fy q.t r.p r.y) r.x -
      interp1 s.latlngGrid s.latlngSlices (Fy r.t r.p r.y) r.x| ≤
      axisLip s.timeGrid s.timeSlices M * |q.t - r.t| :=
    interp1_vals _ _ _ _ _ _ hs.latlng g1 hx'.1 hx'.2 fun i hi =>
    interp1_vals _ _ _ _ _ _ hs.latlng g1 hy'.1 hy'.2 fun j hj =>
    interp1_vals _ _ _ _ _ _ hs.pressure g2 hp'.1 hp'.2 fun k hk =>
      interp1_lipschitz' _ _ _ _ _ _ hs.time g3 ht.1 ht.2 ht'.1 ht'.2 (hf i hi j hj k hk)
  have t1 := abs_sub_le (interp1 s.latlngGrid s.latlngSlices (Fy q.t q.p q.y) q.x)
    (interp1 s.latlngGrid s.latlngSlices (Fy q.t q.p q.y) r.x)
    (interp1 s.latlngGrid s.latlngSlices (Fy r.t r.p r.y) r.x)
  have t2 := abs_sub_le (interp1 s.latlngGrid s.latlngSlices (Fy q.t q.p q.y) r.x)
    (interp1 s.latlngGrid s.latlngSlices (Fy q.t q.p r.y) r.x)
    (interp1 s.latlngGrid s.latlngSlices (Fy r.t r.p r.y) r.x)
  have t3 := abs_sub_le (interp1 s.latlngGrid s.latlngSlices (Fy q.t q.p r.y) r.x)
    (interp1 s.latlngGrid s.latlngSlices (Fy q.t r.p r.y) r.x)
    (interp1 s.latlngGrid s.latlngSlices (Fy r.t r.p r.y) r.x)
  linarith

/-- Forecasts do not jump: for every stored field there is a constant such that any two forecasts
(non-negative times, any place, inside or outside the box) differ by at most that constant times the
distance of the queries in km, Pa and hours. -/
theorem C35_lipschitz (s : FieldShape) (hs : Spec.ProperShape s) (f : GridField) :
    ∃ L, ∀ (x y p x' y' p' : ℝ) (t t' : ℤ), 0 ≤ t → 0 ≤ t' →
      ∃ w w', gridForecast s (some f) x y p t = .ok w ∧ gridForecast s (some f) x' y' p' t' = .ok w' ∧
        |w.1 - w'.1| ≤ L * (|x / 1000 - x' / 1000| + |y / 1000 - y' / 1000| + |p - p'| + |hoursOf t - hoursOf t'|) ∧
        |w.2 - w'.2| ≤ L * (|x / 1000 - x' / 1000| + |y / 1000 - y' / 1000| + |p - p'| + |hoursOf t - hoursOf t'|) := by
  -- a bound on the stored winds
  obtain ⟨M, hM⟩ : ∃ M, ∀ i < s.latlngSlices, ∀ j < s.latlngSlices, ∀ k < s.pressureSlices,
      ∀ l < s.timeSlices, |(f i j k l).1| ≤ M ∧ |(f i j k l).2| ≤ M := by
    refine ⟨∑ i ∈ Finset.range s.latlngSlices, ∑ j ∈ Finset.range s.latlngSlices,
      ∑ k ∈ Finset.range s.pressureSlices, ∑ l ∈ Finset.range s.timeSlices,
        (|(f i j k l).1| + |(f i j k l).2|), ?_⟩
    intro i hi j hj k hk l hl
    have h : |(f i j k l).1| + |(f i j k l).2| ≤ _ :=
      (Finset.single_le_sum (f := fun l => |(f i j k l).1| + |(f i j k l).2|)
        (fun _ _ => by positivity) (Finset.mem_range.2 hl)).trans <|
      (Finset.single_le_sum (f := fun k => ∑ l ∈ Finset.range s.timeSlices, (|(f i j k l).1| + |(f i j k l).2|))
        (fun _ _ => by positivity) (Finset.mem_range.2 hk)).trans <|
      (Finset.single_le_sum (f := fun j => ∑ k ∈ Finset.range s.pressureSlices,
          ∑ l ∈ Finset.range s.timeSlices, (|(f i j k l).1| + |(f i j k l).2|))
        (fun _ _ => by positivity) (Finset.mem_range.2 hj)).trans <|
      (Finset.single_le_sum (f := fun i => ∑ j ∈ Finset.range s.latlngSlices,
          ∑ k ∈ Finset.range s.pressureSlices,
          ∑ l ∈ Finset.range s.timeSlices, (|(f i j k l).1| + |(f i j k l).2|))
        (fun _ _ => by positivity) (Finset.mem_range.2 hi))
    constructor
    · exact le_trans (by linarith [abs_nonneg (f i j k l).2]) h
    · exact le_trans (by linarith [abs_nonneg (f i j k l).1]) h
  have hM0 : 0 ≤ M := by
    have := (hM 0 (by have := hs.latlng; omega) 0 (by have := hs.latlng; omega) 0 (by have := hs.pressure; omega) 0
      (by have := hs.time; omega)).1
    exact (abs_nonneg _).trans this
  have nn : ∀ g n, 0 ≤ axisLip g n M := fun g n => Finset.sum_nonneg fun i _ => by positivity
  set A := axisLip s.latlngGrid s.latlngSlices M
  set B := axisLip s.pressureGrid s.pressureSlices M
  set C := axisLip s.timeGrid s.timeSlices M
  have hA : 0 ≤ A := nn _ _
  have hB : 0 ≤ B := nn _ _
  have hC : 0 ≤ C := nn _ _
  refine ⟨A + B + C, ?_⟩
  intro x y p x' y' p' t t' ht ht'
  refine ⟨_, _, forecast_eq s hs f x y p ht, forecast_eq s hs f x' y' p' ht', ?_⟩
  have cl : ∀ a b lo hi, |clip a lo hi - clip b lo hi| ≤ |a - b| := fun a b lo hi => clamp_lipschitz a b lo hi
  have dx : |(prepare s x y p t).x - (prepare s x' y' p' t').x| ≤ |x / 1000 - x' / 1000| := cl _ _ _ _
  have dy : |(prepare s x y p t).y - (prepare s x' y' p' t').y| ≤ |y / 1000 - y' / 1000| := cl _ _ _ _
  have dp : |(prepare s x y p t).p - (prepare s x' y' p' t').p| ≤ |p - p'| := cl _ _ _ _
  have dt : |(prepare s x y p t).t - (prepare s x' y' p' t').t| ≤ |hoursOf t - hoursOf t'| := by
    show |timePosition s t - timePosition s t'| ≤ _
    rw [timePosition_eq s hs ht, timePosition_eq s hs ht']
    exact boomerang_lipschitz (hoursOf_nonneg ht') (hoursOf_nonneg ht) (horizon_pos s hs)
  have fin : ∀ D a b c d a' b' c' d' : ℝ, 0 ≤ a' → 0 ≤ b' → 0 ≤ c' → 0 ≤ d' →
      D ≤ A * a' + A * b' + B * c' + C * d' → a' ≤ a → b' ≤ b → c' ≤ c → d' ≤ d →
      D ≤ (A + B + C) * (a + b + c + d) := by
    intro D a b c d a' b' c' d' h1 h2 h3 h4 h a1 b1 c1 d1
    have := mul_le_mul_of_nonneg_left a1 hA
    have := mul_le_mul_of_nonneg_left b1 hA
    have := mul_le_mul_of_nonneg_left c1 hB
    have := mul_le_mul_of_nonneg_left d1 hC
    have ha : 0 ≤ a := h1.trans a1
    have hb : 0 ≤ b := h2.trans b1
    have hc : 0 ≤ c := h3.trans c1
    have hd : 0 ≤ d := h4.trans d1
    have : 0 ≤ A * c ∧ 0 ≤ A * d ∧ 0 ≤ B * a ∧ 0 ≤ B * b ∧ 0 ≤ B * d ∧ 0 ≤ C * a ∧ 0 ≤ C * b ∧ 0 ≤ C * c :=
      ⟨by positivity, by positivity, by positivity, by positivity, by positivity, by positivity, by positivity,
        by positivity⟩
    obtain ⟨q1, q2, q3, q4, q5, q6, q7, q8⟩ := this
    nlinarith
  have l1 := interp4_lipschitz s hs (fun i j k l => (f i j k l).1) M
    (fun i hi j hj k hk l hl => (hM i hi j hj k hk l hl).1) _ _ (prepare_inGrid s hs x y p ht)
    (prepare_inGrid s hs x' y' p' ht')
  have l2 := interp4_lipschitz s hs (fun i j k l => (f i j k l).2) M
    (fun i hi j hj k hk l hl => (hM i hi j hj k hk l hl).2) _ _ (prepare_inGrid s hs x y p ht)
    (prepare_inGrid s hs x' y' p' ht')
  exact ⟨fin _ _ _ _ _ _ _ _ _ (abs_nonneg _) (abs_nonneg _) (abs_nonneg _) (abs_nonneg _) l1 dx dy dp dt,
    fin _ _ _ _ _ _ _ _ _ (abs_nonneg _) (abs_nonneg _) (abs_nonneg _) (abs_nonneg _) l2 dx dy dp dt⟩

/-! ## C36 — columns -/

theorem mapM_ok_iff {α β : Type} (f : α → Except Err β) (xs : List α) (ys : List β) :
    xs.mapM f = .ok ys ↔ List.Forall₂ (fun x y => f x = .ok y) xs ys := by
  induction xs generalizing ys with
  | nil =>
    rw [List.mapM_nil]
    constructor
    · intro h; cases h; exact .nil
    · intro h; cases h; rfl
  | cons x xs ih =>
    rw [List.mapM_cons]
    cases hx : f x with
    | error e =>
      constructor
      · intro h; cases h
      · intro h; cases h with | cons h1 _ => rw [hx] at h1; cases h1
    | ok y =>
      cases hxs : xs.mapM f with
      | error e =>
        constructor
        · intro h; cases h
        · intro h
          cases h with
          | cons h1 h2 => rw [(ih _).2 h2] at hxs; cases hxs
      | ok ys' =>
        constructor
        · intro h
          cases h
          exact .cons hx ((ih _).1 hxs)
        · intro h
          cases h with
          | cons h1 h2 =>
            rw [hx] at h1; cases h1
            rw [(ih _).2 h2] at hxs; cases hxs
            rfl

theorem forall2_get {α β : Type} {R : α → β → Prop} {xs : List α} {ys : List β} (h : List.Forall₂ R xs ys) :
    ys.length = xs.length ∧ ∀ (i : ℕ) (h1 : i < xs.length) (h2 : i < ys.length), R xs[i] ys[i] := by
  induction h with
  | nil => exact ⟨rfl, fun i h1 => absurd h1 (by simp)⟩
  | cons h1 _ ih =>
    refine ⟨by simp [ih.1], ?_⟩
    intro i h2 h3
    cases i with
    | zero => exact h1
    | succ i => exact ih.2 i _ _

/-- The relation of columns to single forecasts: one entry per pressure, in order. -/
def Spec.ColumnMatches {K W : Type} (C : WindClass K W) (w : W) (x y : ℝ) (ps : List ℝ) (t : ℤ)
    (ws : List (ℝ × ℝ)) : Prop :=
  ws.length = ps.length ∧ ∀ (i : ℕ) (h1 : i < ps.length) (h2 : i < ws.length),
    C.forecast w x y ps[i] t = .ok ws[i]

/-- C36 for every wind field that keeps the base-class column method. -/
theorem C36_column_base {K W : Type} (C : WindClass K W) (hC : C.column = none) (w : W) (x y : ℝ)
    (ps : List ℝ) (t : ℤ) (ws : List (ℝ × ℝ)) (h : columnOf C w x y ps t = .ok ws) :
    Spec.ColumnMatches C w x y ps t ws := by
  unfold columnOf at h
  rw [hC] at h
  simp only at h
  exact forall2_get ((mapM_ok_iff _ _ _).1 h)

-- The static field is one, and has columns.
example : (staticWind ℕ).column = none ∧
    columnOf (staticWind ℕ) () 0 0 [7000, 11000] 0 = .ok [(10, 0), (-10, 0)] := by
  refine ⟨rfl, ?_⟩
  simp only [columnOf, staticWind, List.mapM_cons, List.mapM_nil]
  norm_num
  rfl

/-- C36 for grid fields, which batch the interpolation of a column. -/
theorem C36_column_grid {K : Type} (s : FieldShape) (sample : K → ℤ → GridField) (w : Option GridField)
    (x y : ℝ) (ps : List ℝ) (t : ℤ) (ws : List (ℝ × ℝ))
    (h : columnOf (gridWind s sample) w x y ps t = .ok ws) :
    Spec.ColumnMatches (gridWind s sample) w x y ps t ws := by
  unfold columnOf gridWind at h
  simp only at h
  unfold gridColumn at h
  cases w with
  | none => cases h
  | some f =>
    simp only [List.mapM_map] at h
    exact forall2_get ((mapM_ok_iff _ _ _).1 h)

/-- A grid field that was never reset rejects both kinds of query; after a reset both succeed for
every place, pressures and non-negative time. -/
theorem C36_reset_needed {K : Type} (s : FieldShape) (hs : Spec.ProperShape s) (sample : K → ℤ → GridField)
    (x y p : ℝ) (ps : List ℝ) (t : ℤ) :
    (gridWind s sample).forecast none x y p t = .error .runtime ∧
    columnOf (gridWind s sample) none x y ps t = .error .runtime ∧
    ∀ (k : K) (d : ℤ) (w : Option GridField), 0 ≤ t →
      (∃ v, (gridWind s sample).forecast ((gridWind s sample).resetForecast k d w) x y p t = .ok v) ∧
      ∃ vs, columnOf (gridWind s sample) ((gridWind s sample).resetForecast k d w) x y ps t = .ok vs := by
  refine ⟨rfl, rfl, ?_⟩
  intro k d w ht
  refine ⟨⟨_, forecast_eq s hs _ x y p ht⟩, ?_⟩
  refine ⟨ps.map fun p => (interp4 s (fun i j k' l => (sample k d i j k' l).1) (prepare s x y p t),
        interp4 s (fun i j k' l => (sample k d i j k' l).2) (prepare s x y p t)), ?_⟩
  show (ps.map fun p => prepare s x y p t).mapM (interpn s (sample k d)) = _
  rw [List.mapM_map, mapM_ok_iff]
  rw [List.forall₂_map_right_iff, List.forall₂_same]
  intro p _
  exact forecast_eq s hs (sample k d) x y p ht

/-! ## C37 — ground truth -/

/-- C37. Whenever a ground truth exists it is the componentwise sum of the forecast and the noise at
the same point and time; it exists exactly when both do. -/
theorem C37_ground_truth {K W : Type} (nz : Noise4d) (C : WindClass K W) (w : WindField W) (x y p : ℝ)
    (t : ℤ) (g : ℝ × ℝ) :
    groundTruth nz C w x y p t = .ok g ↔
      ∃ f n, C.forecast w.sub x y p t = .ok f ∧ w.noise.noise nz x y p t = .ok n ∧
        g.1 = f.1 + n.1 ∧ g.2 = f.2 + n.2 := by
  unfold groundTruth
  cases hf : C.forecast w.sub x y p t with
  | error e => simp [bind, Except.bind]
  | ok f =>
    cases hn : w.noise.noise nz x y p t with
    | error e => simp [bind, Except.bind]
    | ok n =>
      simp [bind, Except.bind, pure, Except.pure, windAdd, Prod.ext_iff, eq_comm]

/-! ## C87 — noise -/

theorem noiseLoop_some (nz : Noise4d) (x y p : ℝ) (t : ℤ) (hs : List (Harmonic × HarmonicState))
    (acc : ℝ × ℝ × ℝ) :
    noiseLoop nz x y p t (hs.map fun h => (h.1, some h.2)) acc =
      .ok (acc.1 + (hs.map fun h => noiseMagnitude * nz h.2.seed (x / 1000 / h.1.xSpacing + h.2.offset 0)
        (y / 1000 / h.1.ySpacing + h.2.offset 1) (p / h.1.pSpacing + h.2.offset 2)
        (hoursOf t / h.1.tSpacing + h.2.offset 3) * h.1.weight).sum,
        acc.2.1 + (hs.map fun h => h.1.weight).sum, acc.2.2 + (hs.map fun h => h.1.weight ^ 2).sum) := by
  induction hs generalizing acc with
  | nil => simp [noiseLoop]
  | cons h hs ih =>
    obtain ⟨w, tw, tw2⟩ := acc
    simp only [List.map_cons, noiseLoop, harmonicNoise, ih, List.sum_cons]
    simp only [Except.ok.injEq, Prod.mk.injEq]
    refine ⟨by ring, by ring, by ring⟩

/-- The value a harmonic contributes at a query. -/
noncomputable def Spec.harmonic (nz : Noise4d) (h : Harmonic) (s : HarmonicState) (x y p : ℝ) (t : ℤ) : ℝ :=
  nz s.seed (x / 1000 / h.xSpacing + s.offset 0) (y / 1000 / h.ySpacing + s.offset 1)
    (p / h.pSpacing + s.offset 2) (hoursOf t / h.tSpacing + s.offset 3)

theorem compNoise_eq (nz : Noise4d) (hs : Fin 5 → Harmonic) (st : Fin 5 → HarmonicState) (x y p : ℝ) (t : ℤ)
    (hw : ∑ i, (hs i).weight = 1) (hw2 : 0 < ∑ i, (hs i).weight ^ 2) :
    compNoise nz hs (fun i => some (st i)) x y p t =
      .ok (∑ i, noiseMagnitude * ((hs i).weight / Real.sqrt (∑ j, (hs j).weight ^ 2)) *
        Spec.harmonic nz (hs i) (st i) x y p t) := by
  unfold compNoise
  have e : (List.finRange 5).map (fun i => (hs i, some (st i))) =
      ((List.finRange 5).map fun i => (hs i, st i)).map fun h => (h.1, some h.2) := by
    rw [List.map_map]; rfl
  rw [e, noiseLoop_some]
  simp only [List.map_map, bind, Except.bind, zero_add]
  have s1 : (List.map ((fun h : Harmonic × HarmonicState => h.1.weight) ∘ fun i => (hs i, st i)) (List.finRange 5)).sum
      = ∑ i, (hs i).weight := by
    rw [Fin.sum_univ_def]; rfl
  have s2 : (List.map ((fun h : Harmonic × HarmonicState => h.1.weight ^ 2) ∘ fun i => (hs i, st i))
      (List.finRange 5)).sum = ∑ i, (hs i).weight ^ 2 := by
    rw [Fin.sum_univ_def]; rfl
  rw [s1, s2, hw]
  unfold pyDiv
  rw [if_neg one_ne_zero, if_neg hw2.ne']
  simp only [pure, Except.pure, div_one]
  congr 1
  generalize hS : (∑ i, (hs i).weight ^ 2) = S at *
  have hsq : Real.sqrt (1 / S) = 1 / Real.sqrt S := by rw [Real.sqrt_div zero_le_one, Real.sqrt_one]
  rw [hsq, ← Fin.sum_univ_def, Finset.sum_mul]
  refine Finset.sum_congr rfl fun i _ => ?_
  simp only [Function.comp]
  unfold Spec.harmonic
  ring

theorem weights_sum : ∑ i, (uHarmonics i).weight = 1 ∧ ∑ i, (vHarmonics i).weight = 1 := by
  constructor <;> · rw [Fin.sum_univ_five]; norm_num [uHarmonics, vHarmonics]

theorem weights_sq : (0.2225 < ∑ i, (uHarmonics i).weight ^ 2 ∧ ∑ i, (uHarmonics i).weight ^ 2 < 0.2226) ∧
    (0.2263 < ∑ i, (vHarmonics i).weight ^ 2 ∧ ∑ i, (vHarmonics i).weight ^ 2 < 0.2265) := by
  refine ⟨⟨?_, ?_⟩, ⟨?_, ?_⟩⟩ <;> · rw [Fin.sum_univ_five]; norm_num [uHarmonics, vHarmonics]

-- A ground truth that differs from the forecast: a noise function that is constantly 1.
example {K : Type} (J : Jax K) (k : K) :
    ∃ f g, (staticWind K).forecast () 0 0 7000 0 = .ok f ∧
      groundTruth (fun _ _ _ _ _ => 1) (staticWind K) ⟨(), NoiseModel.new.reset J k⟩ 0 0 7000 0 = .ok g ∧
      f = (10, 0) ∧ g = (10 + noiseMagnitude * ∑ i, (uHarmonics i).weight / Real.sqrt (∑ j, (uHarmonics j).weight ^ 2),
        0 + noiseMagnitude * ∑ i, (vHarmonics i).weight / Real.sqrt (∑ j, (vHarmonics j).weight ^ 2)) := by
  obtain ⟨hu, hv⟩ := weights_sum
  obtain ⟨⟨u1, -⟩, ⟨v1, -⟩⟩ := weights_sq
  have hu0 : 0 < ∑ i, (uHarmonics i).weight ^ 2 := lt_trans (by norm_num) u1
  have hv0 : 0 < ∑ i, (vHarmonics i).weight ^ 2 := lt_trans (by norm_num) v1
  refine ⟨(10, 0), _, by simp only [staticWind]; norm_num, ?_, rfl, rfl⟩
  rw [C37_ground_truth]
  refine ⟨(10, 0), (_, _), by simp only [staticWind]; norm_num, ?_, rfl, rfl⟩
  unfold NoiseModel.noise NoiseModel.reset compReset
  simp only
  rw [compNoise_eq _ uHarmonics _ _ _ _ _ hu hu0, compNoise_eq _ vHarmonics _ _ _ _ _ hv hv0]
  simp only [Spec.harmonic, mul_one, Finset.mul_sum]
  rfl

/-- C87. After a reset, whatever the noise model did before, noise exists at every place and time; each
component is a magnitude times a combination of its five harmonics whose coefficients have squares summing
to 1, so blending independent harmonics of equal variance neither amplifies nor damps that variance; the
magnitude turns the variance 0.0569 of the generator into 1.02 (m/s)²; and the state depends only on the key. -/
theorem C87_noise {K : Type} (J : Jax K) (nz : Noise4d) (k : K) (n0 : NoiseModel) :
    (∀ n1 : NoiseModel, n0.reset J k = n1.reset J k) ∧
    ∃ (M : ℝ) (cu cv : Fin 5 → ℝ) (su sv : Fin 5 → HarmonicState), 0 ≤ M ∧ M ^ 2 * 0.0569 = 1.02 ∧
      ∑ i, cu i ^ 2 = 1 ∧ ∑ i, cv i ^ 2 = 1 ∧
      ∀ x y p t, (n0.reset J k).noise nz x y p t =
        .ok (M * ∑ i, cu i * Spec.harmonic nz (uHarmonics i) (su i) x y p t,
          M * ∑ i, cv i * Spec.harmonic nz (vHarmonics i) (sv i) x y p t) := by
  refine ⟨fun _ => rfl, ?_⟩
  obtain ⟨hu, hv⟩ := weights_sum
  obtain ⟨⟨u1, -⟩, ⟨v1, -⟩⟩ := weights_sq
  have hu0 : 0 < ∑ i, (uHarmonics i).weight ^ 2 := lt_trans (by norm_num) u1
  have hv0 : 0 < ∑ i, (vHarmonics i).weight ^ 2 := lt_trans (by norm_num) v1
  refine ⟨noiseMagnitude, fun i => (uHarmonics i).weight / Real.sqrt (∑ j, (uHarmonics j).weight ^ 2),
    fun i => (vHarmonics i).weight / Real.sqrt (∑ j, (vHarmonics j).weight ^ 2),
    fun i => harmonicReset J (J.split (J.split k 2 0) 5 i), fun i => harmonicReset J (J.split (J.split k 2 1) 5 i),
    Real.sqrt_nonneg _, ?_, ?_, ?_, ?_⟩
  · unfold noiseMagnitude
    rw [Real.sq_sqrt (by norm_num)]
    norm_num
  · simp only [div_pow]
    rw [← Finset.sum_div, Real.sq_sqrt hu0.le, div_self hu0.ne']
  · simp only [div_pow]
    rw [← Finset.sum_div, Real.sq_sqrt hv0.le, div_self hv0.ne']
  · intro x y p t
    unfold NoiseModel.noise NoiseModel.reset compReset
    simp only
    rw [compNoise_eq nz uHarmonics _ x y p t hu hu0, compNoise_eq nz vHarmonics _ x y p t hv hv0]
    simp only [bind, Except.bind, pure, Except.pure, Finset.mul_sum, mul_assoc]

/-- C87. After a reset every harmonic starts from its own key, at an offset in [-1, 1) along each axis when the draws are in [0, 1);
and no offset in that range is out of reach. -/
theorem C87_offsets :
    (∀ {K : Type} (J : Jax K) (k : K) (n0 : NoiseModel), (∀ k i, 0 ≤ J.uniform4 k i ∧ J.uniform4 k i < 1) → ∀ i : Fin 5,
      ∃ su sv : HarmonicState, (n0.reset J k).u i = some su ∧ (n0.reset J k).v i = some sv ∧
        ∀ j, (-1 ≤ su.offset j ∧ su.offset j < 1) ∧ (-1 ≤ sv.offset j ∧ sv.offset j < 1)) ∧
    ∀ o : Fin 4 → ℝ, (∀ j, -1 ≤ o j ∧ o j < 1) → ∃ J : Jax ℕ, (∀ k i, 0 ≤ J.uniform4 k i ∧ J.uniform4 k i < 1) ∧
      ∀ n0 : NoiseModel, ∃ su sv : HarmonicState, (n0.reset J 0).u 0 = some su ∧ (n0.reset J 0).v 0 = some sv ∧ su.offset = o ∧ sv.offset = o := by
  constructor
  · intro K J k n0 hJ i
    refine ⟨_, _, rfl, rfl, fun j => ?_⟩
    have h1 := hJ (J.split (J.split k 2 0) 5 i) j
    have h2 := hJ (J.split (J.split k 2 1) 5 i) j
    unfold harmonicReset
    simp only
    refine ⟨⟨?_, ?_⟩, ⟨?_, ?_⟩⟩ <;> linarith [h1.1, h1.2, h2.1, h2.2]
  · intro o ho
    refine ⟨⟨fun _ => 0, fun _ _ _ => 0, fun _ => 0, fun _ j => (o j + 1) / 2, fun _ => 0, fun _ _ => 0, fun _ => 0⟩, fun k i => ?_, fun n0 => ?_⟩
    · have := ho i
      constructor <;> simp only <;> linarith [this.1, this.2]
    · refine ⟨_, _, rfl, rfl, ?_, ?_⟩ <;>
      · unfold harmonicReset
        funext j
        simp only
        ring

/-- If the simplex noise is in [-1, 1], each wind-noise component is below 9 m/s in magnitude. -/
theorem C87_noise_bounded {K : Type} (J : Jax K) (nz : Noise4d) (hnz : ∀ s a b c d, |nz s a b c d| ≤ 1) (k : K)
    (n0 : NoiseModel) (x y p : ℝ) (t : ℤ) :
    ∃ g, (n0.reset J k).noise nz x y p t = .ok g ∧ |g.1| < 9 ∧ |g.2| < 9 := by
  obtain ⟨hu, hv⟩ := weights_sum
  obtain ⟨⟨u1, -⟩, ⟨v1, -⟩⟩ := weights_sq
  have hu0 : 0 < ∑ i, (uHarmonics i).weight ^ 2 := lt_trans (by norm_num) u1
  have hv0 : 0 < ∑ i, (vHarmonics i).weight ^ 2 := lt_trans (by norm_num) v1
  have mag : noiseMagnitude < 4.235 := by
    unfold noiseMagnitude
    rw [Real.sqrt_lt' (by norm_num)]; norm_num
  have mag0 : 0 ≤ noiseMagnitude := Real.sqrt_nonneg _
  have key : ∀ (hs : Fin 5 → Harmonic) (st : Fin 5 → HarmonicState), (∀ i, 0 ≤ (hs i).weight) →
      ∑ i, (hs i).weight = 1 → 0.2225 < ∑ i, (hs i).weight ^ 2 →
      |∑ i, noiseMagnitude * ((hs i).weight / Real.sqrt (∑ j, (hs j).weight ^ 2)) *
        Spec.harmonic nz (hs i) (st i) x y p t| < 9 := by
    intro hs st hpos hsum hsq
    have hr : 0.4716 < Real.sqrt (∑ j, (hs j).weight ^ 2) := by
      exact Real.lt_sqrt_of_sq_lt (lt_trans (by norm_num) hsq)
    generalize Real.sqrt (∑ j, (hs j).weight ^ 2) = r at *
    have hr0 : 0 < r := lt_trans (by norm_num) hr
    refine lt_of_le_of_lt (Finset.abs_sum_le_sum_abs _ _) ?_
    have b : ∀ i, |noiseMagnitude * ((hs i).weight / r) * Spec.harmonic nz (hs i) (st i) x y p t| ≤
        noiseMagnitude / r * (hs i).weight := by
      intro i
      rw [abs_mul, abs_of_nonneg (by have := hpos i; positivity)]
      calc _ ≤ noiseMagnitude * ((hs i).weight / r) * 1 :=
            mul_le_mul_of_nonneg_left (hnz _ _ _ _ _) (by have := hpos i; positivity)
        _ = _ := by ring
    refine lt_of_le_of_lt (Finset.sum_le_sum fun i _ => b i) ?_
    rw [← Finset.mul_sum, hsum, mul_one, div_lt_iff₀ hr0]
    have : (4.235 : ℝ) ≤ 9 * 0.4716 := by norm_num
    linarith
  have ku := key uHarmonics (fun i => harmonicReset J (J.split (J.split k 2 0) 5 i))
    (by intro i; fin_cases i <;> norm_num [uHarmonics]) hu u1
  have kv := key vHarmonics (fun i => harmonicReset J (J.split (J.split k 2 1) 5 i))
    (by intro i; fin_cases i <;> norm_num [vHarmonics]) hv (lt_trans (by norm_num) v1)
  refine ⟨(_, _), ?_, ku, kv⟩
  unfold NoiseModel.noise NoiseModel.reset compReset
  simp only
  rw [compNoise_eq nz uHarmonics _ x y p t hu hu0, compNoise_eq nz vHarmonics _ x y p t hv hv0]
  rfl

/-- Before any reset the noise model raises `ValueError`. -/
theorem C87_before_reset (nz : Noise4d) (x y p : ℝ) (t : ℤ) :
    NoiseModel.new.noise nz x y p t = .error .value := rfl

/-! ## C40 — static field -/

/-- C40. The simple static field answers every query, with one of four winds of speed 10 m/s that
depends only on the pressure: thresholds 8, 10 and 12 kPa, turning from +x over +y and -x to -y. -/
theorem C40_static {K : Type} (x y p : ℝ) (t : ℤ) :
    ∃ w, (staticWind K).forecast () x y p t = .ok w ∧
      (p < 8000 → w = (10, 0)) ∧ (8000 ≤ p → p < 10000 → w = (0, 10)) ∧
      (10000 ≤ p → p < 12000 → w = (-10, 0)) ∧ (12000 ≤ p → w = (0, -10)) ∧
      ∀ x' y' t', (staticWind K).forecast () x' y' p t' = .ok w := by
  unfold staticWind
  simp only
  split_ifs with h1 h2 h3
  · exact ⟨_, rfl, fun _ => rfl, fun h => absurd h1 (not_lt.2 h), fun h => absurd h1 (not_lt.2 (by linarith)),
      fun h => absurd h1 (not_lt.2 (by linarith)), fun _ _ _ => rfl⟩
  · exact ⟨_, rfl, fun h => absurd h h1, fun _ _ => rfl, fun h => absurd h2 (not_lt.2 h),
      fun h => absurd h2 (not_lt.2 (by linarith)), fun _ _ _ => rfl⟩
  · exact ⟨_, rfl, fun h => absurd h h1, fun _ h => absurd h h2, fun _ _ => rfl,
      fun h => absurd h3 (not_lt.2 h), fun _ _ _ => rfl⟩
  · exact ⟨_, rfl, fun h => absurd h h1, fun _ h => absurd h h2, fun _ h => absurd h h3, fun _ => rfl,
      fun _ _ _ => rfl⟩

end BLE
