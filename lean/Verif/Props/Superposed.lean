import Verif.Props.Turned
import Mathlib.Algebra.Module.LinearMap.Basic
import Mathlib.Algebra.Module.Prod

/-!
# C162 — forecasts follow the field

Interpolating a wind field is linear in the field, local, and treats the four horizontal directions alike.
-/

namespace BLE

theorem interp1_lin (g : ℕ → ℝ) (n : ℕ) (a b a' b' c x : ℝ) (u v u' v' : ℕ → ℝ) :
    interp1 g n (fun i => a * u i + b * v i + a' * u' i + b' * v' i + c) x =
      a * interp1 g n u x + b * interp1 g n v x + a' * interp1 g n u' x + b' * interp1 g n v' x + c := by
  unfold interp1; ring

theorem interp4_lin (s : FieldShape) (a b a' b' c : ℝ) (u v u' v' : ℕ → ℕ → ℕ → ℕ → ℝ) (q : GridPoint) :
    interp4 s (fun i j k l => a * u i j k l + b * v i j k l + a' * u' i j k l + b' * v' i j k l + c) q =
      a * interp4 s u q + b * interp4 s v q + a' * interp4 s u' q + b' * interp4 s v' q + c := by
  unfold interp4
  simp only [interp1_lin]

/-- C162. Whatever is done linearly to all winds of one or two fields (scaling, turning, mirroring, adding them up), with a
constant wind added, is done to their forecasts; and a query fails on the new field exactly if it fails on the old. -/
theorem C162_superposition (s : FieldShape) (f f' : GridField) (L L' : ℝ × ℝ →ₗ[ℝ] ℝ × ℝ) (c : ℝ × ℝ) (x y p : ℝ) (t : ℤ) :
    gridForecast s (some fun i j k l => L (f i j k l) + L' (f' i j k l) + c) x y p t =
      (gridForecast s (some f) x y p t).bind fun w =>
        (gridForecast s (some f') x y p t).bind fun w' => .ok (L w + L' w' + c) := by
  have hL : ∀ (M : ℝ × ℝ →ₗ[ℝ] ℝ × ℝ) (w : ℝ × ℝ), M w = (w.1 * (M (1, 0)).1 + w.2 * (M (0, 1)).1, w.1 * (M (1, 0)).2 + w.2 * (M (0, 1)).2) := by
    intro M w
    have e : w = w.1 • ((1, 0) : ℝ × ℝ) + w.2 • ((0, 1) : ℝ × ℝ) := by
      ext <;> simp
    conv_lhs => rw [e]
    rw [map_add, map_smul, map_smul]
    ext <;> simp
  unfold gridForecast interpn
  by_cases h : inGrid s (prepare s x y p t)
  · simp only [h, decide_true, if_true, Except.bind]
    congr 1
    have key := fun (a b a' b' c : ℝ) => interp4_lin s a b a' b' c (fun i j k l => (f i j k l).1) (fun i j k l => (f i j k l).2)
      (fun i j k l => (f' i j k l).1) (fun i j k l => (f' i j k l).2) (prepare s x y p t)
    have F1 : (fun i j k l => (L (f i j k l) + L' (f' i j k l) + c).1) = fun i j k l => (L (1, 0)).1 * (f i j k l).1 +
        (L (0, 1)).1 * (f i j k l).2 + (L' (1, 0)).1 * (f' i j k l).1 + (L' (0, 1)).1 * (f' i j k l).2 + c.1 := by
      funext i j k l
      rw [hL L (f i j k l), hL L' (f' i j k l)]
      simp only [Prod.fst_add]
      ring
    have F2 : (fun i j k l => (L (f i j k l) + L' (f' i j k l) + c).2) = fun i j k l => (L (1, 0)).2 * (f i j k l).1 +
        (L (0, 1)).2 * (f i j k l).2 + (L' (1, 0)).2 * (f' i j k l).1 + (L' (0, 1)).2 * (f' i j k l).2 + c.2 := by
      funext i j k l
      rw [hL L (f i j k l), hL L' (f' i j k l)]
      simp only [Prod.snd_add]
      ring
    rw [F1, F2, key, key]
    generalize interp4 s (fun i j k l => (f i j k l).1) (prepare s x y p t) = a1
    generalize interp4 s (fun i j k l => (f i j k l).2) (prepare s x y p t) = a2
    generalize interp4 s (fun i j k l => (f' i j k l).1) (prepare s x y p t) = b1
    generalize interp4 s (fun i j k l => (f' i j k l).2) (prepare s x y p t) = b2
    rw [hL L (a1, a2), hL L' (b1, b2)]
    ext
    · simp only [Prod.fst_add]; ring
    · simp only [Prod.snd_add]; ring
  · simp only [h, decide_false, Bool.false_eq_true, if_false, Except.bind]

/-! ## Locality -/

/-- Node `i` of the `n` grid points `g` is next to `x`: no other grid point lies between the two. -/
def Spec.NextTo (g : ℕ → ℝ) (n i : ℕ) (x : ℝ) : Prop :=
  i < n ∧ ∀ j < n, ¬ (g i < g j ∧ g j < x) ∧ ¬ (x < g j ∧ g j < g i)

theorem locate_nextTo (g : ℕ → ℝ) (n : ℕ) (x : ℝ) (hn : 2 ≤ n) (hg : ∀ i j, i < j → j < n → g i < g j)
    (h0 : g 0 ≤ x) (h1 : x ≤ g (n - 1)) :
    Spec.NextTo g n (locate g n x) x ∧ Spec.NextTo g n (locate g n x + 1) x := by
  obtain ⟨h, ha, hb⟩ := locate_spec g n x hn hg h0 h1
  have up : ∀ j < n, g (locate g n x) < g j → g (locate g n x + 1) ≤ g j := by
    intro j hj hlt
    rcases Nat.lt_or_ge (locate g n x) j with h' | h'
    · rcases Nat.lt_or_ge (locate g n x + 1) j with h'' | h''
      · exact (hg _ _ h'' hj).le
      · rw [show j = locate g n x + 1 by omega]
    · rcases Nat.lt_or_ge j (locate g n x) with h'' | h''
      · exact absurd (hg _ _ h'' (by omega)) (not_lt.2 hlt.le)
      · rw [show j = locate g n x by omega] at hlt; exact absurd hlt (lt_irrefl _)
  refine ⟨⟨by omega, fun j hj => ⟨fun c => ?_, fun c => ?_⟩⟩, ⟨h, fun j hj => ⟨fun c => ?_, fun c => ?_⟩⟩⟩
  · have := up j hj c.1; linarith [c.2]
  · linarith [c.1, c.2]
  · linarith [c.1, c.2]
  · have := up j hj (by linarith [c.1]); linarith [c.2]

theorem interp1_local (g : ℕ → ℝ) (n : ℕ) (x : ℝ) (hn : 2 ≤ n) (hg : ∀ i j, i < j → j < n → g i < g j)
    (h0 : g 0 ≤ x) (h1 : x ≤ g (n - 1)) (u v : ℕ → ℝ) (h : ∀ i, Spec.NextTo g n i x → u i = v i) :
    interp1 g n u x = interp1 g n v x := by
  obtain ⟨a, b⟩ := locate_nextTo g n x hn hg h0 h1
  unfold interp1
  simp only [h _ a, h _ b]

/-- C162. A forecast depends only on the winds at the grid nodes next to the point asked for. -/
theorem C162_local (s : FieldShape) (hs : Spec.ProperShape s) (f f' : GridField) (x y p : ℝ) (t : ℤ)
    (h : ∀ i j k l, Spec.NextTo s.latlngGrid s.latlngSlices i (prepare s x y p t).x →
      Spec.NextTo s.latlngGrid s.latlngSlices j (prepare s x y p t).y →
      Spec.NextTo s.pressureGrid s.pressureSlices k (prepare s x y p t).p →
      Spec.NextTo s.timeGrid s.timeSlices l (prepare s x y p t).t → f i j k l = f' i j k l) :
    gridForecast s (some f) x y p t = gridForecast s (some f') x y p t := by
  rcases lt_or_ge t 0 with ht | ht
  · rw [C34_negative_time s hs f x y p t ht, C34_negative_time s hs f' x y p t ht]
  · rw [forecast_eq s hs f x y p ht, forecast_eq s hs f' x y p ht]
    obtain ⟨g1, g2, g3, g4⟩ := prepare_inGrid s hs x y p ht
    obtain ⟨m1, m2, m3⟩ := strict_of_shape s hs
    have key : ∀ F F' : ℕ → ℕ → ℕ → ℕ → ℝ, (∀ i j k l, f i j k l = f' i j k l → F i j k l = F' i j k l) →
        interp4 s F (prepare s x y p t) = interp4 s F' (prepare s x y p t) := by
      intro F F' hF
      unfold interp4
      refine interp1_local _ _ _ hs.latlng m1 g1.1 g1.2 _ _ fun i hi => ?_
      refine interp1_local _ _ _ hs.latlng m1 g2.1 g2.2 _ _ fun j hj => ?_
      refine interp1_local _ _ _ hs.pressure m2 g3.1 g3.2 _ _ fun k hk => ?_
      exact interp1_local _ _ _ hs.time m3 g4.1 g4.2 _ _ fun l hl => hF _ _ _ _ (h i j k l hi hj hk hl)
    rw [key (fun i j k l => (f i j k l).1) (fun i j k l => (f' i j k l).1) fun i j k l e => congrArg Prod.fst e,
      key (fun i j k l => (f i j k l).2) (fun i j k l => (f' i j k l).2) fun i j k l e => congrArg Prod.snd e]

/-! ## The directions -/

theorem interp1_cell (g : ℕ → ℝ) (n i : ℕ) (vals : ℕ → ℝ) (x : ℝ) (hn : 2 ≤ n) (hg : ∀ i j, i < j → j < n → g i < g j)
    (hi : i + 1 < n) (ha : g i ≤ x) (hb : x ≤ g (i + 1)) :
    interp1 g n vals x = (1 - (x - g i) / (g (i + 1) - g i)) * vals i + (x - g i) / (g (i + 1) - g i) * vals (i + 1) := by
  have hp : g (i + 1) - g i ≠ 0 := (sub_pos.2 (hg i (i + 1) (by omega) hi)).ne'
  rcases eq_or_lt_of_le ha with e | l1
  · rw [← e, interp1_node g n i vals hn (by omega) hg]; simp
  rcases eq_or_lt_of_le hb with e | l2
  · rw [e, interp1_node g n (i + 1) vals hn hi hg, div_self hp]; ring
  have h0 : g 0 ≤ x := by
    rcases Nat.eq_zero_or_pos i with h | h
    · rw [h] at ha; exact ha
    · exact (hg 0 i h (by omega)).le.trans ha
  have h1 : x ≤ g (n - 1) := by
    rcases Nat.lt_or_ge (i + 1) (n - 1) with h | h
    · exact hb.trans (hg _ _ h (by omega)).le
    · rw [show n - 1 = i + 1 by omega]; exact hb
  obtain ⟨c, ca, cb⟩ := locate_spec g n x hn hg h0 h1
  have : locate g n x = i := by
    rcases Nat.lt_trichotomy (locate g n x) i with h | h | h
    · rcases Nat.lt_or_ge (locate g n x + 1) i with h' | h'
      · linarith [hg _ _ h' (by omega)]
      · rw [show locate g n x + 1 = i by omega] at cb; linarith
    · exact h
    · rcases Nat.lt_or_ge (i + 1) (locate g n x) with h' | h'
      · linarith [hg _ _ h' (by omega)]
      · rw [show locate g n x = i + 1 by omega] at ca; linarith
  unfold interp1
  simp only [this]

theorem interp1_mirror (g : ℕ → ℝ) (n : ℕ) (vals : ℕ → ℝ) (x : ℝ) (hn : 2 ≤ n) (hg : ∀ i j, i < j → j < n → g i < g j)
    (hm : ∀ i < n, g (n - 1 - i) = - g i) (h0 : g 0 ≤ x) (h1 : x ≤ g (n - 1)) :
    interp1 g n (fun i => vals (n - 1 - i)) (-x) = interp1 g n vals x := by
  obtain ⟨c, ca, cb⟩ := locate_spec g n x hn hg h0 h1
  set i := locate g n x
  have e1 : g (n - 2 - i) = - g (i + 1) := by
    rw [← hm (i + 1) c]; congr 1; omega
  have e2 : g (n - 2 - i + 1) = - g i := by
    rw [← hm i (by omega)]; congr 1; omega
  rw [interp1_cell g n i vals x hn hg c ca cb,
    interp1_cell g n (n - 2 - i) _ (-x) hn hg (by omega) (by rw [e1]; linarith) (by rw [e2]; linarith), e1, e2,
    show n - 1 - (n - 2 - i) = i + 1 by omega, show n - 1 - (n - 2 - i + 1) = i by omega]
  have hp : g (i + 1) - g i ≠ 0 := (sub_pos.2 (hg i (i + 1) (by omega) c)).ne'
  have hq : -g i - -g (i + 1) = g (i + 1) - g i := by ring
  rw [hq]
  field_simp
  ring

theorem latlng_mirror (s : FieldShape) (hs : Spec.ProperShape s) (i : ℕ) (hi : i < s.latlngSlices) :
    s.latlngGrid (s.latlngSlices - 1 - i) = - s.latlngGrid i := by
  have h2 : (2 : ℝ) ≤ s.latlngSlices := by exact_mod_cast hs.latlng
  have hp : (s.latlngSlices : ℝ) - 1 ≠ 0 := by linarith
  have e : ((s.latlngSlices - 1 - i : ℕ) : ℝ) = (s.latlngSlices : ℝ) - 1 - i := by
    rw [Nat.cast_sub (by omega), Nat.cast_sub (by omega)]; simp
  unfold FieldShape.latlngGrid linspace
  rw [e]
  field_simp
  ring

theorem clip_mirror (x d : ℝ) (hd : 0 < d) : clip (-x / 1000) (-d) d = - clip (x / 1000) (-d) d := by
  unfold clip
  rw [neg_div]
  rcases le_total (x / 1000) (-d) with h | h
  · rw [max_eq_right h, min_eq_left (by linarith : -d ≤ d), max_eq_left (by linarith), min_eq_right (by linarith), neg_neg]
  · rw [max_eq_left h]
    rcases le_total (x / 1000) d with h' | h'
    · rw [min_eq_left h', max_eq_left (by linarith), min_eq_left (by linarith)]
    · rw [min_eq_right h', max_eq_right (by linarith), min_eq_left (by linarith)]

theorem interp1_swap (g h : ℕ → ℝ) (n m : ℕ) (F : ℕ → ℕ → ℝ) (x y : ℝ) :
    interp1 g n (fun i => interp1 h m (F i) y) x = interp1 h m (fun j => interp1 g n (fun i => F i j) x) y := by
  unfold interp1; ring

/-- C162. East and west, north and south, and the two horizontal axes are treated alike: the forecast of the field mirrored at
the station's meridian or parallel, or at the diagonal, is the forecast of the field at the mirrored place. -/
theorem C162_mirrors (s : FieldShape) (hs : Spec.ProperShape s) (f : GridField) (x y p : ℝ) (t : ℤ) :
    gridForecast s (some fun i j k l => f (s.latlngSlices - 1 - i) j k l) (-x) y p t = gridForecast s (some f) x y p t ∧
    gridForecast s (some fun i j k l => f i (s.latlngSlices - 1 - j) k l) x (-y) p t = gridForecast s (some f) x y p t ∧
    gridForecast s (some fun i j k l => f j i k l) y x p t = gridForecast s (some f) x y p t := by
  rcases lt_or_ge t 0 with ht | ht
  · simp only [C34_negative_time s hs _ _ _ p t ht, and_self]
  · simp only [forecast_eq s hs _ _ _ p ht]
    obtain ⟨g1, g2, -, -⟩ := prepare_inGrid s hs x y p ht
    obtain ⟨m1, -, -⟩ := strict_of_shape s hs
    have hd := hs.box
    have ex : (prepare s (-x) y p t).x = -(prepare s x y p t).x := clip_mirror x _ hd
    have ey : (prepare s x (-y) p t).y = -(prepare s x y p t).y := clip_mirror y _ hd
    have A : ∀ F : ℕ → ℕ → ℕ → ℕ → ℝ, interp4 s (fun i j k l => F (s.latlngSlices - 1 - i) j k l) (prepare s (-x) y p t) =
        interp4 s F (prepare s x y p t) := by
      intro F
      unfold interp4
      rw [ex]
      exact interp1_mirror s.latlngGrid s.latlngSlices (fun i => interp1 s.latlngGrid s.latlngSlices (fun j =>
        interp1 s.pressureGrid s.pressureSlices (fun k => interp1 s.timeGrid s.timeSlices (F i j k) (prepare s x y p t).t)
          (prepare s x y p t).p) (prepare s x y p t).y) _ hs.latlng m1 (latlng_mirror s hs) g1.1 g1.2
    have B : ∀ F : ℕ → ℕ → ℕ → ℕ → ℝ, interp4 s (fun i j k l => F i (s.latlngSlices - 1 - j) k l) (prepare s x (-y) p t) =
        interp4 s F (prepare s x y p t) := by
      intro F
      unfold interp4
      rw [ey]
      congr 1
      funext i
      exact interp1_mirror s.latlngGrid s.latlngSlices (fun j =>
        interp1 s.pressureGrid s.pressureSlices (fun k => interp1 s.timeGrid s.timeSlices (F i j k) (prepare s x y p t).t)
          (prepare s x y p t).p) _ hs.latlng m1 (latlng_mirror s hs) g2.1 g2.2
    have C : ∀ F : ℕ → ℕ → ℕ → ℕ → ℝ, interp4 s (fun i j k l => F j i k l) (prepare s y x p t) =
        interp4 s F (prepare s x y p t) := by
      intro F
      unfold interp4
      exact interp1_swap s.latlngGrid s.latlngGrid s.latlngSlices s.latlngSlices (fun i j =>
        interp1 s.pressureGrid s.pressureSlices (fun k => interp1 s.timeGrid s.timeSlices (F j i k) (prepare s x y p t).t)
          (prepare s x y p t).p) _ _
    refine ⟨?_, ?_, ?_⟩
    · rw [A fun i j k l => (f i j k l).1, A fun i j k l => (f i j k l).2]
    · rw [B fun i j k l => (f i j k l).1, B fun i j k l => (f i j k l).2]
    · rw [C fun i j k l => (f i j k l).1, C fun i j k l => (f i j k l).2]

/-! ## Mirrored and turned worlds -/

/-- A quarter turn, from east to north. -/
def Spec.quarterTurn : Spec.Turn where
  a := 0
  b := -1
  c := 1
  d := 0
  col1 := by norm_num
  col2 := by norm_num
  ortho := by norm_num

/-- A turn as a linear map. -/
def Spec.Turn.linear (O : Spec.Turn) : ℝ × ℝ →ₗ[ℝ] ℝ × ℝ where
  toFun := O.app
  map_add' v w := by ext <;> simp only [Spec.Turn.app, Prod.fst_add, Prod.snd_add] <;> ring
  map_smul' r v := by ext <;> simp only [Spec.Turn.app, Prod.smul_fst, Prod.smul_snd, smul_eq_mul, RingHom.id_apply] <;> ring

theorem forecast_turned (s : FieldShape) (O : Spec.Turn) (f : GridField) (x y p : ℝ) (t : ℤ) :
    gridForecast s (some fun i j k l => O.app (f i j k l)) x y p t = (gridForecast s (some f) x y p t).map O.app := by
  have h := C162_superposition s f f O.linear 0 0 x y p t
  simp only [LinearMap.zero_apply, add_zero] at h
  have e : (fun i j k l => O.linear (f i j k l)) = fun i j k l => O.app (f i j k l) := rfl
  rw [e] at h
  rw [h]
  cases gridForecast s (some f) x y p t <;> rfl

theorem gridColumn_each (s : FieldShape) (f : GridField) (x y : ℝ) (ps : List ℝ) (t : ℤ) :
    gridColumn s (some f) x y ps t = ps.mapM fun p => gridForecast s (some f) x y p t := by
  unfold gridColumn gridForecast
  simp only
  induction ps with
  | nil => rfl
  | cons p ps ih => simp only [List.map_cons, List.mapM_cons, ih]

theorem mapM_after {α β : Type} (F F' : α → Except Err β) (g : β → β) (h : ∀ a, F' a = (F a).map g) (l : List α) :
    l.mapM F' = (l.mapM F).map (List.map g) := by
  induction l with
  | nil => rfl
  | cons a l ih =>
    simp only [List.mapM_cons, ih, h]
    cases F a with
    | error e => rfl
    | ok b => cases l.mapM F <;> rfl

theorem grid_turned {K : Type} (s : FieldShape) (sample : K → ℤ → GridField) (O : Spec.Turn) (f f' : GridField)
    (h : ∀ x y p t, gridForecast s (some f') (O.app (x, y)).1 (O.app (x, y)).2 p t = (gridForecast s (some f) x y p t).map O.app) :
    Spec.TurnedForecast O (Forecaster.of (gridWind s sample) (some f)) (Forecaster.of (gridWind s sample) (some f')) := by
  refine ⟨h, fun x y ps t => ?_⟩
  show gridColumn s (some f') _ _ ps t = (gridColumn s (some f) x y ps t).map _
  rw [gridColumn_each, gridColumn_each]
  exact mapM_after _ _ _ (fun p => h x y p t) ps

/-- C162. A stored field mirrored at the station's meridian, or turned by a quarter, places and winds alike, is a mirrored or turned
forecast; so by C154 what an agent observes, and what StationSeeker does, differs at most in the heading. -/
theorem C162_worlds {K : Type} (s : FieldShape) (hs : Spec.ProperShape s) (sample : K → ℤ → GridField) (f : GridField) :
    Spec.TurnedForecast Spec.mirror (Forecaster.of (gridWind s sample) (some f))
      (Forecaster.of (gridWind s sample) (some fun i j k l => Spec.mirror.app (f (s.latlngSlices - 1 - i) j k l))) ∧
    Spec.TurnedForecast Spec.quarterTurn (Forecaster.of (gridWind s sample) (some f))
      (Forecaster.of (gridWind s sample) (some fun i j k l => Spec.quarterTurn.app (f j (s.latlngSlices - 1 - i) k l))) := by
  constructor
  · refine grid_turned s sample _ _ _ fun x y p t => ?_
    rw [forecast_turned s Spec.mirror (fun i j k l => f (s.latlngSlices - 1 - i) j k l)]
    have e : Spec.mirror.app (x, y) = (-x, y) := by simp [Spec.mirror, Spec.Turn.app]
    rw [e, (C162_mirrors s hs f x y p t).1]
  · refine grid_turned s sample _ _ _ fun x y p t => ?_
    rw [forecast_turned s Spec.quarterTurn (fun i j k l => f j (s.latlngSlices - 1 - i) k l)]
    have e : Spec.quarterTurn.app (x, y) = (-y, x) := by simp [Spec.quarterTurn, Spec.Turn.app]
    rw [e]
    have h1 := (C162_mirrors s hs f x y p t).2.1
    have h2 := (C162_mirrors s hs (fun i j k l => f i (s.latlngSlices - 1 - j) k l) x (-y) p t).2.2
    rw [h1] at h2
    exact congrArg (Except.map Spec.quarterTurn.app) h2

/-- Twice the field and a wind of 3 m/s from the west: forecasts follow. -/
example (f : GridField) (x y p : ℝ) (t : ℤ) (w : ℝ × ℝ) (h : gridForecast FieldShape.default (some f) x y p t = .ok w) :
    gridForecast FieldShape.default (some fun i j k l => (2 : ℝ) • f i j k l + (3, 0)) x y p t = .ok ((2 : ℝ) • w + (3, 0)) := by
  have := C162_superposition FieldShape.default f f ((2 : ℝ) • LinearMap.id) 0 (3, 0) x y p t
  rw [h] at this
  simpa [Except.bind] using this

/-- 20 km east of the station, the winds at the western edge of the field (node 0) do not matter. -/
example (f : GridField) (w : ℝ × ℝ) (y p : ℝ) (t : ℤ) :
    gridForecast FieldShape.default (some fun i j k l => if i = 0 then w else f i j k l) 20000 y p t =
      gridForecast FieldShape.default (some f) 20000 y p t := by
  refine C162_local _ (by constructor <;> norm_num [FieldShape.default]) _ _ _ _ _ _ fun i j k l hi _ _ _ => ?_
  have : i ≠ 0 := by
    rintro rfl
    refine (hi.2 1 (by norm_num [FieldShape.default])).1 ?_
    norm_num [FieldShape.latlngGrid, linspace, FieldShape.default, prepare, clip]
  simp only [if_neg this]

end BLE
