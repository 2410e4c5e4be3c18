import Verif.Model.Generative
import Verif.Props.Wind
import Mathlib.Analysis.SpecialFunctions.Exp
import Mathlib.Analysis.SpecialFunctions.Log.Basic

/-!
# The generative wind model: C73–C77, C93
-/

namespace BLE

variable {F K P : Type}

/-! ## C73 -/

/-- The divergence of a wind field at a grid node by central differences, if the first horizontal axis is `y` and the
second `x` (grid spacing 1). -/
noncomputable def Spec.divergenceYX (f : GridField) (i j k l : ℕ) : ℝ :=
  ((f i (j + 1) k l).1 - (f i (j - 1) k l).1) / 2 + ((f (i + 1) j k l).2 - (f (i - 1) j k l).2) / 2

/-- The divergence of a wind field at a grid node by central differences, if the first horizontal axis is `x` and the
second `y`, which is how the simulator reads the field. -/
noncomputable def Spec.divergenceXY (f : GridField) (i j k l : ℕ) : ℝ :=
  ((f (i + 1) j k l).1 - (f (i - 1) j k l).1) / 2 + ((f i (j + 1) k l).2 - (f i (j - 1) k l).2) / 2

theorem windOfFlow_eq (s : FieldShape) (F : ℕ → ℕ → ℕ → ℝ) (i j k l : ℕ) (hi : i < s.latlngSlices) (hj : j < s.latlngSlices) :
    windOfFlow s F i j k l =
      ((F (i + 2) (j + 1) (k * s.timeSlices + l) - F i (j + 1) (k * s.timeSlices + l)) / 2,
       -((F (i + 1) (j + 2) (k * s.timeSlices + l) - F (i + 1) j (k * s.timeSlices + l)) / 2)) := by
  unfold windOfFlow dflowDy dflowDx rollBack rollForward
  have e1 : ∀ m, m < s.latlngSlices → (m + 1 + 1) % (s.latlngSlices + 2) = m + 2 := fun m hm => Nat.mod_eq_of_lt (by omega)
  have e2 : ∀ m, m < s.latlngSlices → (m + 1 + (s.latlngSlices + 2) - 1) % (s.latlngSlices + 2) = m := by
    intro m hm
    rw [show m + 1 + (s.latlngSlices + 2) - 1 = m + (s.latlngSlices + 2) by omega, Nat.add_mod_right]
    exact Nat.mod_eq_of_lt (by omega)
  rw [e1 i hi, e1 j hj, e2 i hi, e2 j hj]
  simp

/-- Nothing that is wrapped around by the rolling gets into the wind field: every node uses the two neighbours of its
own position in the bordered flow field. -/
theorem C73_no_wraparound (s : FieldShape) (F F' : ℕ → ℕ → ℕ → ℝ)
    (h : ∀ i j c, i < s.latlngSlices + 2 → j < s.latlngSlices + 2 → F i j c = F' i j c) (i j k l : ℕ)
    (hi : i < s.latlngSlices) (hj : j < s.latlngSlices) :
    windOfFlow s F i j k l = windOfFlow s F' i j k l ∧
    (windOfFlow s F i j k l).1 = (F' (i + 2) (j + 1) (k * s.timeSlices + l) - F' i (j + 1) (k * s.timeSlices + l)) / 2 ∧
    (windOfFlow s F i j k l).2 = -((F' (i + 1) (j + 2) (k * s.timeSlices + l) - F' (i + 1) j (k * s.timeSlices + l)) / 2) := by
  rw [windOfFlow_eq s F i j k l hi hj, windOfFlow_eq s F' i j k l hi hj, h _ _ _ (by omega) (by omega),
    h _ _ _ (by omega) (by omega), h _ _ _ (by omega) (by omega), h _ _ _ (by omega) (by omega)]
  exact ⟨rfl, rfl, rfl⟩

/-- The sampled field depends on the key only, not on the date, and every node of it is the central differences of the flow
field which the network yields for the key. -/
theorem C73_sampled {K : Type} (s : FieldShape) (net : K → ℕ → ℝ) (key : K) (date date' : ℤ) :
    sampleField s net key date = sampleField s net key date' ∧
    ∀ i j k l, i < s.latlngSlices → j < s.latlngSlices →
      sampleField s net key date i j k l =
        ((flowExpanded s (net key) (i + 2) (j + 1) (k * s.timeSlices + l) -
            flowExpanded s (net key) i (j + 1) (k * s.timeSlices + l)) / 2,
          -((flowExpanded s (net key) (i + 1) (j + 2) (k * s.timeSlices + l) -
            flowExpanded s (net key) (i + 1) j (k * s.timeSlices + l)) / 2)) := by
  refine ⟨rfl, fun i j k l hi hj => ?_⟩
  obtain ⟨-, h1, h2⟩ := C73_no_wraparound s (flowExpanded s (net key)) (flowExpanded s (net key)) (fun _ _ _ _ _ => rfl) i j k l hi hj
  exact Prod.ext h1 h2

/-- Full statement: `Spec.divergenceXY (decode s z) i j k l = 0`, i.e. no divergence of the wind as it is flown. What
holds: for every network output, the field is incompressible at every interior node *if its first axis is
taken as y and its second as x*. The simulator takes them the other way round (`prepare`; `C73_diverges_as_flown`). -/
theorem C73_incompressible_partial (s : FieldShape) (z : ℕ → ℝ) (i j k l : ℕ) (hi0 : 1 ≤ i) (hi : i + 1 < s.latlngSlices)
    (hj0 : 1 ≤ j) (hj : j + 1 < s.latlngSlices) : Spec.divergenceYX (decode s z) i j k l = 0 := by
  obtain ⟨i, rfl⟩ : ∃ i', i = i' + 1 := ⟨i - 1, by omega⟩
  obtain ⟨j, rfl⟩ : ∃ j', j = j' + 1 := ⟨j - 1, by omega⟩
  unfold Spec.divergenceYX decode
  simp only [Nat.add_sub_cancel]
  rw [windOfFlow_eq _ _ _ _ _ _ (by omega) (by omega), windOfFlow_eq _ _ _ _ _ _ (by omega) (by omega),
    windOfFlow_eq _ _ _ _ _ _ (by omega) (by omega), windOfFlow_eq _ _ _ _ _ _ (by omega) (by omega)]
  simp only
  ring

/-- The network output whose flow fields are 1 in the fourth row and 0 elsewhere. -/
noncomputable def ridge : ℕ → ℝ := fun n => if n / 90 / 7 = 3 then 1 else 0

theorem triangle_eq (x : ℝ) : triangle x = if |x| ≤ 1 then 1 - |x| else 0 := by
  unfold triangle
  split
  · rw [max_eq_right (by linarith)]
  · rw [max_eq_left (by linarith)]

/-- The total weight is positive everywhere in the output. -/
theorem weights_pos (i : ℕ) (hi : i < 23) : 0 < ∑ k ∈ Finset.range 7, triangle (samplePos 7 23 i - k) := by
  have h0 : ∀ x, 0 ≤ triangle x := fun x => le_max_left _ _
  have hp : ∀ k : ℕ, k < 7 → |samplePos 7 23 i - k| < 1 → 0 < ∑ k ∈ Finset.range 7, triangle (samplePos 7 23 i - k) := by
    intro k hk hx
    refine lt_of_lt_of_le ?_ (Finset.single_le_sum (f := fun k : ℕ => triangle (samplePos 7 23 i - k)) (fun k _ => h0 _)
      (Finset.mem_range.2 hk))
    unfold triangle
    exact lt_max_of_lt_right (by linarith)
  have hi' : (i : ℝ) ≤ 22 := by exact_mod_cast Nat.le_of_lt_succ hi
  have hi0 : (0 : ℝ) ≤ i := Nat.cast_nonneg i
  have hs : samplePos 7 23 i = ((i : ℝ) + 1 / 2) * (7 / 23) - 1 / 2 := by unfold samplePos; norm_num
  rcases lt_or_ge (samplePos 7 23 i) 0 with hneg | hpos
  · exact hp 0 (by norm_num) (by rw [abs_lt]; push_cast; constructor <;> rw [hs] at * <;> linarith)
  · have hfl := Nat.floor_le hpos
    have hfu := Nat.lt_floor_add_one (samplePos 7 23 i)
    refine hp ⌊samplePos 7 23 i⌋₊ ?_ (by rw [abs_lt]; constructor <;> linarith)
    rw [Nat.floor_lt hpos, hs]
    push_cast
    linarith

theorem resize1_const (i : ℕ) (hi : i < 23) (c : ℝ) : resize1 7 23 (fun _ => c) i = c := by
  unfold resize1
  rw [← Finset.sum_mul, mul_comm, mul_div_assoc, div_self (weights_pos i hi).ne', mul_one]

theorem ridge_expanded (i j c : ℕ) (hj : j < 23) (hc : c < 90) :
    flowExpanded FieldShape.default ridge i j c = resize1 7 23 (fun a => if a = 3 then 1 else 0) i := by
  have h : ∀ a b : ℕ, b < 7 → flowFields FieldShape.default ridge a b c = if a = 3 then 1 else 0 := by
    intro a b hb
    have e : ((a * flowWidth + b) * FieldShape.default.numFlowFields + c) / 90 / 7 = a := by
      unfold flowWidth FieldShape.numFlowFields FieldShape.default
      simp only
      omega
    unfold flowFields ridge
    rw [e]
  have hin : ∀ a, resize1 flowWidth (FieldShape.default.latlngSlices + 2)
      (fun b => flowFields FieldShape.default ridge a b c) j = if a = 3 then 1 else 0 := by
    intro a
    have : resize1 flowWidth (FieldShape.default.latlngSlices + 2) (fun b => flowFields FieldShape.default ridge a b c) j =
        resize1 7 23 (fun _ => if a = 3 then (1:ℝ) else 0) j := by
      unfold resize1
      congr 1
      refine Finset.sum_congr rfl fun b hb => ?_
      simp only [h a b (Finset.mem_range.1 hb)]
      rfl
    rw [this, resize1_const j hj]
  unfold flowExpanded
  simp only [hin]
  rfl

/-- As the simulator reads it, the generated wind is not incompressible: for this network output the wind at the station
converges — what the forecasts 50 km to the east and west, and to the north and south, say. -/
theorem C73_diverges_as_flown : Spec.divergenceXY (decode FieldShape.default ridge) 10 10 0 0 < -0.3 ∧
    ∃ u : ℝ → ℝ → ℝ × ℝ, (∀ x y, (x = -50000 ∨ x = 0 ∨ x = 50000) → (y = -50000 ∨ y = 0 ∨ y = 50000) →
        gridForecast FieldShape.default (some (decode FieldShape.default ridge)) x y 5000 0 = .ok (u x y)) ∧
      ((u 50000 0).1 - (u (-50000) 0).1) / 2 + ((u 0 50000).2 - (u 0 (-50000)).2) / 2 < -0.3 := by
  have hr : ∀ i : ℕ, resize1 7 23 (fun a => if a = 3 then (1:ℝ) else 0) i =
      triangle (samplePos 7 23 i - 3) / ∑ k ∈ Finset.range 7, triangle (samplePos 7 23 i - k) := by
    intro i
    unfold resize1
    congr 1
    simp [Finset.sum_range_succ]
  have r9 : resize1 7 23 (fun a => if a = 3 then (1:ℝ) else 0) 9 = 9 / 23 := by
    rw [hr]; simp only [Finset.sum_range_succ, Finset.sum_range_zero, samplePos, triangle_eq]; norm_num [abs_le, abs_of_pos, abs_of_neg]
  have r11 : resize1 7 23 (fun a => if a = 3 then (1:ℝ) else 0) 11 = 1 := by
    rw [hr]; simp only [Finset.sum_range_succ, Finset.sum_range_zero, samplePos, triangle_eq]; norm_num [abs_le, abs_of_pos, abs_of_neg]
  have r13 : resize1 7 23 (fun a => if a = 3 then (1:ℝ) else 0) 13 = 9 / 23 := by
    rw [hr]; simp only [Finset.sum_range_succ, Finset.sum_range_zero, samplePos, triangle_eq]; norm_num [abs_le, abs_of_pos, abs_of_neg]
  have hd : Spec.divergenceXY (decode FieldShape.default ridge) 10 10 0 0 < -0.3 := by
    unfold Spec.divergenceXY decode
    have hl : FieldShape.default.latlngSlices = 21 := rfl
    have hc : 0 * FieldShape.default.timeSlices + 0 < 90 := by norm_num
    rw [windOfFlow_eq _ _ _ _ _ _ (by rw [hl]; norm_num) (by rw [hl]; norm_num),
      windOfFlow_eq _ _ _ _ _ _ (by rw [hl]; norm_num) (by rw [hl]; norm_num),
      windOfFlow_eq _ _ _ _ _ _ (by rw [hl]; norm_num) (by rw [hl]; norm_num),
      windOfFlow_eq _ _ _ _ _ _ (by rw [hl]; norm_num) (by rw [hl]; norm_num)]
    simp only
    rw [ridge_expanded (10 + 1 + 2) (10 + 1) _ (by norm_num) hc, ridge_expanded (10 + 1) (10 + 1) _ (by norm_num) hc,
      ridge_expanded (10 - 1) (10 + 1) _ (by norm_num) hc,
      ridge_expanded (10 + 1) (10 + 1 + 2) _ (by norm_num) hc,
      ridge_expanded (10 + 1) (10 - 1) _ (by norm_num) hc]
    norm_num
    rw [r9, r11, r13]
    norm_num
  refine ⟨hd, ?_⟩
  have hs : Spec.ProperShape FieldShape.default := by constructor <;> norm_num [FieldShape.default]
  have hg : ∀ i : ℕ, 1000 * FieldShape.default.latlngGrid i = -500000 + 50000 * i := by
    intro i
    simp only [FieldShape.latlngGrid, FieldShape.default, linspace]
    push_cast
    ring
  have hp : FieldShape.default.pressureGrid 0 = 5000 := by simp [FieldShape.pressureGrid, FieldShape.default, linspace]
  have ht : hoursOf 0 = FieldShape.default.timeGrid 0 := by
    simp [hoursOf, totalSeconds, FieldShape.timeGrid, linspace]
  have node : ∀ i j : ℕ, i < 21 → j < 21 → gridForecast FieldShape.default (some (decode FieldShape.default ridge))
      (-500000 + 50000 * i) (-500000 + 50000 * j) 5000 0 = .ok (decode FieldShape.default ridge i j 0 0) := by
    intro i j hi hj
    have := C35_nodes FieldShape.default hs (decode FieldShape.default ridge) i j 0 0 hi hj (by decide) (by decide) 0 ht
    rw [hg, hg, hp] at this
    exact this
  refine ⟨fun x y => decode FieldShape.default ridge (⌊(x + 500000) / 50000⌋₊) (⌊(y + 500000) / 50000⌋₊) 0 0, ?_, ?_⟩
  · have key : ∀ x : ℝ, (x = -50000 ∨ x = 0 ∨ x = 50000) →
        ∃ i : ℕ, i < 21 ∧ x = -500000 + 50000 * i ∧ ⌊(x + 500000) / 50000⌋₊ = i := by
      rintro x (rfl | rfl | rfl)
      · exact ⟨9, by norm_num, by norm_num, by norm_num⟩
      · exact ⟨10, by norm_num, by norm_num, by norm_num⟩
      · exact ⟨11, by norm_num, by norm_num, by norm_num⟩
    intro x y hx hy
    obtain ⟨i, hi, rfl, ei⟩ := key x hx
    obtain ⟨j, hj, rfl, ej⟩ := key y hy
    simp only [ei, ej]
    exact node i j hi hj
  · have e9 : ⌊((-50000 : ℝ) + 500000) / 50000⌋₊ = 9 := by norm_num
    have e10 : ⌊((0 : ℝ) + 500000) / 50000⌋₊ = 10 := by norm_num
    have e11 : ⌊((50000 : ℝ) + 500000) / 50000⌋₊ = 11 := by norm_num
    simp only [e9, e10, e11]
    exact hd

/-- The field of `ridge` is not trivial in the convention in which it is incompressible. -/
example : (decode FieldShape.default ridge 9 10 0 0).1 ≠ (decode FieldShape.default ridge 11 10 0 0).1 ∧
    Spec.divergenceYX (decode FieldShape.default ridge) 10 10 0 0 = 0 := by
  refine ⟨fun h => ?_, C73_incompressible_partial _ _ _ _ _ _ (by norm_num) (by decide) (by norm_num) (by decide)⟩
  have h1 := C73_diverges_as_flown.1
  have hl : FieldShape.default.latlngSlices = 21 := rfl
  unfold Spec.divergenceXY at h1
  simp only [Nat.reduceAdd, Nat.reduceSub] at h1
  rw [h] at h1
  have hv : ∀ j, j = 9 ∨ j = 11 → (decode FieldShape.default ridge 10 j 0 0).2 = 0 := by
    intro j hj
    unfold decode
    rw [windOfFlow_eq _ _ _ _ _ _ (by rw [hl]; norm_num) (by rw [hl]; omega)]
    simp only
    rw [ridge_expanded _ _ _ (by omega) (by norm_num), ridge_expanded _ _ _ (by omega) (by norm_num)]
    simp
  rw [hv 9 (Or.inl rfl), hv 11 (Or.inr rfl)] at h1
  norm_num at h1

/-! ## C74 -/

/-- What `jax.random.choice(…, replace=False)` promises: `b` different indices below `n`. -/
def Spec.Choice (pick : K → ℕ → ℕ → List ℕ) : Prop :=
  ∀ k n b, b ≤ n → (pick k n b).length = b ∧ (pick k n b).Nodup ∧ ∀ i ∈ pick k n b, i < n

/-- Full statement: for every evaluation batch size. What holds: for every positive one, every dataset, key and batch
size, the dataset falls into a front part and a back part such that every training batch consists of entries at different
positions of the front part and the evaluation batch is exactly the back part (of the requested size if there are
that many fields). So if all fields are different, no evaluation field is ever trained on. For size 0
see `C74_size_zero`. -/
theorem C74_disjoint_partial (split : K → K × K) (pick : K → ℕ → ℕ → List ℕ) (hpick : Spec.Choice pick) (r : Reservoir F K)
    (he : 1 ≤ r.evalBatchSize) (b : ℕ) (r' : Reservoir F K) (batch : List F)
    (h : r.getBatch split pick b = (r', .ok batch)) :
    ∃ (front back : List F) (samples : List ℕ), r.dataset = front ++ back ∧ r.getEvalBatch = back ∧
      (back.length : ℤ) = min r.evalBatchSize r.dataset.length ∧
      samples.Nodup ∧ samples.length = b ∧ batch.length = b ∧
      (∀ (k : ℕ) (f : F), batch[k]? = some f → ∃ i, samples[k]? = some i ∧ front[i]? = some f) ∧
      r'.dataset = r.dataset ∧ r'.evalBatchSize = r.evalBatchSize ∧ r'.getEvalBatch = back ∧
      (r.dataset.Nodup → ∀ f ∈ batch, f ∉ r.getEvalBatch) := by
  have hstart : sliceStart r.dataset.length (-r.evalBatchSize) = (r.dataset.length - r.evalBatchSize).toNat := by
    unfold sliceStart
    rw [if_pos (by omega)]
    congr 1
  have heval : r.getEvalBatch = r.dataset.drop (r.dataset.length - r.evalBatchSize).toNat := by
    unfold Reservoir.getEvalBatch
    rw [hstart]
  unfold Reservoir.getBatch at h
  simp only at h
  generalize hn : ((r.dataset.length : ℤ) - r.evalBatchSize) = n at h heval
  rcases hc : randomChoice pick (split r.rng).2 n b with e | samples
  · rw [hc] at h; simp at h
  rw [hc] at h
  simp only [Prod.mk.injEq, Except.ok.injEq] at h
  obtain ⟨rfl, rfl⟩ := h
  have hs : samples.length = b ∧ samples.Nodup ∧ ∀ i ∈ samples, i < n.toNat := by
    unfold randomChoice at hc
    split at hc
    · cases hc; simp_all
    · split at hc
      · cases hc
      · split at hc
        · cases hc
        · cases hc
          exact hpick _ _ _ (by omega)
  have hlt : ∀ i ∈ samples, i < r.dataset.length := fun i hi => by have := hs.2.2 i hi; omega
  have hg : gather r.dataset samples = samples.filterMap fun i => r.dataset[i]? := by
    unfold gather
    apply List.filterMap_congr
    intro i hi
    have := hlt i hi
    rw [min_eq_left (by omega)]
  have hget : ∀ (l : List ℕ), (∀ i ∈ l, i < r.dataset.length) → ∀ k : ℕ,
      (l.filterMap fun i => r.dataset[i]?)[k]? = (l[k]?).bind fun i => r.dataset[i]? := by
    intro l
    induction l with
    | nil => intro _ k; simp
    | cons x l ih =>
      intro hl k
      have hx := hl x (List.mem_cons_self ..)
      rw [List.filterMap_cons_some (List.getElem?_eq_getElem hx)]
      cases k with
      | zero => simp [List.getElem?_eq_getElem hx]
      | succ k => simpa using ih (fun i hi => hl i (List.mem_cons_of_mem _ hi)) k
  have hlen : ∀ (l : List ℕ), (∀ i ∈ l, i < r.dataset.length) → (l.filterMap fun i => r.dataset[i]?).length = l.length := by
    intro l
    induction l with
    | nil => simp
    | cons x l ih =>
      intro hl
      rw [List.filterMap_cons_some (List.getElem?_eq_getElem (hl x (List.mem_cons_self ..))), List.length_cons, List.length_cons,
        ih (fun i hi => hl i (List.mem_cons_of_mem _ hi))]
  have hmem : ∀ (k : ℕ) (f : F), (gather r.dataset samples)[k]? = some f →
      ∃ i, samples[k]? = some i ∧ (r.dataset.take n.toNat)[i]? = some f := by
    intro k f hf
    rw [hg, hget samples hlt k] at hf
    rcases hk : samples[k]? with _ | i
    · rw [hk] at hf; simp at hf
    · rw [hk] at hf
      simp only [Option.bind_some] at hf
      exact ⟨i, rfl, by rw [List.getElem?_take_of_lt (hs.2.2 i (List.mem_of_getElem? hk)), hf]⟩
  refine ⟨r.dataset.take n.toNat, r.dataset.drop n.toNat, samples, (List.take_append_drop _ _).symm, heval, ?_, hs.2.1, hs.1,
    by rw [hg, hlen samples hlt, hs.1], hmem, rfl, rfl, heval, ?_⟩
  · rw [List.length_drop]
    omega
  · intro hnd f hf hev
    rw [heval] at hev
    obtain ⟨k, hk⟩ := List.getElem?_of_mem hf
    obtain ⟨i, _, hi⟩ := hmem k f hk
    rw [← List.take_append_drop n.toNat r.dataset] at hnd
    exact List.disjoint_of_nodup_append hnd (List.mem_of_getElem? hi) hev

/-- With evaluation batch size 0 the evaluation batch is the whole dataset, so every training field is in it. -/
theorem C74_size_zero (split : K → K × K) (pick : K → ℕ → ℕ → List ℕ) (r : Reservoir F K)
    (he : r.evalBatchSize = 0) (b : ℕ) (r' : Reservoir F K) (batch : List F)
    (h : r.getBatch split pick b = (r', .ok batch)) : r.getEvalBatch = r.dataset ∧ ∀ f ∈ batch, f ∈ r.getEvalBatch := by
  have h0 : r.getEvalBatch = r.dataset := by simp [Reservoir.getEvalBatch, he, sliceStart]
  refine ⟨h0, fun f hf => ?_⟩
  rw [h0]
  unfold Reservoir.getBatch at h
  simp only at h
  split at h
  · simp at h
  · simp only [Prod.mk.injEq, Except.ok.injEq] at h
    rw [← h.2] at hf
    unfold gather at hf
    obtain ⟨i, _, hi⟩ := List.mem_filterMap.1 hf
    exact List.mem_of_getElem? hi

/-- Five fields, the last two for evaluation; asking for two or three is fine, asking for four is an error. -/
example : let r : Reservoir ℕ Unit := { evalBatchSize := 2, dataset := [10, 11, 12, 13, 14], rng := () }
    let pick : Unit → ℕ → ℕ → List ℕ := fun _ _ b => (List.range b).reverse
    Spec.Choice pick ∧ (r.getBatch (fun k => (k, k)) pick 3).2 = .ok [12, 11, 10] ∧ r.getEvalBatch = [13, 14] ∧
    (r.getBatch (fun k => (k, k)) pick 4).2 = .error .value := by
  refine ⟨?_, by decide, by decide, by decide⟩
  intro k n b hb
  refine ⟨by simp, by simp [List.nodup_range], fun i hi => ?_⟩
  rw [List.mem_reverse, List.mem_range] at hi
  omega

theorem mapM_range_ok (shard : ℕ → Except Err (List F)) : ∀ (l : List ℕ) (ps : List (List F)),
    l.mapM shard = .ok ps ↔ List.Forall₂ (fun i p => shard i = .ok p) l ps := by
  intro l
  induction l with
  | nil =>
    intro ps
    simp only [List.mapM_nil, List.forall₂_nil_left_iff]
    constructor
    · intro h; cases h; rfl
    · rintro rfl; rfl
  | cons a t ih =>
    intro ps
    rw [List.mapM_cons, List.forall₂_cons_left_iff]
    cases hs : shard a with
    | error e =>
      constructor
      · intro h; cases h
      · rintro ⟨b, u, h1, -, -⟩; cases h1
    | ok b =>
      cases ht : t.mapM shard with
      | error e =>
        constructor
        · intro h; cases h
        · rintro ⟨b', u, h1, h2, -⟩
          rw [← ih, ht] at h2; cases h2
      | ok u =>
        constructor
        · intro h
          cases h
          exact ⟨b, u, rfl, (ih u).1 ht, rfl⟩
        · rintro ⟨b', u', h1, h2, rfl⟩
          cases h1
          rw [← ih, ht] at h2
          cases h2
          rfl

/-- The dataset can be loaded exactly when all of the shards 0 to 199 can, and is then their contents one after the
other. -/
theorem C74_dataset (shard : ℕ → Except Err (List F)) (d : List F) :
    loadDataset shard = .ok d ↔ ∃ part : ℕ → List F, (∀ i, i < 200 → shard i = .ok (part i)) ∧
      d = (List.range 200).flatMap part := by
  have key : loadDataset shard = .ok d ↔ ∃ ps, (List.range 200).mapM shard = .ok ps ∧ d = ps.flatten := by
    unfold loadDataset
    cases h : (List.range 200).mapM shard with
    | error e =>
      constructor
      · intro h; cases h
      · rintro ⟨_, h, -⟩; cases h
    | ok ps =>
      constructor
      · intro h; cases h; exact ⟨ps, rfl, rfl⟩
      · rintro ⟨_, h, rfl⟩; cases h; rfl
  rw [key]
  constructor
  · rintro ⟨ps, hps, rfl⟩
    rw [mapM_range_ok] at hps
    have hl := hps.length_eq
    rw [List.length_range] at hl
    have hg : ∀ i, i < 200 → shard i = .ok (ps.getD i []) := by
      intro i hi
      have := hps.get (i := i) (by simpa using hi) (by omega)
      simpa [List.getD_eq_getElem?_getD, List.getElem?_eq_getElem (show i < ps.length by omega)] using this
    refine ⟨fun i => ps.getD i [], hg, ?_⟩
    rw [List.flatMap_def]
    congr 1
    apply List.ext_getElem
    · simp [← hl]
    · intro n h1 h2
      simp [List.getD_eq_getElem?_getD, List.getElem?_eq_getElem h1]
  · rintro ⟨part, hp, rfl⟩
    refine ⟨(List.range 200).map part, ?_, List.flatMap_def ..⟩
    rw [mapM_range_ok, List.forall₂_map_right_iff, List.forall₂_same]
    intro i hi
    exact hp i (List.mem_range.1 hi)

/-- One field per shard: 200 in all; with shard 199 missing, none. -/
example : loadDataset (fun i => .ok [i]) = .ok (List.range 200) ∧
    ∀ d, loadDataset (fun i => if i = 199 then .error .fileNotFound else .ok [i]) ≠ .ok d := by
  refine ⟨(C74_dataset _ _).2 ⟨fun i => [i], fun _ _ => rfl, ?_⟩, fun d h => ?_⟩
  · rw [List.flatMap_singleton']
  · obtain ⟨p, hp, -⟩ := (C74_dataset _ _).1 h
    simpa using hp 199 (by norm_num)

/-! ## C75 -/

/-- The KL term is never negative, and zero exactly at the prior. -/
theorem C75_kl {n : ℕ} (mean logvar : Fin n → ℝ) :
    0 ≤ klDivergence mean logvar ∧ (klDivergence mean logvar = 0 ↔ ∀ i, mean i = 0 ∧ logvar i = 0) := by
  have hterm : ∀ i, 1 + logvar i - mean i ^ 2 - Real.exp (logvar i) ≤ 0 := fun i => by
    have := Real.add_one_le_exp (logvar i)
    nlinarith [sq_nonneg (mean i)]
  have hsum : ∑ i, (1 + logvar i - mean i ^ 2 - Real.exp (logvar i)) ≤ 0 := Finset.sum_nonpos fun i _ => hterm i
  unfold klDivergence
  refine ⟨by linarith, ?_⟩
  constructor
  · intro h i
    have h0 : ∑ i, (1 + logvar i - mean i ^ 2 - Real.exp (logvar i)) = 0 := by linarith
    have := (Finset.sum_eq_zero_iff_of_nonpos fun i _ => hterm i).1 h0 i (Finset.mem_univ i)
    by_cases hl : logvar i = 0
    · rw [hl, Real.exp_zero] at this
      exact ⟨pow_eq_zero_iff two_ne_zero |>.1 (by linarith), hl⟩
    · have := Real.add_one_lt_exp hl
      nlinarith [sq_nonneg (mean i)]
  · intro h
    have : ∀ i, 1 + logvar i - mean i ^ 2 - Real.exp (logvar i) = 0 := fun i => by rw [(h i).1, (h i).2, Real.exp_zero]; norm_num
    simp [this]

/-- A value away from the prior: mean 1, log-variance 0 gives one half. -/
example : klDivergence (fun _ : Fin 1 => 1) (fun _ => 0) = 0.5 := by
  norm_num [klDivergence]

/-! ## C76 -/

/-- The constant schedule is the stepping one that multiplies by 1: it has its value in every epoch. -/
theorem C76_constant (idx : ℤ) (value : ℝ) : constantSchedule idx value = value ∧
    ∀ frequency, frequency ≠ 0 → stepSchedule idx value 1 frequency value = .ok (constantSchedule idx value) := by
  refine ⟨rfl, fun f hf => ?_⟩
  simp [stepSchedule, constantSchedule, hf]

/-- The schedule exists for every epoch, is at most the maximum, non-decreasing in the epoch, constant within each period, and
starts at the start value (capped). -/
theorem C76_schedule (start increment maxVal : ℝ) (frequency : ℤ) (hs : 0 < start) (hi : 1 ≤ increment) (hf : 1 ≤ frequency) :
    ∃ v : ℤ → ℝ, (∀ idx, stepSchedule idx start increment frequency maxVal = .ok (v idx)) ∧ (∀ idx, v idx ≤ maxVal) ∧
      (∀ a b, a ≤ b → v a ≤ v b) ∧ v 0 = min start maxVal ∧
      (∀ p r : ℤ, 0 ≤ r → r < frequency → v (p * frequency + r) = v (p * frequency)) ∧
      (∀ p : ℤ, v (p * frequency) < maxVal → v (p * frequency + frequency) = min (increment * v (p * frequency)) maxVal) := by
  have hpos : 0 < increment := by linarith
  have hdiv : ∀ p r : ℤ, 0 ≤ r → r < frequency → Int.fdiv (p * frequency + r) frequency = p := by
    intro p r h0 h1
    rw [Int.fdiv_eq_ediv_of_nonneg _ (by omega), add_comm, Int.add_mul_ediv_right _ _ (by omega), Int.ediv_eq_zero_of_lt h0 h1,
      zero_add]
  refine ⟨fun idx => min (start * increment ^ Int.fdiv idx frequency) maxVal, ?_, fun idx => min_le_right _ _, ?_, ?_, ?_, ?_⟩
  · intro idx
    unfold stepSchedule
    rw [if_neg (by omega)]
    simp only
    rw [if_neg]
    rintro ⟨h, _⟩
    have := @of_decide_eq_true _ (Classical.propDecidable _) h
    linarith
  · intro a b hab
    apply min_le_min_right
    apply mul_le_mul_of_nonneg_left _ hs.le
    apply zpow_le_zpow_right₀ hi
    rw [Int.fdiv_eq_ediv_of_nonneg _ (by omega), Int.fdiv_eq_ediv_of_nonneg _ (by omega)]
    exact Int.ediv_le_ediv (by omega) hab
  · simp
  · intro p r h0 h1
    simp only
    have := hdiv p 0 le_rfl (by omega)
    rw [add_zero] at this
    rw [hdiv p r h0 h1, this]
  · intro p hp
    simp only at hp ⊢
    have e0 := hdiv p 0 le_rfl (by omega)
    have e1 := hdiv (p + 1) 0 le_rfl (by omega)
    rw [add_zero] at e0 e1
    rw [show p * frequency + frequency = (p + 1) * frequency by ring, e1]
    rw [e0] at hp ⊢
    have hlt : start * increment ^ p < maxVal := by
      rcases min_lt_iff.1 hp with h | h
      · exact h
      · exact absurd h (lt_irrefl _)
    rw [min_eq_left hlt.le, zpow_add_one₀ hpos.ne']
    congr 1
    ring

/-- Start 2, factor 3 every 10 epochs, at most 20. -/
example : stepSchedule 9 2 3 10 20 = .ok 2 ∧ stepSchedule 10 2 3 10 20 = .ok 6 ∧ stepSchedule 39 2 3 10 20 = .ok 20 := by
  refine ⟨?_, ?_, ?_⟩ <;>
  · unfold stepSchedule
    rw [if_neg (by norm_num)]
    simp only
    rw [if_neg (by rintro ⟨h, _⟩; have := @of_decide_eq_true _ (Classical.propDecidable _) h; norm_num at this)]
    norm_num [show Int.fdiv 9 10 = 0 from rfl, show Int.fdiv 10 10 = 1 from rfl, show Int.fdiv 39 10 = 3 from rfl]

/-! ## C77 -/

/-- Whether reading a location finds the file; a missing file raises `missing`. -/
def Spec.Location {B : Type} (missing : Err) (content : Option B) : Except Err B :=
  match content with
  | some b => .ok b
  | none => .error missing

/-- The documented behaviour: the explicit path if given (ValueError if missing), else the package, else the source
tree, else RuntimeError. -/
def Spec.Documented {B : Type} (given : Option (Option B)) (package source : Option B) : Except Err B :=
  match given with
  | some (some b) => .ok b
  | some none => .error .value
  | none =>
    match package, source with
    | some b, _ => .ok b
    | none, some b => .ok b
    | none, none => .error .runtime

/-- Full statement: the documented behaviour for both models. What holds: for the wind model in all cases; for
Perciatelli44 unless all default locations lack it. TensorFlow's file system raises its own `NotFoundError` for missing
files, the package resources raise `FileNotFoundError`. -/
theorem C77_loading_partial {B : Type} (given : Option (Option B)) (package source : Option B) :
    loadOfflineskies22 (given.map (Spec.Location .tfNotFound)) (Spec.Location .fileNotFound package)
        (Spec.Location .tfNotFound source) = Spec.Documented given package source ∧
    ((given ≠ none ∨ package ≠ none ∨ source ≠ none) →
      loadPerciatelli44 (given.map (Spec.Location .tfNotFound)) (Spec.Location .fileNotFound package)
        (Spec.Location .tfNotFound source) = Spec.Documented given package source) := by
  rcases given with _ | _ | g <;> rcases package with _ | p <;> rcases source with _ | s <;>
    simp [loadOfflineskies22, loadPerciatelli44, Spec.Location, Spec.Documented]

/-- If Perciatelli44 is in none of the places, TensorFlow's error escapes instead of the documented RuntimeError. -/
theorem C77_wrong_error (B : Type) :
    loadPerciatelli44 (B := B) none (Spec.Location .fileNotFound none) (Spec.Location .tfNotFound none) = .error .tfNotFound ∧
    Spec.Documented (B := B) none none none = .error .runtime := ⟨rfl, rfl⟩

/-- Whatever the three reads do: data found first is returned, only a missing package resource leads on to the source tree,
`FileNotFoundError` there becomes RuntimeError, and any error other than those of missing files is passed on unchanged. -/
theorem C77_errors {B : Type} (package source : Except Err B) :
    (∀ b, loadPerciatelli44 (some (.ok b)) package source = .ok b) ∧
    (∀ b, package = .ok b → loadPerciatelli44 none package source = .ok b) ∧
    (package = .error .fileNotFound → source = .error .fileNotFound →
      loadPerciatelli44 none package source = .error .runtime) ∧
    (∀ e, e ≠ .fileNotFound → e ≠ .tfNotFound →
      (loadPerciatelli44 (some (.error e)) package source = .error e ∧ loadOfflineskies22 (some (.error e)) package source = .error e) ∧
      (package = .error e →
        loadPerciatelli44 none package source = .error e ∧ loadOfflineskies22 none package source = .error e) ∧
      (package = .error .fileNotFound → source = .error e →
        loadPerciatelli44 none package source = .error e ∧ loadOfflineskies22 none package source = .error e)) := by
  refine ⟨fun b => rfl, ?_, ?_, ?_⟩
  · rintro b rfl; rfl
  · rintro rfl rfl; rfl
  · intro e h1 h2
    refine ⟨?_, ?_, ?_⟩
    · cases e <;> simp_all [loadPerciatelli44, loadOfflineskies22]
    · rintro rfl
      cases e <;> simp_all [loadPerciatelli44, loadOfflineskies22]
    · rintro rfl rfl
      cases e <;> simp_all [loadPerciatelli44, loadOfflineskies22]

example : loadPerciatelli44 none (.error .fileNotFound) (.ok 5) = .ok 5 ∧
    loadPerciatelli44 (B := ℕ) (some (.error .tfNotFound)) (.ok 3) (.ok 5) = .error .value ∧
    loadOfflineskies22 (B := ℕ) none (.error .fileNotFound) (.error .tfNotFound) = .error .runtime := ⟨rfl, rfl, rfl⟩

/-! ## C93 -/

theorem vaeBatches_spec (O : VaeOps F P K) (pick : K → ℕ → ℕ → List ℕ) (hpick : Spec.Choice pick) (kl : ℝ) (ev : List F) (n : ℕ) :
    ∀ (r : Reservoir F K) (p : P) (k : K) (acc : List (List F)) r' p' k' bs, 1 ≤ r.evalBatchSize → r.dataset.Nodup →
      r.getEvalBatch = ev → (∀ b ∈ acc, b.length = 64 ∧ ∀ f ∈ b, f ∉ ev) →
      vaeBatches O pick kl n r p k acc = .ok (r', p', k', bs) →
      bs.length = acc.length + n ∧ ∀ b ∈ bs, b.length = 64 ∧ ∀ f ∈ b, f ∉ ev := by
  induction n with
  | zero =>
    intro r p k acc r' p' k' bs he hnd hev hacc h
    simp only [vaeBatches, Except.ok.injEq, Prod.mk.injEq] at h
    obtain ⟨_, _, _, rfl⟩ := h
    exact ⟨rfl, hacc⟩
  | succ n ih =>
    intro r p k acc r' p' k' bs he hnd hev hacc h
    simp only [vaeBatches] at h
    rcases hb : r.getBatch O.split pick 64 with ⟨r1, e | batch⟩
    · rw [hb] at h; simp at h
    rw [hb] at h
    simp only at h
    obtain ⟨front, back, samples, _, _, _, _, _, h6, _, h8, h9, h10, h11⟩ :=
      C74_disjoint_partial O.split pick hpick r he 64 r1 batch hb
    have := ih r1 _ _ (acc ++ [batch]) r' p' k' bs (by rw [h9]; exact he) (by rw [h8]; exact hnd)
      (by rw [h10, ← hev]; symm; assumption) (by
        intro b hbm
        rcases List.mem_append.1 hbm with hbm | hbm
        · exact hacc b hbm
        · rw [List.mem_singleton] at hbm
          subst hbm
          exact ⟨h6, by rw [← hev]; exact h11 hnd⟩) h
    refine ⟨?_, this.2⟩
    rw [this.1, List.length_append, List.length_singleton]
    omega

theorem vaeBatches_error (O : VaeOps F P K) (pick : K → ℕ → ℕ → List ℕ) (kl : ℝ) (n : ℕ) :
    ∀ (r : Reservoir F K) (p : P) (k : K) (acc : List (List F)), vaeBatches O pick kl n r p k acc ≠ .error .name := by
  induction n with
  | zero => intro r p k acc h; simp [vaeBatches] at h
  | succ n ih =>
    intro r p k acc h
    simp only [vaeBatches] at h
    rcases hb : r.getBatch O.split pick 64 with ⟨r1, e | batch⟩
    · rw [hb] at h
      simp only [Except.error.injEq] at h
      subst h
      unfold Reservoir.getBatch at hb
      simp only at hb
      split at hb
      · rename_i e he
        unfold randomChoice at he
        simp only [Prod.mk.injEq, Except.error.injEq] at hb
        rw [hb.2] at he
        split at he
        · cases he
        · split at he
          · cases he
          · split at he <;> cases he
      · simp at hb
    · rw [hb] at h
      exact ih _ _ _ _ h

/-- Full statement: a call of `train` trains `num_batches_per_epoch` batches of 64 training fields in each of `num_epochs`
epochs and writes a checkpoint after each. What holds: the first epoch trains the right number of batches, none of them with
an evaluation field; but then `NameError` is raised, before anything is saved (`C93_never_saves`). -/
theorem C93_epoch_partial (O : VaeOps F P K) (pick : K → ℕ → ℕ → List ℕ) (hpick : Spec.Choice pick)
    (schedule : ℤ → Except Err ℝ) (numBatches : ℕ) (numEpochs : ℤ) (r : Reservoir F K) (he : 1 ≤ r.evalBatchSize)
    (hnd : r.dataset.Nodup) (p : P) (k : K) (log : VaeLog F)
    (h : vaeTrain O pick schedule numBatches numEpochs r p k = (log, .error .name)) (hs : ∀ e, schedule e ≠ .error .name) :
    log.batches.length = numBatches ∧ (∀ b ∈ log.batches, b.length = 64 ∧ ∀ f ∈ b, f ∉ r.getEvalBatch) ∧ log.saved = [] := by
  unfold vaeTrain at h
  split at h
  · simp at h
  simp only at h
  generalize (numEpochs - (Int.fdiv (O.steps p) numBatches + 1)).toNat = n at h
  cases n with
  | zero => simp [vaeEpochs] at h
  | succ n =>
    simp only [vaeEpochs] at h
    split at h
    · rename_i e hse
      simp only [Prod.mk.injEq, Except.error.injEq] at h
      exact absurd (by rw [hse, h.2]) (hs _)
    · rename_i kl hkl
      split at h
      · rename_i e hbe
        simp only [Prod.mk.injEq, Except.error.injEq] at h
        exact absurd (by rw [hbe, h.2]) (vaeBatches_error O pick _ _ _ _ _ _)
      · rename_i r' p' k' bs hbs
        simp only [List.nil_append, Prod.mk.injEq, and_true] at h
        subst h
        obtain ⟨h1, h2⟩ := vaeBatches_spec O pick hpick kl r.getEvalBatch numBatches r p k [] r' p' k' bs he hnd rfl (by simp) hbs
        exact ⟨by simpa using h1, h2, rfl⟩

/-- Training the generator never completes an epoch and never writes a checkpoint: if there is an epoch to run at all — for a
new optimiser, if `num_epochs` is at least 2, since counting starts at 1 — the call raises. -/
theorem C93_never_saves (O : VaeOps F P K) (pick : K → ℕ → ℕ → List ℕ) (schedule : ℤ → Except Err ℝ) (numBatches : ℕ)
    (numEpochs : ℤ) (r : Reservoir F K) (p : P) (k : K) :
    (vaeTrain O pick schedule numBatches numEpochs r p k).1.saved = [] ∧
    (Int.fdiv (O.steps p) numBatches + 1 < numEpochs → ∃ e, (vaeTrain O pick schedule numBatches numEpochs r p k).2 = .error e) := by
  unfold vaeTrain
  split
  · exact ⟨rfl, fun _ => ⟨_, rfl⟩⟩
  · simp only
    rcases hn : (numEpochs - (Int.fdiv (O.steps p) numBatches + 1)).toNat with _ | n
    · refine ⟨rfl, fun h => ?_⟩
      omega
    · simp only [vaeEpochs]
      split
      · exact ⟨rfl, fun _ => ⟨_, rfl⟩⟩
      · split
        · exact ⟨rfl, fun _ => ⟨_, rfl⟩⟩
        · exact ⟨rfl, fun _ => ⟨_, rfl⟩⟩

/-- A run of two batches per epoch that gets to the end of its first epoch. -/
example : let r : Reservoir ℕ Unit := { evalBatchSize := 10, dataset := List.range 80, rng := () }
    let O : VaeOps ℕ ℕ Unit := { trainStep := fun p _ _ _ => p + 1, steps := fun p => p, split := fun k => (k, k) }
    vaeTrain O (fun _ _ b => List.range b) (fun _ => .ok 1) 2 5 r 0 () =
      ({ batches := [List.range 64, List.range 64], saved := [] }, .error .name) := by
  intro r O
  have hb : r.getBatch O.split (fun _ _ b => List.range b) 64 = (r, .ok (List.range 64)) := by rfl
  have e : (5 - (Int.fdiv (O.steps 0) ((2:ℕ):ℤ) + 1)).toNat = 3 + 1 := by decide
  unfold vaeTrain
  rw [if_neg (by norm_num)]
  simp only
  rw [e, vaeEpochs]
  simp only [vaeBatches, hb]
  rfl

end BLE
