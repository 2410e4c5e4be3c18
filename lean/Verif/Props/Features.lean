import Verif.Lemmas.Features
import Verif.Props.Acs
import Verif.Lemmas.Demo

/-!
# C25-C31: observations
-/

namespace BLE

/-! ## C31 -/

/-- Pressure clamped to the represented range. -/
noncomputable def Spec.clampPressure (p : ℝ) : ℝ := min (max p 5000) 14000

theorem clampPressure_range (p : ℝ) : 5000 ≤ Spec.clampPressure p ∧ Spec.clampPressure p ≤ 14000 :=
  ⟨le_min (le_max_right _ _) (by norm_num), min_le_right _ _⟩

theorem roundHalfEven_spec (x : ℝ) : |x - roundHalfEven x| ≤ 1 / 2 := by
  have h1 := Int.floor_add_fract x
  have h2 := Int.fract_nonneg x
  have h3 := Int.fract_lt_one x
  unfold roundHalfEven
  rw [abs_le]
  split_ifs <;> push_cast <;> constructor <;> linarith

/-- C31. For every pressure a level in 0..180 is chosen; it is within 25 Pa of the clamped pressure and no other
level is closer. -/
theorem C31_nearest (p : ℝ) :
    ∃ l : ℤ, nearestLevel p = .ok l ∧ 0 ≤ l ∧ l ≤ 180 ∧
      |Spec.clampPressure p - (5000 + 50 * l)| ≤ 25 ∧
      ∀ k : ℤ, |Spec.clampPressure p - (5000 + 50 * l)| ≤ |Spec.clampPressure p - (5000 + 50 * k)| := by
  have hc : (if p < 5000 ∨ p > 14000 then min (max p 5000) 14000 else p) = Spec.clampPressure p := by
    unfold Spec.clampPressure
    split_ifs with h
    · rfl
    · push Not at h
      rw [max_eq_left h.1, min_eq_left h.2]
  obtain ⟨a1, a2⟩ := clampPressure_range p
  have hd : pressureLevel 1 - pressureLevel 0 = 50 := by rw [pressureLevel_eq, pressureLevel_eq]; norm_num
  unfold nearestLevel
  simp only [hc, hd]
  generalize Spec.clampPressure p = q at *
  have hr := roundHalfEven_spec ((q - 5000) / 50)
  generalize hl : roundHalfEven ((q - 5000) / 50) = l at *
  rw [abs_le] at hr
  have hlo : 0 ≤ l := by
    have : (-1 : ℝ) < l := by
      have : 0 ≤ (q - 5000) / 50 := by linarith
      linarith [hr.2]
    have : -1 < l := by exact_mod_cast this
    omega
  have hhi : l ≤ 180 := by
    have : (l : ℝ) < 181 := by
      have : (q - 5000) / 50 ≤ 180 := by linarith
      linarith [hr.1]
    have : l < 181 := by exact_mod_cast this
    omega
  have h25 : |q - (5000 + 50 * l)| ≤ 25 := by rw [abs_le]; constructor <;> linarith [hr.1, hr.2]
  refine ⟨l, by rw [if_pos ⟨hlo, by omega⟩], hlo, hhi, h25, fun k => ?_⟩
  by_cases hk : k = l
  · rw [hk]
  · have h1 : (1 : ℝ) ≤ |(l : ℝ) - k| := by
      have : 1 ≤ |l - k| := Int.one_le_abs (sub_ne_zero.2 (Ne.symm hk))
      exact_mod_cast this
    have h2 : 50 * |(l : ℝ) - k| ≤ |q - (5000 + 50 * l)| + |q - (5000 + 50 * k)| := by
      have e : (50 : ℝ) * |(l : ℝ) - k| = |(q - (5000 + 50 * k)) - (q - (5000 + 50 * l))| := by
        rw [show (50 : ℝ) * |(l : ℝ) - k| = |50 * ((l : ℝ) - k)| by rw [abs_mul]; norm_num]
        congr 1; ring
      rw [e]
      have := abs_sub (q - (5000 + 50 * (k : ℝ))) (q - (5000 + 50 * l))
      linarith
    linarith

/-- C31. The pressures reported as valid are exactly those that are not clipped, and their level is within 25 Pa of the
pressure itself. -/
theorem C31_valid (p : ℝ) (l : ℤ) (h : nearestLevel p = .ok l) :
    (isValidPressure p ↔ Spec.clampPressure p = p) ∧ (isValidPressure p → |p - (5000 + 50 * l)| ≤ 25) := by
  have hv : isValidPressure p ↔ Spec.clampPressure p = p := by
    unfold isValidPressure Spec.clampPressure
    constructor
    · rintro ⟨h1, h2⟩; rw [max_eq_left h1, min_eq_left h2]
    · intro h
      constructor
      · rw [← h]; exact le_min (le_max_right _ _) (by norm_num)
      · rw [← h]; exact min_le_right _ _
  refine ⟨hv, fun hp => ?_⟩
  obtain ⟨l', e, -, -, h3, -⟩ := C31_nearest p
  rw [h] at e
  cases e
  rw [hv.1 hp] at h3
  exact h3

/-- Ties go to the even level, and pressures outside are clamped. -/
example : nearestLevel 5025 = .ok 0 ∧ nearestLevel 5075 = .ok 2 ∧ nearestLevel 20000 = .ok 180 := by
  have hd : pressureLevel 1 - pressureLevel 0 = 50 := by rw [pressureLevel_eq, pressureLevel_eq]; norm_num
  have f1 : ⌊(1 / 2 : ℝ)⌋ = 0 := by rw [Int.floor_eq_iff]; norm_num
  have f2 : ⌊(3 / 2 : ℝ)⌋ = 1 := by rw [Int.floor_eq_iff]; norm_num
  have f3 : ⌊(180 : ℝ)⌋ = 180 := by rw [Int.floor_eq_iff]; norm_num
  refine ⟨?_, ?_, ?_⟩
  · unfold nearestLevel; rw [hd]; norm_num [roundHalfEven, Int.fract, f1]
  · unfold nearestLevel; rw [hd]; norm_num [roundHalfEven, Int.fract, f2]
  · unfold nearestLevel; rw [hd]; norm_num [roundHalfEven, Int.fract, f3]

/-! ## The filled vector -/

theorem columnQuery_eq (s : BState) :
    columnQuery s = Spec.batch s.x s.y s.timeElapsed ((List.range 181).map pressureLevel) := by
  unfold columnQuery Spec.batch
  rw [List.map_map]; rfl

theorem angles_ok (x y : ℝ) (means : List (ℝ × ℝ)) :
    ((means.map (angleError x y)).mapM fun a => rescale a 0 Real.pi) =
      (.ok (means.map fun w => angleError x y w / Real.pi) : Except Err (List ℝ)) := by
  rw [mapM_ok_iff, List.forall₂_map_left_iff, List.forall₂_map_right_iff, List.forall₂_same]
  intro w _
  unfold rescale
  rw [if_neg (not_le.2 Real.pi_pos)]
  simp

theorem windMagnitude_nonneg (w : ℝ × ℝ) : 0 ≤ windMagnitude w := Real.sqrt_nonneg _

theorem mags_ok (means : List (ℝ × ℝ)) :
    squashArray (means.map windMagnitude) 30 =
      .ok (means.map fun w => windMagnitude w / (windMagnitude w + 30)) := by
  unfold squashArray
  rw [if_neg (by norm_num), if_neg, List.map_map]
  · rfl
  · simp only [List.any_eq_true, not_exists, not_and, List.mem_map, decide_eq_true_eq, forall_exists_index,
      and_imp, forall_apply_eq_imp_iff₂]
    exact fun w _ => not_lt.2 (windMagnitude_nonneg w)

/-- The complete contents of the vector. -/
noncomputable def contents {sun : Sun} {s : BState} (A : AmbientParts sun s) (means : List (ℝ × ℝ)) (devs : List ℝ)
    (r : PressureRange) (level : ℤ) : List ℝ :=
  A.values ++ unreachables (180 - level).toNat ++
    (List.range 181).flatMap (levelEntries r devs (means.map fun w => angleError s.x s.y w / Real.pi)
      (means.map fun w => windMagnitude w / (windMagnitude w + 30))) ++ unreachables level.toNat

theorem contents_length {sun : Sun} {s : BState} (A : AmbientParts sun s) (means : List (ℝ × ℝ)) (devs : List ℝ)
    (r : PressureRange) (level : ℤ) (h0 : 0 ≤ level) (h1 : level ≤ 180) : (contents A means devs r level).length = 1099 := by
  unfold contents
  simp only [List.length_append, unreachables_length, flatMap_length3 _ (levelEntries_length r devs _ _),
    List.length_range, AmbientParts.values, ambientValues, List.length_cons, List.length_nil]
  omega

/-- All reachable levels have an estimate with uncertainty accepted by the assertion. -/
def LevelsGood (r : PressureRange) (means : List (ℝ × ℝ)) (devs : List ℝ) : Prop :=
  ∀ l < 181, ¬ (pressureLevel l < r.lo ∨ pressureLevel l > r.hi) →
    (l < devs.length ∧ l < means.length) ∧ 0 ≤ devs.getD l 0 ∧ devs.getD l 0 ≤ 1.00001

theorem fill_of (R : Regressor) (sun : Sun) (F : FeatState) (s : BState) (hs : F.last = some s) (A : AmbientParts sun s)
    (means : List (ℝ × ℝ)) (devs : List ℝ) (hq : F.gp.queryBatch R (columnQuery s) = .ok (means, devs))
    (r : PressureRange) (hr : pressureRange sun F.α s = .ok r) (level : ℤ) (hl : nearestLevel s.pressure = .ok level)
    (hg : LevelsGood r means devs) :
    F.fill R sun = .ok ⟨1099, enumW 0 (contents A means devs r level)⟩ := by
  obtain ⟨l', hl', l0, l1, _⟩ := C31_nearest s.pressure
  have : l' = level := by rw [hl] at hl'; exact (Except.ok.inj hl').symm
  subst this
  have hn : numFeatures = 1099 := rfl
  unfold FeatState.fill
  simp only [hs, bind, Except.bind]
  rw [addAmbient_of sun s A numFeatures (by rw [hn]; norm_num), hn]
  simp only
  unfold addWind
  simp only [bind, Except.bind, hq, hl, hr, angles_ok, mags_ok]
  rw [if_neg (not_not.2 ⟨l0, by omega⟩), if_neg (by omega)]
  have e1 : (181 - l' - 1).toNat = (180 - l').toNat := by omega
  have e2 : (181 * 2 - 1 - (181 - l' - 1) - 181).toNat = l'.toNat := by omega
  rw [e1, e2, addUnreachable_ok _ _ _ (by simp only; omega)]
  simp only
  rw [levelLoop_ok _ _ _ _ _ _ _ (by simp only [List.length_range]; omega) (by
    intro l hl hn
    obtain ⟨⟨a, b⟩, c⟩ := hg l (List.mem_range.1 hl) hn
    exact ⟨⟨a, by simpa using b, by simpa using b⟩, c⟩)]
  simp only
  rw [addUnreachable_ok _ _ _ (by simp only [List.length_range]; omega)]
  simp only [List.length_range]
  rw [if_neg (by omega)]
  simp only [pure, Except.pure, contents, enumW_append, List.append_assoc, AmbientParts.values, ambientValues,
    List.length_cons, List.length_nil, unreachables_length,
    flatMap_length3 _ (levelEntries_length r devs _ _), List.length_range]

theorem fill_inv (R : Regressor) (sun : Sun) (F : FeatState) (b : Buf) (h : F.fill R sun = .ok b) :
    ∃ (s : BState) (A : AmbientParts sun s) (means : List (ℝ × ℝ)) (devs : List ℝ) (r : PressureRange) (level : ℤ),
      F.last = some s ∧ F.gp.queryBatch R (columnQuery s) = .ok (means, devs) ∧ pressureRange sun F.α s = .ok r ∧
      nearestLevel s.pressure = .ok level ∧ LevelsGood r means devs ∧
      b = ⟨1099, enumW 0 (contents A means devs r level)⟩ := by
  have h' := h
  unfold FeatState.fill at h
  cases hs : F.last with
  | none => rw [hs] at h; cases h
  | some s =>
  rw [hs] at h
  simp only [bind, Except.bind] at h
  cases ha : addAmbient sun s (Buf.zeros numFeatures) with
  | error e => rw [ha] at h; cases h
  | ok b1 =>
  rw [ha] at h
  simp only at h
  obtain ⟨A⟩ := addAmbient_inv sun s _ _ ha
  unfold addWind at h
  simp only [bind, Except.bind] at h
  cases hq : F.gp.queryBatch R (columnQuery s) with
  | error e => rw [hq] at h; cases h
  | ok md =>
  obtain ⟨means, devs⟩ := md
  rw [hq] at h
  simp only at h
  obtain ⟨level, hl, l0, l1, _⟩ := C31_nearest s.pressure
  rw [hl] at h
  simp only at h
  rw [if_neg (not_not.2 ⟨l0, by omega⟩), if_neg (by omega)] at h
  split at h
  · cases h
  cases hr : pressureRange sun F.α s with
  | error e => rw [hr] at h; cases h
  | ok r =>
  rw [hr] at h
  simp only [angles_ok, mags_ok] at h
  split at h
  · cases h
  rename_i hlp
  have hinv := levelLoop_inv _ _ _ _ _ _ _ _ hlp
  have hg : LevelsGood r means devs := by
    intro l hl hn
    obtain ⟨⟨a, b, _⟩, c⟩ := hinv l (List.mem_range.2 hl) hn
    exact ⟨⟨a, by simpa using b⟩, c⟩
  refine ⟨s, A, means, devs, r, level, rfl, hq, hr, hl, hg, ?_⟩
  rw [fill_of R sun F s hs A means devs hq r hr level hl hg] at h'
  injection h' with h'
  exact h'.symm

theorem features_inv (R : Regressor) (sun : Sun) (F : FeatState) (f : List ℝ) (h : F.features R sun = .ok f) :
    ∃ (s : BState) (A : AmbientParts sun s) (means : List (ℝ × ℝ)) (devs : List ℝ) (r : PressureRange) (level : ℤ),
      F.last = some s ∧ F.gp.queryBatch R (columnQuery s) = .ok (means, devs) ∧ pressureRange sun F.α s = .ok r ∧
      nearestLevel s.pressure = .ok level ∧ 0 ≤ level ∧ level ≤ 180 ∧ LevelsGood r means devs ∧
      f = contents A means devs r level := by
  unfold FeatState.features at h
  cases hf : F.fill R sun with
  | error e => rw [hf] at h; cases h
  | ok b =>
    rw [hf] at h
    injection h with h
    obtain ⟨s, A, means, devs, r, level, a1, a2, a3, a4, a5, rfl⟩ := fill_inv R sun F b hf
    obtain ⟨l', hl', l0, l1, _⟩ := C31_nearest s.pressure
    have : l' = level := by rw [a4] at hl'; exact (Except.ok.inj hl').symm
    subst this
    refine ⟨s, A, means, devs, r, l', a1, a2, a3, a4, l0, l1, a5, ?_⟩
    rw [← h]
    have hlen := contents_length A means devs r l' l0 l1
    have := toList_enumW (contents A means devs r l')
    rwa [hlen] at this

/-! ## C25 -/

/-- C25. Whenever an observation is produced, every one of the 1099 entries has been written exactly once, in
order. -/
theorem C25_each_once (R : Regressor) (sun : Sun) (F : FeatState) (b : Buf) (h : F.fill R sun = .ok b) :
    b.len = 1099 ∧ b.writes.map (·.1) = List.range 1099 := by
  obtain ⟨s, A, means, devs, r, level, a1, a2, a3, a4, a5, rfl⟩ := fill_inv R sun F b h
  obtain ⟨l', hl', l0, l1, _⟩ := C31_nearest s.pressure
  have : l' = level := by rw [a4] at hl'; exact (Except.ok.inj hl').symm
  subst this
  refine ⟨rfl, ?_⟩
  have key : ∀ (xs : List ℝ) (n : ℕ), xs.length = n → (enumW 0 xs).map (·.1) = List.range n := by
    rintro xs n rfl
    rw [enumW_fst, List.range_eq_range']
  exact key _ _ (contents_length A means devs r l' l0 l1)

theorem queryBatch_lengths (two : Bool) (g : WindGP) (hf : Spec.Consistent g.forecast) (x y : ℝ) (t : ℤ) (ps : List ℝ)
    (ms : List (ℝ × ℝ)) (ds : List ℝ) (h : g.queryBatch (gpr two) (Spec.batch x y t ps) = .ok (ms, ds)) :
    ms.length = ps.length ∧ ds.length = ps.length := by
  cases ps with
  | nil => cases h
  | cons p ps =>
    by_cases hd : g.data = []
    · have h0 := h
      rw [queryBatch_empty _ _ hd, addForecast_batch] at h
      cases hc : g.forecast.column x y (p :: ps) t with
      | error e => rw [hc] at h; cases h
      | ok ws =>
        obtain ⟨ms', ds', e, a, b⟩ := C38_no_observations (gpr two) g hd hf x y t (p :: ps) (by simp) ws hc
        rw [e] at h0
        injection h0 with h0
        injection h0 with e1 e2
        subst e1 e2
        exact ⟨a.length_eq.symm, by rw [b]; simp⟩
    · by_cases hr : Spec.recent g.data t = []
      · rw [C39_stale_fails two g hd x y t (p :: ps) (by simp) hr] at h; cases h
      · have h0 := h
        rw [queryBatch_data _ _ hd, gpr_ok two _ hr] at h
        simp only at h
        rw [addForecast_batch] at h
        cases hc : g.forecast.column x y (p :: ps) t with
        | error e => rw [hc] at h; cases h
        | ok ws =>
          obtain ⟨ms', ds', e, a, b⟩ := C39_recent_partial two g hf x y t (p :: ps) (by simp) ws hc hr
          rw [e] at h0
          injection h0 with h0
          injection h0 with e1 e2
          subst e1 e2
          exact ⟨a.length_eq.symm, by rw [b]; simp⟩

/-- C25, totality. Once the ambient features, the wind estimates and the reachable range can be computed, building
the column cannot fail: no index error, no failing assertion, for every pressure, every range and every history of
observations. -/
theorem C25_no_failure (two : Bool) (sun : Sun) (F : FeatState) (hf : Spec.Consistent F.gp.forecast) (s : BState)
    (hs : F.last = some s) (hA : ∃ b, addAmbient sun s (Buf.zeros 1099) = .ok b)
    (hq : ∃ e, F.gp.queryBatch (gpr two) (columnQuery s) = .ok e) (hr : ∃ r, pressureRange sun F.α s = .ok r) :
    ∃ b, F.fill (gpr two) sun = .ok b := by
  obtain ⟨b, hb⟩ := hA
  obtain ⟨A⟩ := addAmbient_inv _ _ _ _ hb
  obtain ⟨⟨means, devs⟩, hq⟩ := hq
  obtain ⟨r, hr⟩ := hr
  obtain ⟨level, hl, _⟩ := C31_nearest s.pressure
  have hq' := hq
  rw [columnQuery_eq] at hq'
  obtain ⟨n1, n2⟩ := queryBatch_lengths two _ hf _ _ _ _ _ _ hq'
  simp only [List.length_map, List.length_range] at n1 n2
  have hd := C88_range two _ _ _ _ _ _ _ hq'
  refine ⟨_, fill_of (gpr two) sun F s hs A means devs hq r hr level hl ?_⟩
  intro l hl _
  have hl' : l < devs.length := by omega
  refine ⟨⟨hl', by omega⟩, ?_⟩
  have he : devs.getD l 0 = devs[l] := by simp [List.getD, List.getElem?_eq_getElem hl']
  obtain ⟨b1, b2⟩ := hd devs[l] (List.getElem_mem hl')
  rw [he]
  exact ⟨b1, by norm_num at b2 ⊢; linarith⟩

/-! ## C26 -/

theorem flatten_get3 (ls : List (List ℝ)) (h : ∀ l ∈ ls, l.length = 3) (j i : ℕ) (hi : i < 3) :
    ls.flatten[3 * j + i]? = (ls[j]?).bind (·[i]?) := by
  induction ls generalizing j with
  | nil => simp
  | cons l ls ih =>
    have hl : l.length = 3 := h l List.mem_cons_self
    rw [List.flatten_cons]
    cases j with
    | zero =>
      rw [List.getElem?_append_left (by omega)]
      simp
    | succ j =>
      rw [List.getElem?_append_right (by omega), show 3 * (j + 1) + i - l.length = 3 * j + i by omega,
        ih (fun l hl => h l (List.mem_cons_of_mem _ hl))]
      simp

/-- The column as a list of 361 triples. -/
noncomputable def columnTriples (s : BState) (means : List (ℝ × ℝ)) (devs : List ℝ)
    (r : PressureRange) (level : ℤ) : List (List ℝ) :=
  List.replicate (180 - level).toNat [0, 1, 1] ++
    (List.range 181).map (levelEntries r devs (means.map fun w => angleError s.x s.y w / Real.pi)
      (means.map fun w => windMagnitude w / (windMagnitude w + 30))) ++ List.replicate level.toNat [0, 1, 1]

theorem contents_eq {sun : Sun} {s : BState} (A : AmbientParts sun s) (means : List (ℝ × ℝ)) (devs : List ℝ)
    (r : PressureRange) (level : ℤ) :
    contents A means devs r level = A.values ++ (columnTriples s means devs r level).flatten := by
  unfold contents columnTriples unreachables
  simp only [List.flatten_append, List.append_assoc, List.flatMap_def]

theorem columnTriples_length3 (s : BState) (means : List (ℝ × ℝ)) (devs : List ℝ) (r : PressureRange) (level : ℤ) :
    ∀ l ∈ columnTriples s means devs r level, l.length = 3 := by
  intro l hl
  unfold columnTriples at hl
  simp only [List.mem_append, List.mem_replicate, List.mem_map, List.mem_range] at hl
  rcases hl with (⟨_, rfl⟩ | ⟨k, _, rfl⟩) | ⟨_, rfl⟩
  · rfl
  · exact levelEntries_length _ _ _ _ _
  · rfl

theorem columnTriples_get (s : BState) (means : List (ℝ × ℝ)) (devs : List ℝ)
    (r : PressureRange) (level : ℤ) (h0 : 0 ≤ level) (h1 : level ≤ 180) (j : ℕ) (hj : j < 361) :
    (columnTriples s means devs r level)[j]? = some
      (if 0 ≤ level + j - 180 ∧ level + j - 180 ≤ 180 then
        levelEntries r devs (means.map fun w => angleError s.x s.y w / Real.pi)
          (means.map fun w => windMagnitude w / (windMagnitude w + 30)) (level + j - 180).toNat
      else [0, 1, 1]) := by
  unfold columnTriples
  rcases Nat.lt_or_ge j (180 - level).toNat with h | h
  · rw [if_neg (by omega), List.append_assoc, List.getElem?_append_left (by simpa using h),
      List.getElem?_replicate, if_pos h]
  · rcases Nat.lt_or_ge j ((180 - level).toNat + 181) with h' | h'
    · rw [if_pos (by omega), List.getElem?_append_left (by
        simpa only [List.length_append, List.length_replicate, List.length_map, List.length_range] using h'),
        List.getElem?_append_right (by simpa using h), List.getElem?_map, List.length_replicate,
        List.getElem?_range (by omega)]
      simp only [Option.map_some]
      congr 2
      omega
    · rw [if_neg (by omega), List.getElem?_append_right (by
        simp only [List.length_append, List.length_replicate, List.length_map, List.length_range]; omega),
        List.getElem?_replicate, if_pos (by
        simp only [List.length_append, List.length_replicate, List.length_map, List.length_range]; omega)]

/-- C26. Entry `j` of the 361-entry column is about the absolute level `k = (balloon's level) + j - 180`, i.e.
pressure `5000 + 50 k`: if that level exists and is reachable the triple is (uncertainty, angle to the station / π,
magnitude / (magnitude + 30)) of the estimated wind there; otherwise (0, 1, 1). -/
theorem C26_centred (R : Regressor) (sun : Sun) (F : FeatState) (f : List ℝ) (h : F.features R sun = .ok f) :
    ∃ (s : BState) (means : List (ℝ × ℝ)) (devs : List ℝ) (r : PressureRange) (level : ℤ),
      F.last = some s ∧
      F.gp.queryBatch R (Spec.batch s.x s.y s.timeElapsed ((List.range 181).map fun i : ℕ => 5000 + 50 * (i : ℝ))) =
        .ok (means, devs) ∧
      pressureRange sun F.α s = .ok r ∧ nearestLevel s.pressure = .ok level ∧ f.length = 1099 ∧
      ∀ j : ℕ, j < 361 →
        (∀ k : ℕ, (k : ℤ) = level + j - 180 → k ≤ 180 → r.lo ≤ 5000 + 50 * (k : ℝ) → 5000 + 50 * (k : ℝ) ≤ r.hi →
          ∃ d w, devs[k]? = some d ∧ means[k]? = some w ∧ f[16 + 3 * j]? = some d ∧
            f[16 + 3 * j + 1]? = some (angleError s.x s.y w / Real.pi) ∧
            f[16 + 3 * j + 2]? = some (windMagnitude w / (windMagnitude w + 30))) ∧
        ((¬ ∃ k : ℕ, (k : ℤ) = level + j - 180 ∧ k ≤ 180 ∧ r.lo ≤ 5000 + 50 * (k : ℝ) ∧ 5000 + 50 * (k : ℝ) ≤ r.hi) →
          f[16 + 3 * j]? = some 0 ∧ f[16 + 3 * j + 1]? = some 1 ∧ f[16 + 3 * j + 2]? = some 1) := by
  obtain ⟨s, A, means, devs, r, level, a1, a2, a3, a4, l0, l1, hg, rfl⟩ := features_inv R sun F f h
  have hlev : ((List.range 181).map fun i : ℕ => 5000 + 50 * (i : ℝ)) = (List.range 181).map pressureLevel :=
    List.map_congr_left fun i _ => (pressureLevel_eq i).symm
  refine ⟨s, means, devs, r, level, a1, by rw [hlev, ← columnQuery_eq]; exact a2, a3, a4,
    contents_length A means devs r level l0 l1, ?_⟩
  have hA : A.values.length = 16 := rfl
  have hget : ∀ j i, i < 3 → (contents A means devs r level)[16 + 3 * j + i]? =
      ((columnTriples s means devs r level)[j]?).bind (·[i]?) := by
    intro j i hi
    rw [contents_eq, List.getElem?_append_right (by omega), hA, show 16 + 3 * j + i - 16 = 3 * j + i by omega,
      flatten_get3 _ (columnTriples_length3 s means devs r level) j i hi]
  have hget0 := fun j => hget j 0 (by norm_num)
  have hget1 := fun j => hget j 1 (by norm_num)
  have hget2 := fun j => hget j 2 (by norm_num)
  simp only [Nat.add_zero] at hget0
  intro j hj
  rw [hget0, hget1, hget2, columnTriples_get s means devs r level l0 l1 j hj]
  constructor
  · intro k hk hk1 hk2 hk3
    have hin : 0 ≤ level + (j : ℤ) - 180 ∧ level + (j : ℤ) - 180 ≤ 180 := by omega
    have hkn : (level + (j : ℤ) - 180).toNat = k := by omega
    rw [if_pos hin, hkn]
    have hreach : ¬ (pressureLevel k < r.lo ∨ pressureLevel k > r.hi) := by
      rw [pressureLevel_eq]; push Not; exact ⟨hk2, hk3⟩
    obtain ⟨⟨b1, b2⟩, -⟩ := hg k (by omega) hreach
    refine ⟨devs[k], means[k], List.getElem?_eq_getElem b1, List.getElem?_eq_getElem b2, ?_⟩
    unfold levelEntries
    rw [if_neg hreach]
    simp [List.getD, List.getElem?_eq_getElem b1, List.getElem?_eq_getElem b2]
  · intro hno
    by_cases hin : 0 ≤ level + (j : ℤ) - 180 ∧ level + (j : ℤ) - 180 ≤ 180
    · rw [if_pos hin]
      have hun : pressureLevel (level + (j : ℤ) - 180).toNat < r.lo ∨ pressureLevel (level + (j : ℤ) - 180).toNat > r.hi := by
        by_contra hc
        push Not at hc
        rw [pressureLevel_eq] at hc
        exact hno ⟨(level + (j : ℤ) - 180).toNat, by omega, by omega, hc.1, hc.2⟩
      unfold levelEntries
      rw [if_pos hun]
      simp
    · rw [if_neg hin]
      simp

theorem cauchy2 (a b c d : ℝ) : |a * c + b * d| ≤ Real.sqrt (a ^ 2 + b ^ 2) * Real.sqrt (c ^ 2 + d ^ 2) := by
  rw [← Real.sqrt_mul (by positivity)]
  apply Real.abs_le_sqrt
  nlinarith [sq_nonneg (a * d - b * c)]

/-- C26, the angle. Away from the station and for a non-negligible wind, the cosine of the angle entry is the
component of the wind towards the station (at the origin), normalised; so the angle is in [0, π], below π/2 exactly
for winds that bring the balloon closer, above exactly for winds that take it away. In still air the angle is π; at
the station it is 0. -/
theorem C26_angle (x y : ℝ) (w : ℝ × ℝ) :
    0 ≤ angleError x y w ∧ angleError x y w ≤ Real.pi ∧
    (Real.sqrt (x ^ 2 + y ^ 2) < 1e-5 → angleError x y w = 0) ∧
    (1e-5 ≤ Real.sqrt (x ^ 2 + y ^ 2) →
      (Real.sqrt (w.1 ^ 2 + w.2 ^ 2) < 1e-5 → angleError x y w = Real.pi) ∧
      (1e-5 ≤ Real.sqrt (w.1 ^ 2 + w.2 ^ 2) →
        Real.cos (angleError x y w) * ((Real.sqrt (w.1 ^ 2 + w.2 ^ 2) + 1e-5) * (Real.sqrt (x ^ 2 + y ^ 2) + 1e-5)) =
          w.1 * (0 - x) + w.2 * (0 - y) ∧
        (angleError x y w < Real.pi / 2 ↔ 0 < w.1 * (0 - x) + w.2 * (0 - y)) ∧
        (Real.pi / 2 < angleError x y w ↔ w.1 * (0 - x) + w.2 * (0 - y) < 0))) := by
  have hp := Real.pi_pos
  have hrange : 0 ≤ angleError x y w ∧ angleError x y w ≤ Real.pi := by
    unfold angleError
    simp only
    split_ifs
    · exact ⟨le_refl _, hp.le⟩
    · exact ⟨hp.le, le_refl _⟩
    · exact ⟨Real.arccos_nonneg _, Real.arccos_le_pi _⟩
  refine ⟨hrange.1, hrange.2, ?_, ?_⟩
  · intro h
    unfold angleError relativeDistance tolerance
    simp only [if_pos h]
  · intro hd
    constructor
    · intro h
      unfold angleError relativeDistance tolerance windMagnitude
      simp only [if_neg (not_lt.2 hd), if_pos h]
    · intro hw
      have e : angleError x y w = Real.arccos (clip (w.1 / (Real.sqrt (w.1 ^ 2 + w.2 ^ 2) + 1e-5) *
          (-x / (Real.sqrt (x ^ 2 + y ^ 2) + 1e-5)) + w.2 / (Real.sqrt (w.1 ^ 2 + w.2 ^ 2) + 1e-5) *
          (-y / (Real.sqrt (x ^ 2 + y ^ 2) + 1e-5))) (-1) 1) := by
        unfold angleError relativeDistance tolerance windMagnitude
        simp only [if_neg (not_lt.2 hd), if_neg (not_lt.2 hw)]
      rw [e]
      have hcs := cauchy2 w.1 w.2 (-x) (-y)
      rw [neg_sq, neg_sq] at hcs
      have h0 : (0 : ℝ) < 1e-5 := by norm_num
      generalize Real.sqrt (w.1 ^ 2 + w.2 ^ 2) = m at *
      generalize Real.sqrt (x ^ 2 + y ^ 2) = d at *
      have hm : 0 < m + 1e-5 := by linarith
      have hdd : 0 < d + 1e-5 := by linarith
      have hprod : 0 < (m + 1e-5) * (d + 1e-5) := mul_pos hm hdd
      have e2 : w.1 / (m + 1e-5) * (-x / (d + 1e-5)) + w.2 / (m + 1e-5) * (-y / (d + 1e-5)) =
          (w.1 * -x + w.2 * -y) / ((m + 1e-5) * (d + 1e-5)) := by
        field_simp
      have hle : |w.1 * -x + w.2 * -y| ≤ (m + 1e-5) * (d + 1e-5) := hcs.trans (by nlinarith)
      have hc : -1 ≤ (w.1 * -x + w.2 * -y) / ((m + 1e-5) * (d + 1e-5)) ∧
          (w.1 * -x + w.2 * -y) / ((m + 1e-5) * (d + 1e-5)) ≤ 1 := by
        rw [abs_le] at hle
        constructor
        · rw [le_div_iff₀ hprod]; linarith
        · rw [div_le_one hprod]; linarith
      rw [e2, clip_id hc.1 hc.2, Real.cos_arccos hc.1 hc.2]
      have e3 : w.1 * (0 - x) + w.2 * (0 - y) = w.1 * -x + w.2 * -y := by ring
      rw [e3]
      refine ⟨by field_simp, ?_, ?_⟩
      · rw [Real.arccos_lt_pi_div_two, div_pos_iff_of_pos_right hprod]
      · rw [← not_le, Real.arccos_le_pi_div_two, not_le, div_neg_iff]
        constructor
        · rintro (⟨_, h⟩ | ⟨h, _⟩)
          · linarith
          · exact h
        · intro h; exact .inr ⟨h, hprod⟩

/-! ## C27 -/

theorem ambient_range {sun : Sun} {s : BState} (A : AmbientParts sun s) (hp : 0 < s.pressure) (hb : 0 ≤ s.charge)
    (hc : s.charge ≤ s.cap) (i : ℕ) (v : ℝ) (hv : A.values[i]? = some v) :
    obsLow i ≤ v ∧ ∀ u, obsHigh i = some u → v ≤ u := by
  have hs : ∀ x lo hi y, lo < hi → rescaleSat x lo hi = .ok y → 0 ≤ y ∧ y ≤ 1 := by
    intro x lo hi y hlt h
    obtain ⟨y', e, a, b, _⟩ := C56_saturation x lo hi hlt
    rw [e] at h; cases h; exact ⟨a, b⟩
  have f0 := hs _ _ _ _ (by norm_num) A.h0
  have f2 := hs _ _ _ _ (by norm_num) A.h2
  have f14 := hs _ _ _ _ (by norm_num) A.h14
  have fsoc : 0 ≤ A.soc ∧ A.soc ≤ 1 := by
    have h := A.hsoc
    unfold BState.soc pyDiv at h
    split_ifs at h with h0
    injection h with h
    rw [← h]
    have hcap : 0 < s.cap := lt_of_le_of_ne (hb.trans hc) (Ne.symm h0)
    exact ⟨div_nonneg hb hcap.le, (div_le_one hcap).2 hc⟩
  have f7 : 0 ≤ A.f7 ∧ A.f7 ≤ 1 := by
    obtain ⟨y, e, a, b, _⟩ := (C56_squash (relativeDistance s.x s.y / 1000) 250).2.2 (by norm_num)
      (div_nonneg (Real.sqrt_nonneg _) (by norm_num))
    have := A.h7
    rw [e] at this; cases this; exact ⟨a, b.le⟩
  have ff : ∀ b, 0 ≤ floatOf b ∧ floatOf b ≤ 1 := by
    intro b; unfold floatOf; split_ifs <;> norm_num
  have f15 : 1 ≤ s.pressureRatio := by
    unfold BState.pressureRatio
    rw [le_div_iff₀ hp]
    linarith [le_max_right s.sp 0]
  have hi16 : i < 16 := by
    by_contra hc'
    rw [List.getElem?_eq_none (by simp [AmbientParts.values, ambientValues]; omega)] at hv
    cases hv
  simp only [AmbientParts.values, ambientValues] at hv
  interval_cases i <;> simp only [List.getElem?_cons_zero, List.getElem?_cons_succ, Option.some.injEq] at hv <;>
    subst hv <;> simp [obsLow, obsHigh] <;> first
      | exact f0 | exact fsoc | exact f2 | exact ⟨Real.neg_one_le_sin _, Real.sin_le_one _⟩
      | exact ⟨Real.neg_one_le_cos _, Real.cos_le_one _⟩ | exact f7 | exact ff _ | exact f14 | exact f15

theorem column_range {two : Bool} {sun : Sun} {F : FeatState} {s : BState} {means : List (ℝ × ℝ)} {devs : List ℝ}
    (hq : F.gp.queryBatch (gpr two) (columnQuery s) = .ok (means, devs)) (r : PressureRange) (level : ℤ) :
    ∀ v ∈ (columnTriples s means devs r level).flatten, 0 ≤ v ∧ v ≤ 1 := by
  rw [columnQuery_eq] at hq
  have hd := C88_range two _ _ _ _ _ _ _ hq
  have gd : ∀ (xs : List ℝ) (k : ℕ), (∀ x ∈ xs, 0 ≤ x ∧ x ≤ 1) → 0 ≤ xs.getD k 0 ∧ xs.getD k 0 ≤ 1 := by
    intro xs k h
    rcases Nat.lt_or_ge k xs.length with hk | hk
    · simp only [List.getD, List.getElem?_eq_getElem hk, Option.getD_some]
      exact h _ (List.getElem_mem hk)
    · simp [List.getD, List.getElem?_eq_none hk]
  have hang : ∀ a ∈ (means.map fun w => angleError s.x s.y w / Real.pi), 0 ≤ a ∧ a ≤ 1 := by
    intro a ha
    obtain ⟨w, _, rfl⟩ := List.mem_map.1 ha
    obtain ⟨h1, h2, _⟩ := C26_angle s.x s.y w
    exact ⟨div_nonneg h1 Real.pi_pos.le, (div_le_one Real.pi_pos).2 h2⟩
  have hmag : ∀ a ∈ (means.map fun w => windMagnitude w / (windMagnitude w + 30)), 0 ≤ a ∧ a ≤ 1 := by
    intro a ha
    obtain ⟨w, _, rfl⟩ := List.mem_map.1 ha
    have := windMagnitude_nonneg w
    exact ⟨div_nonneg this (by linarith), (div_le_one (by linarith)).2 (by linarith)⟩
  intro v hv
  obtain ⟨l, hl, hvl⟩ := List.mem_flatten.1 hv
  unfold columnTriples at hl
  simp only [List.mem_append, List.mem_replicate, List.mem_map, List.mem_range] at hl
  have h011 : v ∈ ([0, 1, 1] : List ℝ) → 0 ≤ v ∧ v ≤ 1 := by
    intro h
    simp only [List.mem_cons, List.not_mem_nil, or_false] at h
    rcases h with rfl | rfl | rfl <;> norm_num
  rcases hl with (⟨_, rfl⟩ | ⟨k, _, rfl⟩) | ⟨_, rfl⟩
  · exact h011 hvl
  · unfold levelEntries at hvl
    split_ifs at hvl
    · exact h011 hvl
    · simp only [List.mem_cons, List.not_mem_nil, or_false] at hvl
      rcases hvl with rfl | rfl | rfl
      · exact gd _ _ hd
      · exact gd _ _ hang
      · exact gd _ _ hmag
  · exact h011 hvl

/-- C27. Every produced observation has 1099 entries, each within the bounds declared by `observation_space`,
for every balloon with positive pressure and battery charge between 0 and its capacity, and every history of wind
observations (the deviations are at most 1 by C88, so the assertion's tolerance 1.00001 is never used). -/
theorem C27_in_space (two : Bool) (sun : Sun) (F : FeatState) (s : BState) (hs : F.last = some s) (hp : 0 < s.pressure)
    (hb : 0 ≤ s.charge) (hc : s.charge ≤ s.cap) (f : List ℝ) (h : F.features (gpr two) sun = .ok f) :
    f.length = 1099 ∧ ∀ i v, f[i]? = some v → obsLow i ≤ v ∧ ∀ u, obsHigh i = some u → v ≤ u := by
  obtain ⟨s', A, means, devs, r, level, a1, a2, a3, a4, l0, l1, hg, rfl⟩ := features_inv _ sun F f h
  rw [hs] at a1
  cases a1
  refine ⟨contents_length A means devs r level l0 l1, ?_⟩
  intro i v hv
  have hA : A.values.length = 16 := rfl
  rw [contents_eq] at hv
  rcases Nat.lt_or_ge i 16 with hi | hi
  · rw [List.getElem?_append_left (by omega)] at hv
    exact ambient_range A hp hb hc i v hv
  · rw [List.getElem?_append_right (by omega)] at hv
    obtain ⟨b1, b2⟩ := column_range (sun := sun) a2 r level v (List.mem_of_getElem? hv)
    unfold obsLow obsHigh
    rw [if_neg (by omega), if_neg (by omega), if_neg (by omega)]
    exact ⟨b1, fun u hu => by cases hu; exact b2⟩

/-! ## C28 -/

theorem named_ok (f : List ℝ) (h : f.length = 1099) : ∃ N, Named.ofList f = .ok N ∧ N.winds = f.drop 16 ∧
    N.numLevels = 361 ∧ N.pressure = 5000 + f.getD 0 0 * 9000 ∧ N.battery = f.getD 1 0 ∧
    N.solarElevation = f.getD 2 0 ∧ N.sinCycle = f.getD 3 0 ∧ N.cosCycle = f.getD 4 0 ∧ N.sinHeading = f.getD 5 0 ∧
    N.cosHeading = f.getD 6 0 ∧ N.distance = f.getD 7 0 ∧
    N.lastCommand = (if argmax3 (f.getD 8 0) (f.getD 9 0) (f.getD 10 0) = 0 then .up
      else if argmax3 (f.getD 8 0) (f.getD 9 0) (f.getD 10 0) = 1 then .stay else .down) ∧
    N.navEnabled = f.getD 11 0 ∧ N.navPaused = f.getD 12 0 ∧ N.excess = f.getD 13 0 ∧
    N.descentCost = f.getD 14 0 ∧ N.pressureRatio = f.getD 15 0 := by
  have hw : (f.drop 16).length = 1083 := by rw [List.length_drop, h]
  unfold Named.ofList
  simp only [bind, Except.bind]
  rw [if_neg (not_not.2 h), if_neg (by rw [hw]; norm_num)]
  have hu : undoRescale (f.getD 0 0) 5000 14000 = .ok (5000 + f.getD 0 0 * 9000) := by
    unfold undoRescale; rw [if_neg (by norm_num)]; norm_num
  rw [hu]
  exact ⟨_, rfl, rfl, by rw [hw], rfl, rfl, rfl, rfl, rfl, rfl, rfl, rfl, rfl, rfl, rfl, rfl, rfl, rfl⟩

theorem clamp_eq (p : ℝ) : 5000 + clip ((p - 5000) / (14000 - 5000)) 0 1 * 9000 = Spec.clampPressure p := by
  unfold clip Spec.clampPressure
  rcases le_total p 5000 with h1 | h1
  · have : (p - 5000) / (14000 - 5000) ≤ 0 := by apply div_nonpos_of_nonpos_of_nonneg <;> linarith
    rw [max_eq_right this, max_eq_right h1]; norm_num
  · have h3 : 0 ≤ (p - 5000) / (14000 - 5000) := by apply div_nonneg <;> linarith
    rw [max_eq_left h3, max_eq_left h1]
    rcases le_total p 14000 with h2 | h2
    · have : (p - 5000) / (14000 - 5000) ≤ 1 := by rw [div_le_one] <;> linarith
      rw [min_eq_left this, min_eq_left h2]
      ring
    · have : 1 ≤ (p - 5000) / (14000 - 5000) := by rw [le_div_iff₀] <;> linarith
      rw [min_eq_right this, min_eq_right h2]
      norm_num

/-- C28 (partial: the navigation flags come back exchanged, see `C28_navigation_swapped`). Parsing a produced
observation gives back the clamped pressure, the battery's state of charge, the last command, the pressure ratio, the
unit vector towards the station and, after undoing the squashing, the distance in km. Missing: `navigation_paused`
and `navigation_enabled`, for which it is false. -/
theorem C28_roundtrip_partial (R : Regressor) (sun : Sun) (F : FeatState) (s : BState) (hs : F.last = some s)
    (f : List ℝ) (h : F.features R sun = .ok f) :
    ∃ N, Named.ofList f = .ok N ∧ N.pressure = Spec.clampPressure s.pressure ∧ N.battery = s.charge / s.cap ∧
      N.lastCommand = s.lastCommand ∧ N.pressureRatio = (s.pressure + max s.sp 0) / s.pressure ∧
      undoSquash N.distance 250 = .ok (Real.sqrt (s.x ^ 2 + s.y ^ 2) / 1000) ∧
      (¬ (s.x = 0 ∧ s.y = 0) → N.sinHeading * Real.sqrt (s.x ^ 2 + s.y ^ 2) = 0 - s.x ∧
        N.cosHeading * Real.sqrt (s.x ^ 2 + s.y ^ 2) = 0 - s.y) ∧
      (N.excess = 1 ↔ s.excessEnergy sun = .ok true) ∧ N.sinCycle ^ 2 + N.cosCycle ^ 2 = 1 := by
  obtain ⟨s', A, means, devs, r, level, a1, a2, a3, a4, l0, l1, hg, rfl⟩ := features_inv _ sun F f h
  rw [hs] at a1
  cases a1
  obtain ⟨N, e, n1, n2, n3, n4, n5, n6, n7, n8, n9, n10, n11, n12, n13, n14, n15, n16⟩ :=
    named_ok _ (contents_length A means devs r level l0 l1)
  have hget : ∀ i, i < 16 → (contents A means devs r level).getD i 0 = A.values.getD i 0 := by
    intro i hi
    have hA : A.values.length = 16 := rfl
    rw [contents_eq]
    unfold List.getD
    rw [List.getElem?_append_left (by omega)]
  rw [hget _ (by norm_num)] at n3 n4 n6 n7 n8 n9 n10 n14 n16
  rw [hget _ (by norm_num), hget _ (by norm_num), hget _ (by norm_num)] at n11
  simp only [AmbientParts.values, ambientValues, List.getD_cons_zero, List.getD_cons_succ] at n3 n4 n6 n7 n8 n9 n10 n11 n14 n16
  refine ⟨N, e, ?_, ?_, ?_, n16, ?_, ?_, ?_, ?_⟩
  · rw [n3]
    have := A.h0
    unfold rescaleSat rescale at this
    rw [if_neg (by norm_num)] at this
    injection this with this
    rw [← this]
    exact clamp_eq _
  · rw [n4]
    have := A.hsoc
    unfold BState.soc pyDiv at this
    split_ifs at this
    injection this with this
    exact this.symm
  · rw [n11]
    have h10 : ¬ (1 : ℝ) ≤ 0 := by norm_num
    cases s.lastCommand <;> simp [floatOf, argmax3, h10]
  · rw [n10]
    obtain ⟨y, e1, _, _, e2, _⟩ := (C56_squash (relativeDistance s.x s.y / 1000) 250).2.2 (by norm_num)
      (div_nonneg (Real.sqrt_nonneg _) (by norm_num))
    have := A.h7
    rw [e1] at this; cases this
    exact e2
  · intro hne
    rw [n8, n9]
    unfold atan2
    have hz : (⟨-(s.y / 1000), -(s.x / 1000)⟩ : ℂ) ≠ 0 := by
      intro hz
      rw [Complex.ext_iff] at hz
      simp only [Complex.zero_re, Complex.zero_im] at hz
      exact hne ⟨by linarith [hz.2], by linarith [hz.1]⟩
    have hnorm : ‖(⟨-(s.y / 1000), -(s.x / 1000)⟩ : ℂ)‖ = Real.sqrt (s.x ^ 2 + s.y ^ 2) / 1000 := by
      rw [Complex.norm_def, Complex.normSq_mk]
      rw [show -(s.y / 1000) * -(s.y / 1000) + -(s.x / 1000) * -(s.x / 1000) = (s.x ^ 2 + s.y ^ 2) / 1000 ^ 2 by ring,
        Real.sqrt_div' _ (by norm_num), Real.sqrt_sq (by norm_num)]
    have hpos : 0 < Real.sqrt (s.x ^ 2 + s.y ^ 2) := by
      have := norm_pos_iff.2 hz
      rw [hnorm] at this
      linarith
    rw [Complex.sin_arg, Complex.cos_arg hz, hnorm]
    constructor <;> field_simp <;> ring
  · rw [n14, A.hex]
    cases A.ex <;> simp [floatOf]
  · rw [n6, n7]; exact Real.sin_sq_add_cos_sq _

/-- C28. What is decoded is what was observed last: after a successful `observe`, the features decode to that balloon. -/
theorem C28_observed (R : Regressor) (sun : Sun) (F F' : FeatState) (s : BState) (w : ℝ × ℝ) (r : Except Err Unit)
    (ho : F.observe s w = (F', r)) (f : List ℝ) (h : F'.features R sun = .ok f) :
    ∃ N, Named.ofList f = .ok N ∧ N.pressure = Spec.clampPressure s.pressure ∧ N.battery = s.charge / s.cap ∧
      N.lastCommand = s.lastCommand ∧ N.pressureRatio = (s.pressure + max s.sp 0) / s.pressure := by
  have hl : F'.last = some s := by
    unfold FeatState.observe at ho
    split at ho <;> (injection ho with h1 _; rw [← h1])
  obtain ⟨N, a, b, c, d, e, -⟩ := C28_roundtrip_partial R sun F' s hl f h
  exact ⟨N, a, b, c, d, e⟩

/-- C28 is false for the navigation flags: the parsed `navigation_enabled` is 1 exactly when navigation is paused, and
`navigation_paused` is 1 exactly when it is not. -/
theorem C28_navigation_swapped (R : Regressor) (sun : Sun) (F : FeatState) (s : BState) (hs : F.last = some s)
    (f : List ℝ) (h : F.features R sun = .ok f) :
    ∃ N, Named.ofList f = .ok N ∧ (N.navEnabled = 1 ↔ s.navPaused = true) ∧ (N.navPaused = 1 ↔ s.navPaused = false) := by
  obtain ⟨s', A, means, devs, r, level, a1, a2, a3, a4, l0, l1, hg, rfl⟩ := features_inv _ sun F f h
  rw [hs] at a1
  cases a1
  obtain ⟨N, e, n1, n2, n3, n4, n5, n6, n7, n8, n9, n10, n11, n12, n13, n14, n15, n16⟩ :=
    named_ok _ (contents_length A means devs r level l0 l1)
  have hget : ∀ i, i < 16 → (contents A means devs r level).getD i 0 = A.values.getD i 0 := by
    intro i hi
    have hA : A.values.length = 16 := rfl
    rw [contents_eq]
    unfold List.getD
    rw [List.getElem?_append_left (by omega)]
  rw [hget _ (by norm_num)] at n12 n13
  simp only [AmbientParts.values, ambientValues, List.getD_cons_zero, List.getD_cons_succ] at n12 n13
  refine ⟨N, e, ?_, ?_⟩
  · rw [n12]; cases s.navPaused <;> simp [floatOf]
  · rw [n13]; cases s.navPaused <;> simp [floatOf]

/-! ## C29, C30 -/

theorem slice3 (xs : List ℝ) (l : ℕ) (h : 3 * l + 3 ≤ xs.length) :
    pySlice xs ((l : ℤ) * 3) ((l : ℤ) * 3 + 3) =
      [xs.getD (3 * l) 0, xs.getD (3 * l + 1) 0, xs.getD (3 * l + 2) 0] := by
  unfold pySlice
  simp only
  rw [if_neg (by omega), if_neg (by omega), min_eq_left (by omega), min_eq_left (by omega)]
  rw [show ((l : ℤ) * 3).toNat = 3 * l by omega, show ((l : ℤ) * 3 + 3 - (l : ℤ) * 3).toNat = 3 by omega]
  have h0 : 3 * l < xs.length := by omega
  have h1 : 3 * l + 1 < xs.length := by omega
  have h2 : 3 * l + 1 + 1 < xs.length := by omega
  rw [List.drop_eq_getElem_cons h0, List.drop_eq_getElem_cons h1, List.drop_eq_getElem_cons h2]
  simp only [List.getD, List.getElem?_eq_getElem h0, List.getElem?_eq_getElem h1, List.getElem?_eq_getElem h2,
    Option.getD_some]
  rfl

/-- C29. In a parsed observation, `level_is_valid(j)` is true exactly for the entries whose pressure level exists
and lies in the reachable range. -/
theorem C29_valid_iff_reachable (R : Regressor) (sun : Sun) (F : FeatState) (f : List ℝ)
    (h : F.features R sun = .ok f) :
    ∃ (s : BState) (r : PressureRange) (level : ℤ) (N : Named), F.last = some s ∧
      pressureRange sun F.α s = .ok r ∧ nearestLevel s.pressure = .ok level ∧ Named.ofList f = .ok N ∧
      ∀ j : ℕ, j < 361 → ∃ b, N.levelValid j = .ok b ∧
        (b = true ↔ ∃ k : ℕ, (k : ℤ) = level + j - 180 ∧ k ≤ 180 ∧ r.lo ≤ 5000 + 50 * (k : ℝ) ∧
          5000 + 50 * (k : ℝ) ≤ r.hi) := by
  obtain ⟨s, means, devs, r, level, a1, a2, a3, a4, hlen, hcol⟩ := C26_centred R sun F f h
  obtain ⟨N, e, n1, n2, -⟩ := named_ok f hlen
  refine ⟨s, r, level, N, a1, a3, a4, e, fun j hj => ?_⟩
  have hw : N.windAt j = .ok ⟨f.getD (16 + 3 * j) 0, f.getD (16 + 3 * j + 1) 0, f.getD (16 + 3 * j + 2) 0⟩ := by
    unfold Named.windAt
    rw [if_neg (by omega), n1, slice3 _ _ (by rw [List.length_drop]; omega)]
    simp [List.getD, List.getElem?_drop, add_assoc]
  unfold Named.levelValid
  rw [hw]
  refine ⟨_, rfl, ?_⟩
  simp only [decide_eq_true_eq]
  obtain ⟨h1, h2⟩ := hcol j hj
  constructor
  · intro hv
    by_contra hno
    obtain ⟨b1, b2, b3⟩ := h2 hno
    simp only [WindFeature.valid, List.getD, b1, b2, b3, Option.getD_some] at hv
    simp at hv
  · rintro ⟨k, k1, k2, k3, k4⟩
    obtain ⟨d, w, -, -, c1, c2, c3⟩ := h1 k k1 k2 k3 k4
    refine .inl ?_
    simp only [List.getD, c3, Option.getD_some]
    have := windMagnitude_nonneg w
    rw [ne_eq, div_eq_one_iff_eq (by linarith)]
    linarith

/-- C30 (partial: levels in range). `wind_at` answers exactly the levels 0..360 with their own triples, and above
360 it raises. Missing: rejection with `ValueError` (false, `C30_never_value_error`) and rejection of negative levels
(false, `C30_negative_wraps`). -/
theorem C30_in_range_partial (f : List ℝ) (hf : f.length = 1099) (N : Named) (hN : Named.ofList f = .ok N) (l : ℤ) :
    (0 ≤ l → l < 361 → N.windAt l = .ok ⟨f.getD (16 + 3 * l.toNat) 0, f.getD (16 + 3 * l.toNat + 1) 0,
      f.getD (16 + 3 * l.toNat + 2) 0⟩) ∧
    (361 ≤ l → N.windAt l = .error .type) := by
  obtain ⟨N', e, n1, n2, -⟩ := named_ok f hf
  rw [hN] at e
  cases e
  constructor
  · intro h0 h1
    obtain ⟨j, rfl⟩ := Int.eq_ofNat_of_zero_le h0
    unfold Named.windAt
    rw [if_neg (by omega), n1, slice3 _ _ (by rw [List.length_drop]; omega)]
    simp [List.getD, List.getElem?_drop, add_assoc]
  · intro h
    unfold Named.windAt
    rw [if_neg (by omega)]
    have : pySlice N.winds (l * 3) (l * 3 + 3) = [] := by
      have hl : N.winds.length = 1083 := by rw [n1, List.length_drop]; omega
      unfold pySlice
      simp only [hl]
      rw [if_neg (by omega), if_neg (by omega), min_eq_right (by push_cast; omega), min_eq_right (by push_cast; omega)]
      simp
    rw [this]

/-- C30 is false: the guard `0 > level >= n` can never be true, so `wind_at` never raises `ValueError`. -/
theorem C30_never_value_error (N : Named) (l : ℤ) : N.windAt l ≠ .error .value := by
  unfold Named.windAt
  rw [if_neg (by omega)]
  split <;> simp

/-- C30 is false: most negative levels are silently answered with another level's wind. -/
theorem C30_negative_wraps (f : List ℝ) (hf : f.length = 1099) (N : Named) (hN : Named.ofList f = .ok N) (l : ℤ)
    (h0 : -361 ≤ l) (h1 : l ≤ -2) : N.windAt l = N.windAt (l + 361) ∧ ∃ w, N.windAt l = .ok w := by
  have hc := (C30_in_range_partial f hf N hN (l + 361)).1 (by omega) (by omega)
  have : N.windAt l = N.windAt (l + 361) := by
    obtain ⟨N', e, n1, n2, -⟩ := named_ok f hf
    rw [hN] at e
    cases e
    have hl : N.winds.length = 1083 := by rw [n1, List.length_drop]; omega
    unfold Named.windAt
    rw [if_neg (by omega), if_neg (by omega)]
    have : pySlice N.winds (l * 3) (l * 3 + 3) = pySlice N.winds ((l + 361) * 3) ((l + 361) * 3 + 3) := by
      unfold pySlice
      simp only [hl]
      rw [if_pos (by omega), if_pos (by omega), if_neg (by omega), if_neg (by omega),
        max_eq_left (by push_cast; omega), max_eq_left (by push_cast; omega), min_eq_left (by push_cast; omega),
        min_eq_left (by push_cast; omega)]
      congr 2 <;> push_cast <;> omega
    rw [this]
  exact ⟨this, by rw [this, hc]; exact ⟨_, rfl⟩⟩

end BLE
