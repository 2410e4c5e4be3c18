import Verif.Lemmas.Acs

/-!
# C41, C42: power table and compressor
-/

namespace BLE

/-! ## C41 — the power table -/

theorem bisect_le (xs : List ℝ) (x : ℝ) : bisect xs x ≤ xs.length := (List.takeWhile_sublist _).length_le

theorem bisect_mono (xs : List ℝ) {x y : ℝ} (h : x ≤ y) : bisect xs x ≤ bisect xs y := by
  unfold bisect
  induction xs with
  | nil => simp
  | cons a as ih =>
    by_cases hx : a ≤ x
    · have hy : a ≤ y := hx.trans h
      simp [hx, hy, ih]
    · simp [hx]

/-- `bisect` really counts the entries not above `x` when the list is sorted. -/
theorem bisect_sorted (xs : List ℝ) (hs : xs.Pairwise (· < ·)) (x : ℝ) (i : ℕ) (hi : i < xs.length) :
    i < bisect xs x ↔ xs[i] ≤ x := by
  unfold bisect
  induction xs generalizing i with
  | nil => simp at hi
  | cons a as ih =>
    obtain ⟨h1, h2⟩ := List.pairwise_cons.1 hs
    by_cases hx : a ≤ x
    · cases i with
      | zero => simp [hx]
      | succ i =>
        simp only [List.length_cons, Nat.add_lt_add_iff_right] at hi
        simp [hx, ih h2 i hi]
    · cases i with
      | zero => simp [hx]
      | succ i =>
        simp only [List.length_cons, Nat.add_lt_add_iff_right] at hi
        have := h1 _ (List.getElem_mem hi)
        simp only [hx, decide_false, Bool.false_eq_true, not_false_eq_true, List.takeWhile_cons_of_neg,
          List.length_nil, Nat.not_lt_zero, List.getElem_cons_succ, false_iff, not_le]
        linarith

/-- The powers of every row of the table grow with the state of charge, one more power than
thresholds. -/
theorem socMappings_ok : ∀ m ∈ socMappings, m.2.length = m.1.length + 1 ∧ m.2.Pairwise (· ≤ ·) ∧
    ∀ p ∈ m.2, 0 ≤ p ∧ p ≤ 350 := by
  intro m hm
  simp only [socMappings, List.mem_cons, List.not_mem_nil, or_false] at hm
  rcases hm with rfl | rfl | rfl | rfl | rfl | rfl | rfl | rfl <;>
    (refine ⟨rfl, ?_, ?_⟩ <;> norm_num)

theorem powerLookup_ok (r soc : ℝ) (h : 0.99 ≤ r ∧ r ≤ 5) :
    ∃ m ∈ socMappings, ∃ hb : bisect m.1 soc < m.2.length,
      socMappings[bisect prIntervals r]? = some m ∧ powerLookup r soc = .ok (m.2[bisect m.1 soc]) := by
  have hl : socMappings.length = 8 := rfl
  have hb := bisect_le prIntervals r
  have hp : prIntervals.length = 7 := rfl
  have h8 : bisect prIntervals r < socMappings.length := by omega
  refine ⟨socMappings[bisect prIntervals r], List.getElem_mem h8, ?_, List.getElem?_eq_getElem h8, ?_⟩
  · have := (socMappings_ok _ (List.getElem_mem h8)).1
    have := bisect_le (socMappings[bisect prIntervals r]).1 soc
    omega
  · have h9 : bisect (socMappings[bisect prIntervals r]).1 soc < (socMappings[bisect prIntervals r]).2.length := by
      have := (socMappings_ok _ (List.getElem_mem h8)).1
      have := bisect_le (socMappings[bisect prIntervals r]).1 soc
      omega
    unfold powerLookup
    rw [if_neg (not_not.2 h)]
    simp only [List.getElem?_eq_getElem h8, List.getElem?_eq_getElem h9]

/-- C41. On the documented domain the lookup succeeds for every state of charge, with a power between
0 and 350 W; outside it the lookup raises `AssertionError`. -/
theorem C41_total (r soc : ℝ) :
    (0.99 ≤ r ∧ r ≤ 5 → ∃ p, powerLookup r soc = .ok p ∧ 0 ≤ p ∧ p ≤ 350) ∧
    (¬ (0.99 ≤ r ∧ r ≤ 5) → powerLookup r soc = .error .assertion) := by
  constructor
  · intro h
    obtain ⟨m, hm, hb, _, e⟩ := powerLookup_ok r soc h
    exact ⟨_, e, (socMappings_ok m hm).2.2 _ (List.getElem_mem hb)⟩
  · intro h
    unfold powerLookup
    rw [if_pos h]

/-- C41. More charge never lowers the power. -/
theorem C41_monotone_in_charge (r soc soc' p p' : ℝ) (hs : soc ≤ soc')
    (h : powerLookup r soc = .ok p) (h' : powerLookup r soc' = .ok p') : p ≤ p' := by
  have hr : 0.99 ≤ r ∧ r ≤ 5 := by
    by_contra hn
    rw [(C41_total r soc).2 hn] at h
    cases h
  obtain ⟨m, hm, hb, e1, e2⟩ := powerLookup_ok r soc hr
  obtain ⟨m', hm', hb', e1', e2'⟩ := powerLookup_ok r soc' hr
  rw [e1] at e1'
  injection e1' with e1'
  subst e1'
  rw [h] at e2; rw [h'] at e2'
  injection e2 with e2
  injection e2' with e2'
  rw [e2, e2']
  have hmono := bisect_mono m.1 hs
  rcases Nat.lt_or_ge (bisect m.1 soc) (bisect m.1 soc') with hlt | hge
  · exact (List.pairwise_iff_getElem.1 (socMappings_ok m hm).2.1) _ _ hb hb' hlt
  · have : bisect m.1 soc = bisect m.1 soc' := by omega
    simp only [this, le_refl]

/-- C41. Below 30% charge the lookup always answers 0 W (the table never asks for power from a nearly
empty battery), and at or above 70% never less than 200 W. -/
theorem C41_reserve (r soc p : ℝ) (h : powerLookup r soc = .ok p) :
    (soc < 0.3 → p = 0) ∧ (0.7 ≤ soc → 200 ≤ p) := by
  have hr : 0.99 ≤ r ∧ r ≤ 5 := by
    by_contra hn
    rw [(C41_total r soc).2 hn] at h
    cases h
  obtain ⟨m, hm, hb, e1, e2⟩ := powerLookup_ok r soc hr
  rw [h] at e2
  injection e2 with e2
  subst e2
  clear h e1 hr
  simp only [socMappings, List.mem_cons, List.not_mem_nil, or_false] at hm
  constructor <;> intro hs
  · rcases hm with rfl | rfl | rfl | rfl | rfl | rfl | rfl | rfl
    case' inr.inr.inr.inr.inr.inl => have h1 : ¬ (0.4 : ℝ) ≤ soc := by norm_num at *; linarith
    case' inr.inr.inr.inr.inr.inr.inl => have h1 : ¬ (0.5 : ℝ) ≤ soc := by norm_num at *; linarith
    case' inr.inr.inr.inr.inr.inr.inr => have h1 : ¬ (0.5 : ℝ) ≤ soc := by norm_num at *; linarith
    all_goals have h2 : ¬ (0.3 : ℝ) ≤ soc := by norm_num at *; linarith
    all_goals simp [bisect, *]
  · have a1 : (0.3 : ℝ) ≤ soc := by norm_num at *; linarith
    have a2 : (0.4 : ℝ) ≤ soc := by norm_num at *; linarith
    have a3 : (0.5 : ℝ) ≤ soc := by norm_num at *; linarith
    have a4 : (0.6 : ℝ) ≤ soc := by norm_num at *; linarith
    rcases hm with rfl | rfl | rfl | rfl | rfl | rfl | rfl | rfl <;>
      simp only [bisect, hs, a1, a2, a3, a4, decide_true, List.takeWhile_cons_of_pos, List.takeWhile_nil,
        List.length_cons, List.length_nil] <;> norm_num

example : ∃ p, powerLookup 1.15 0.45 = .ok p ∧ 0 ≤ p ∧ p ≤ 350 := (C41_total _ _).1 (by norm_num)
example : powerLookup 5.01 0.45 = .error .assertion := (C41_total _ _).2 (by norm_num)

/-! ## C42 — the compressor -/

/-- C42. For every pressure ratio the most efficient power is between 100 and 400 W. -/
theorem C42_power_range (r : ℝ) : 100 ≤ mostEfficientPower r ∧ mostEfficientPower r ≤ 400 :=
  mostEfficientPower_bounds r

/-- C42. A larger backpressure never asks for less power. -/
theorem C42_power_monotone (r r' : ℝ) (h : r ≤ r') : mostEfficientPower r ≤ mostEfficientPower r' :=
  mostEfficientPower_mono h

/-- C42. The fan efficiency is between 0 and 0.4 for every ratio and power, so pumping never moves air
out of the ballonet. -/
theorem C42_efficiency (r w : ℝ) (hw : 0 ≤ w) :
    0 ≤ fanEfficiency r w ∧ fanEfficiency r w ≤ 0.4 ∧ 0 ≤ massFlow w (fanEfficiency r w) :=
  ⟨(fanEfficiency_bounds r w).1, (fanEfficiency_bounds r w).2,
    div_nonneg (mul_nonneg (fanEfficiency_bounds r w).1 hw) (by norm_num)⟩

/-- C42. On the operating curve the compressor always pumps: at least 13% efficiency, between
13/3600 and 160/3600 kg/s. -/
theorem C42_always_pumps (r : ℝ) :
    0.13 ≤ fanEfficiency r (mostEfficientPower r) ∧
    13 / 3600 ≤ massFlow (mostEfficientPower r) (fanEfficiency r (mostEfficientPower r)) ∧
    massFlow (mostEfficientPower r) (fanEfficiency r (mostEfficientPower r)) ≤ 160 / 3600 := by
  have h1 := fanEfficiency_on_curve r
  have h2 := (fanEfficiency_bounds r (mostEfficientPower r)).2
  obtain ⟨h3, h4⟩ := mostEfficientPower_bounds r
  refine ⟨h1, ?_, ?_⟩ <;> unfold massFlow
  · rw [div_le_div_iff_of_pos_right (by norm_num)]; nlinarith
  · rw [div_le_div_iff_of_pos_right (by norm_num)]; nlinarith

/-- A grid point of the table. -/
example : fanEfficiency 1.1 200 = 0.3 := by
  have c1 : cell 1.05 0.025 12 1.1 = (2, 0) := by
    have : (1.1 - 1.05 : ℝ) / 0.025 = 2 := by norm_num
    unfold cell
    rw [this, clip_eq (by norm_num) (by norm_num)]
    simp
  have c2 : cell 100 100 3 200 = (1, 0) := by
    have : (200 - 100 : ℝ) / 100 = 1 := by norm_num
    unfold cell
    rw [this, clip_eq (by norm_num) (by norm_num)]
    simp
  unfold fanEfficiency
  simp [c1, c2, effAt, effTable]

end BLE
