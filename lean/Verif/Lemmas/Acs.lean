import Verif.Model.Acs
import Mathlib.Tactic.Linarith
import Mathlib.Tactic.NormNum
import Mathlib.Tactic.IntervalCases
import Mathlib.Data.List.GetD

namespace BLE

theorem effTable_bounds : ∀ row ∈ effTable, row.length = 13 ∧ ∀ e ∈ row, 0 ≤ e ∧ e ≤ 0.4 := by
  intro row hrow
  simp only [effTable, List.mem_cons, List.not_mem_nil, or_false] at hrow
  rcases hrow with rfl | rfl | rfl | rfl <;> refine ⟨rfl, ?_⟩ <;> intro e he <;>
    simp only [List.mem_cons, List.not_mem_nil, or_false] at he <;>
    rcases he with rfl | rfl | rfl | rfl | rfl | rfl | rfl | rfl | rfl | rfl | rfl | rfl | rfl <;> norm_num

theorem effAt_bounds {j i : ℕ} (hj : j < 4) (hi : i < 13) : 0 ≤ effAt j i ∧ effAt j i ≤ 0.4 := by
  unfold effAt
  have hl : effTable.length = 4 := rfl
  rw [List.getD_eq_getElem _ _ (by omega : j < effTable.length)]
  obtain ⟨h1, h2⟩ := effTable_bounds (effTable[j]) (List.getElem_mem _)
  rw [List.getD_eq_getElem _ _ (by omega : i < (effTable[j]).length)]
  exact h2 _ (List.getElem_mem _)

/-- The cell index is a valid cell and the offset is in `[0,1]`. -/
theorem cell_bounds (x0 dx : ℝ) {n : ℕ} (hn : 0 < n) (x : ℝ) :
    (cell x0 dx n x).1 < n ∧ 0 ≤ (cell x0 dx n x).2 ∧ (cell x0 dx n x).2 ≤ 1 := by
  unfold cell
  simp only
  have h0 : 0 ≤ clip ((x - x0) / dx) 0 n := by unfold clip; positivity
  have h1 : clip ((x - x0) / dx) 0 n ≤ n := min_le_right _ _
  generalize clip ((x - x0) / dx) 0 n = t at *
  refine ⟨by omega, ?_, ?_⟩
  · have : ((min ⌊t⌋₊ (n - 1) : ℕ) : ℝ) ≤ t :=
      le_trans (Nat.cast_le.2 (min_le_left _ _)) (Nat.floor_le h0)
    linarith
  · rcases le_total ⌊t⌋₊ (n - 1) with h | h
    · rw [min_eq_left h]; linarith [Nat.lt_floor_add_one t]
    · rw [min_eq_right h]
      have : ((n - 1 : ℕ) : ℝ) = n - 1 := by
        rw [Nat.cast_sub (by omega)]; norm_num
      rw [this]; linarith

theorem effIndex_lt (r w : ℝ) :
    (cell 1.05 0.025 12 r).1 + 1 < 13 ∧ (cell 100 100 3 w).1 + 1 < 4 := by
  have h1 := (cell_bounds 1.05 0.025 (n := 12) (by norm_num) r).1
  have h2 := (cell_bounds 100 100 (n := 3) (by norm_num) w).1
  omega

theorem lerp_bounds {f a b lo hi : ℝ} (hf : 0 ≤ f ∧ f ≤ 1) (ha : lo ≤ a ∧ a ≤ hi) (hb : lo ≤ b ∧ b ≤ hi) :
    lo ≤ (1 - f) * a + f * b ∧ (1 - f) * a + f * b ≤ hi := by
  constructor
  · nlinarith [mul_nonneg (sub_nonneg.2 hf.2) (sub_nonneg.2 ha.1), mul_nonneg hf.1 (sub_nonneg.2 hb.1)]
  · nlinarith [mul_nonneg (sub_nonneg.2 hf.2) (sub_nonneg.2 ha.2), mul_nonneg hf.1 (sub_nonneg.2 hb.2)]

theorem fanEfficiency_bounds (r w : ℝ) : 0 ≤ fanEfficiency r w ∧ fanEfficiency r w ≤ 0.4 := by
  obtain ⟨hx, hy⟩ := effIndex_lt r w
  have cx := (cell_bounds 1.05 0.025 (n := 12) (by norm_num) r).2
  have cy := (cell_bounds 100 100 (n := 3) (by norm_num) w).2
  unfold fanEfficiency
  simp only
  exact lerp_bounds cy
    (lerp_bounds cx (effAt_bounds (by omega) (by omega)) (effAt_bounds (by omega) (by omega)))
    (lerp_bounds cx (effAt_bounds (by omega) (by omega)) (effAt_bounds (by omega) (by omega)))

theorem mostEfficientPower_bounds (r : ℝ) : 100 ≤ mostEfficientPower r ∧ mostEfficientPower r ≤ 400 := by
  unfold mostEfficientPower seg
  split_ifs <;> constructor <;> norm_num at * <;> linarith

theorem mostEfficientPower_mono {r r' : ℝ} (h : r ≤ r') : mostEfficientPower r ≤ mostEfficientPower r' := by
  unfold mostEfficientPower seg
  split_ifs <;> norm_num at * <;> linarith

theorem massFlow_nonneg (r : ℝ) : 0 ≤ massFlow (mostEfficientPower r) (fanEfficiency r (mostEfficientPower r)) := by
  have h1 := (mostEfficientPower_bounds r).1
  have h2 := (fanEfficiency_bounds r (mostEfficientPower r)).1
  unfold massFlow
  positivity

theorem cell_idx (x0 dx : ℝ) {n : ℕ} (x : ℝ) :
    ((cell x0 dx n x).1 : ℝ) ≤ clip ((x - x0) / dx) 0 n ∧
    (clip ((x - x0) / dx) 0 n < (cell x0 dx n x).1 + 1 ∨ (cell x0 dx n x).1 = n - 1) ∧
    (cell x0 dx n x).2 = clip ((x - x0) / dx) 0 n - (cell x0 dx n x).1 := by
  unfold cell
  simp only
  have h0 : 0 ≤ clip ((x - x0) / dx) 0 n := by unfold clip; positivity
  generalize clip ((x - x0) / dx) 0 n = t at *
  refine ⟨le_trans (Nat.cast_le.2 (min_le_left _ _)) (Nat.floor_le h0), ?_, by first | rfl | trivial⟩
  rcases le_total ⌊t⌋₊ (n - 1) with h | h
  · left; rw [min_eq_left h]; exact Nat.lt_floor_add_one t
  · right; rw [min_eq_right h]

theorem clip_eq {x lo hi : ℝ} (h1 : lo ≤ x) (h2 : x ≤ hi) : clip x lo hi = x := by
  unfold clip; rw [max_eq_left h1, min_eq_left h2]
theorem clip_lo {x lo hi : ℝ} (h1 : x ≤ lo) (h2 : lo ≤ hi) : clip x lo hi = lo := by
  unfold clip; rw [max_eq_right h1, min_eq_left h2]
theorem clip_hi {x lo hi : ℝ} (h1 : lo ≤ hi) (h2 : hi ≤ x) : clip x lo hi = hi := by
  unfold clip; rw [max_eq_left (h1.trans h2), min_eq_right h2]

/-- Along the most efficient power curve the compressor efficiency never drops below 13%. -/
theorem fanEfficiency_on_curve (r : ℝ) : 0.13 ≤ fanEfficiency r (mostEfficientPower r) := by
  obtain ⟨hx, hy⟩ := effIndex_lt r (mostEfficientPower r)
  have cx := (cell_bounds 1.05 0.025 (n := 12) (by norm_num) r).2
  have cy := (cell_bounds 100 100 (n := 3) (by norm_num) (mostEfficientPower r)).2
  obtain ⟨ix1, ix2, ix3⟩ := cell_idx 1.05 0.025 (n := 12) r
  obtain ⟨iy1, iy2, iy3⟩ := cell_idx 100 100 (n := 3) (mostEfficientPower r)
  have hw := mostEfficientPower_bounds r
  have hwe : mostEfficientPower r = mostEfficientPower r := rfl
  conv_rhs at hwe => unfold mostEfficientPower seg
  unfold fanEfficiency
  simp only
  generalize mostEfficientPower r = w at *
  rw [clip_eq (x := (w - 100) / 100) (by rw [le_div_iff₀] <;> linarith)
    (by rw [div_le_iff₀] <;> norm_num; linarith)] at iy1 iy2 iy3
  generalize (cell 1.05 0.025 12 r).1 = i at *
  generalize (cell 100 100 3 w).1 = j at *
  generalize (cell 1.05 0.025 12 r).2 = f at *
  generalize (cell 100 100 3 w).2 = g at *
  by_cases h1 : r ≤ 1.05
  · have hw1 : w = 100 := by rw [hwe, if_pos h1]; norm_num
    rw [clip_lo (by rw [div_le_iff₀] <;> norm_num at * ; linarith) (by norm_num)] at ix1
    have hi0 : i = 0 := by
      have : (i : ℝ) < 1 := by linarith
      exact Nat.lt_one_iff.1 (by exact_mod_cast this)
    have hj0 : j = 0 := by
      have : (j : ℝ) < 1 := by rw [hw1] at iy1; norm_num at iy1; linarith
      exact Nat.lt_one_iff.1 (by exact_mod_cast this)
    subst hi0 hj0
    refine (lerp_bounds (hi := 0.4) cy (lerp_bounds cx ?_ ?_) (lerp_bounds cx ?_ ?_)).1 <;>
      norm_num [effAt, effTable]
  · rw [if_neg h1] at hwe
    have h1 := not_le.1 h1
    by_cases h2 : r ≤ 1.35
    swap
    · have h2 := not_le.1 h2
      rw [clip_hi (by norm_num) (by rw [le_div_iff₀] <;> norm_num at * ; linarith)] at ix1 ix2
      have hi : i = 11 := by
        rcases ix2 with h | h
        · have : (11 : ℝ) < i := by push_cast at h; linarith
          have : 11 < i := by exact_mod_cast this
          omega
        · omega
      have hw4 : w = 400 := by
        rw [hwe, if_neg (by linarith), if_neg (by linarith)]; norm_num
      have hj : j = 2 := by
        rcases iy2 with h | h
        · have : (2 : ℝ) < j := by rw [hw4] at h; norm_num at h; linarith
          have : 2 < j := by exact_mod_cast this
          omega
        · omega
      have hg : g = 1 := by rw [iy3, hw4, hj]; norm_num
      subst hi hj hg
      have := (lerp_bounds (lo := 0.13) (hi := 0.4) cx (a := effAt 3 11) (b := effAt 3 12)
        (by norm_num [effAt, effTable]) (by norm_num [effAt, effTable])).1
      linarith
    have ht : (r - 1.05) / 0.025 = 40 * r - 42 := by field_simp; ring
    rw [ht, clip_eq (by linarith) (by norm_num at *; linarith)] at ix1 ix2
    by_cases h3 : r ≤ 1.2
    · rw [if_pos h3] at hwe
      have hwv : w = 4000 / 3 * r - 1300 := by rw [hwe]; norm_num; ring
      have hjr : (j : ℝ) ≤ (40 * r - 42) / 3 := by rw [hwv] at iy1; linarith
      by_cases h4 : r < 1.125
      · have hj : j = 0 := by
          have : (j : ℝ) < 1 := by linarith
          exact Nat.lt_one_iff.1 (by exact_mod_cast this)
        have hi : i < 3 := by
          have : (i : ℝ) < 3 := by linarith
          exact_mod_cast this
        subst hj
        refine (lerp_bounds (hi := 0.4) cy (lerp_bounds cx ?_ ?_) (lerp_bounds cx ?_ ?_)).1 <;>
          interval_cases i <;> norm_num [effAt, effTable]
      · have h4 := not_lt.1 h4
        have hi3 : 3 ≤ i := by
          rcases ix2 with h | h
          · have : (2 : ℝ) < i := by linarith
            exact_mod_cast this
          · omega
        have hi7 : i < 7 := by
          have : (i : ℝ) < 7 := by linarith
          exact_mod_cast this
        have hj : 1 ≤ j := by
          rcases iy2 with h | h
          · have : (0 : ℝ) < j := by rw [hwv] at h; linarith
            exact_mod_cast this
          · omega
        have hj2 : j < 3 := by omega
        refine (lerp_bounds (hi := 0.4) cy (lerp_bounds cx ?_ ?_) (lerp_bounds cx ?_ ?_)).1 <;>
          interval_cases i <;> interval_cases j <;> norm_num [effAt, effTable]
    · rw [if_neg h3] at hwe
      have h3 := not_le.1 h3
      have hi6 : 6 ≤ i := by
        rcases ix2 with h | h
        · have : (5 : ℝ) < i := by linarith
          exact_mod_cast this
        · omega
      have hw3 : 300 ≤ w := by
        rw [hwe]; split_ifs <;> norm_num <;> linarith
      have hj : j = 2 := by
        rcases iy2 with h | h
        · have : (1 : ℝ) < j := by linarith
          have : 1 < j := by exact_mod_cast this
          omega
        · omega
      subst hj
      by_cases h5 : r ≤ 1.25
      · have hi9 : i < 9 := by
          have : (i : ℝ) < 9 := by linarith
          exact_mod_cast this
        refine (lerp_bounds (hi := 0.4) cy (lerp_bounds cx ?_ ?_) (lerp_bounds cx ?_ ?_)).1 <;>
          interval_cases i <;> norm_num [effAt, effTable]
      · rw [if_neg h5] at hwe
        have hg : g = 1 := by rw [iy3, hwe]; norm_num
        have hi12 : i < 12 := by omega
        have := (lerp_bounds (lo := 0.13) (hi := 0.4) cx (a := effAt 3 i) (b := effAt 3 (i + 1))
          (by interval_cases i <;> norm_num [effAt, effTable])
          (by interval_cases i <;> norm_num [effAt, effTable])).1
        rw [hg]
        linarith

end BLE
