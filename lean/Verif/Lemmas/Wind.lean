import Verif.Model.Wind
import Mathlib.Tactic.Linarith
import Mathlib.Tactic.FieldSimp
import Mathlib.Tactic.Ring
import Mathlib.Tactic.NormNum
import Mathlib.Tactic.Positivity
import Mathlib.Algebra.Order.BigOperators.Group.Finset
import Mathlib.Algebra.BigOperators.Fin

/-!
# Lemmas about the time reflection and linear interpolation
-/

namespace BLE

/-! ## Reflection -/

/-- For non-negative times the reflection is the distance to the nearest multiple of `2h`. -/
theorem boomerang_spec {t h : ℝ} (ht : 0 ≤ t) (hh : 0 < h) :
    (∃ m : ℤ, boomerang t h = |t - 2 * h * m|) ∧ (∀ m : ℤ, boomerang t h ≤ |t - 2 * h * m|) ∧
      0 ≤ boomerang t h ∧ boomerang t h ≤ h := by
  have hq : 0 ≤ t / h := by positivity
  have f1 := Int.floor_le (t / h)
  have f2 := Int.lt_floor_add_one (t / h)
  rw [le_div_iff₀ hh] at f1
  rw [div_lt_iff₀ hh] at f2
  unfold boomerang
  simp only [if_pos hq]
  generalize ⌊t / h⌋ = n at *
  rcases Int.even_or_odd' n with ⟨m, rfl | rfl⟩
  · rw [if_pos (by omega)]
    push_cast at *
    have e : t - h * (2 * (m : ℝ)) = t - 2 * h * m := by ring
    refine ⟨⟨m, ?_⟩, ?_, by nlinarith, by nlinarith⟩
    · rw [e, abs_of_nonneg (by nlinarith)]
    · intro k
      rcases le_or_gt k m with hk | hk
      · have hk' : (k : ℝ) ≤ m := by exact_mod_cast hk
        refine le_trans ?_ (le_abs_self _); nlinarith
      · have hk' : (m : ℝ) + 1 ≤ k := by exact_mod_cast hk
        refine le_trans ?_ (neg_le_abs _); nlinarith
  · rw [if_neg (by omega)]
    push_cast at *
    refine ⟨⟨m + 1, ?_⟩, ?_, by nlinarith, by nlinarith⟩
    · push_cast
      rw [abs_of_nonpos (by nlinarith)]; ring
    · intro k
      rcases le_or_gt k m with hk | hk
      · have hk' : (k : ℝ) ≤ m := by exact_mod_cast hk
        refine le_trans ?_ (le_abs_self _); nlinarith
      · have hk' : (m : ℝ) + 1 ≤ k := by exact_mod_cast hk
        refine le_trans ?_ (neg_le_abs _); nlinarith

theorem boomerang_lipschitz {s t h : ℝ} (hs : 0 ≤ s) (ht : 0 ≤ t) (hh : 0 < h) :
    |boomerang t h - boomerang s h| ≤ |t - s| := by
  obtain ⟨⟨m, hm⟩, lm, _, _⟩ := boomerang_spec ht hh
  obtain ⟨⟨k, hk⟩, lk, _, _⟩ := boomerang_spec hs hh
  rw [abs_sub_le_iff]
  constructor
  · have := lm k
    have tri := abs_sub_abs_le_abs_sub (t - 2 * h * k) (s - 2 * h * k)
    rw [show t - 2 * h * k - (s - 2 * h * k) = t - s by ring] at tri
    linarith
  · have := lk m
    have tri := abs_sub_abs_le_abs_sub (s - 2 * h * m) (t - 2 * h * m)
    rw [show s - 2 * h * m - (t - 2 * h * m) = -(t - s) by ring, abs_neg] at tri
    linarith

theorem boomerang_below {t h : ℝ} (ht : 0 ≤ t) (hh : t < h) : boomerang t h = t := by
  have h0 : 0 < h := lt_of_le_of_lt ht hh
  have hq : 0 ≤ t / h := by positivity
  have : ⌊t / h⌋ = 0 := by
    rw [Int.floor_eq_iff]; constructor
    · simpa using hq
    · rw [div_lt_iff₀ h0]; push_cast; linarith
  unfold boomerang
  rw [if_pos hq, this]
  simp

theorem boomerang_period {t h : ℝ} (ht : 0 ≤ t) (hh : 0 < h) :
    boomerang (t + 2 * h) h = boomerang t h := by
  have hq : 0 ≤ t / h := by positivity
  have e : (t + 2 * h) / h = t / h + (2 : ℤ) := by push_cast; field_simp
  unfold boomerang
  have hq2 : 0 ≤ t / h + ((2 : ℤ) : ℝ) := by push_cast; linarith
  rw [e, Int.floor_add_intCast, if_pos hq, if_pos hq2]
  simp only
  have : (⌊t / h⌋ + 2) % 2 % 2 = ⌊t / h⌋ % 2 % 2 := by omega
  rw [this]
  push_cast
  have r : t + 2 * h - h * ((⌊t / h⌋ : ℝ) + 2) = t - h * ⌊t / h⌋ := by ring
  rw [r]

theorem boomerang_at_horizon {h : ℝ} (hh : 0 < h) : boomerang h h = h := by
  unfold boomerang
  rw [div_self hh.ne']
  norm_num

/-! ## One-dimensional interpolation -/

/-- Number of grid points strictly below `x`. -/
noncomputable def below (g : ℕ → ℝ) (n : ℕ) (x : ℝ) : ℕ :=
  ((List.range n).filter fun j => @decide (g j < x) (Classical.propDecidable _)).length

theorem below_le (g : ℕ → ℝ) (n : ℕ) (x : ℝ) : below g n x ≤ n := by
  unfold below
  exact (List.length_filter_le _ _).trans (by simp)

theorem below_spec (g : ℕ → ℝ) (n : ℕ) (x : ℝ) (hg : ∀ i j, i < j → j < n → g i < g j) :
    ∀ j, j < n → (g j < x ↔ j < below g n x) := by
  induction n with
  | zero => intro j hj; omega
  | succ n ih =>
    have ih := ih (fun i j h1 h2 => hg i j h1 (by omega))
    have hb : below g (n + 1) x = below g n x + if g n < x then 1 else 0 := by
      unfold below
      rw [List.range_succ, List.filter_append, List.length_append]
      congr 1
      by_cases h : g n < x <;> simp [h]
    intro j hj
    by_cases h : g n < x
    · have hall : below g n x = n := by
        rcases Nat.eq_zero_or_pos n with h0 | h0
        · subst h0; rfl
        · have h1 : g (n - 1) < x := lt_trans (hg (n - 1) n (by omega) (by omega)) h
          have := (ih (n - 1) (by omega)).1 h1
          have := below_le g n x
          omega
      rw [hb, hall, if_pos h]
      refine ⟨fun _ => by omega, fun _ => ?_⟩
      rcases Nat.lt_or_ge j n with hj' | hj'
      · exact lt_trans (hg j n hj' (by omega)) h
      · have : j = n := by omega
        subst this; exact h
    · rw [hb, if_neg h, Nat.add_zero]
      rcases Nat.lt_or_ge j n with hj' | hj'
      · exact ih j hj'
      · have : j = n := by omega
        subst this
        have := below_le g j x
        constructor
        · intro h'; exact absurd h' h
        · intro h'; omega

theorem locate_eq (g : ℕ → ℝ) (n : ℕ) (x : ℝ) : locate g n x = min (below g n x - 1) (n - 2) := rfl

theorem locate_spec (g : ℕ → ℝ) (n : ℕ) (x : ℝ) (hn : 2 ≤ n) (hg : ∀ i j, i < j → j < n → g i < g j)
    (h0 : g 0 ≤ x) (h1 : x ≤ g (n - 1)) :
    locate g n x + 1 < n ∧ g (locate g n x) ≤ x ∧ x ≤ g (locate g n x + 1) := by
  have hb := below_spec g n x hg
  have hle : below g n x ≤ n - 1 := by
    by_contra hc
    have : g (n - 1) < x := (hb (n - 1) (by omega)).2 (by omega)
    linarith
  rw [locate_eq]
  rcases Nat.eq_zero_or_pos (below g n x) with hz | hz
  · rw [hz, Nat.zero_sub, Nat.zero_min]
    have hx : ¬ g 0 < x := by rw [hb 0 (by omega), hz]; omega
    have : x = g 0 := le_antisymm (not_lt.1 hx) h0
    refine ⟨by omega, h0, ?_⟩
    rw [this]; exact (hg 0 1 (by omega) (by omega)).le
  · have e : min (below g n x - 1) (n - 2) = below g n x - 1 := by omega
    rw [e]
    refine ⟨by omega, ((hb _ (by omega)).2 (by omega)).le, ?_⟩
    rw [show below g n x - 1 + 1 = below g n x by omega]
    rcases Nat.lt_or_ge (below g n x) n with h | h
    · exact not_lt.1 (fun h' => absurd ((hb _ h).1 h') (lt_irrefl _))
    · omega

theorem locate_node (g : ℕ → ℝ) (n m : ℕ) (hm : m < n) (hg : ∀ i j, i < j → j < n → g i < g j) :
    below g n (g m) = m := by
  have hb := below_spec g n (g m) hg
  have hmm : ¬ m < below g n (g m) := fun h => lt_irrefl _ ((hb m hm).2 h)
  rcases Nat.lt_or_ge (below g n (g m)) m with h | h
  · exact absurd ((hb _ (by omega)).1 (hg _ _ h hm)) (lt_irrefl _)
  · omega

theorem interp1_node (g : ℕ → ℝ) (n m : ℕ) (vals : ℕ → ℝ) (hn : 2 ≤ n) (hm : m < n)
    (hg : ∀ i j, i < j → j < n → g i < g j) : interp1 g n vals (g m) = vals m := by
  unfold interp1
  simp only
  rw [locate_eq, locate_node g n m hm hg]
  rcases Nat.eq_zero_or_pos m with h | h
  · subst h; simp
  · have e : min (m - 1) (n - 2) = m - 1 := by omega
    rw [e, show m - 1 + 1 = m by omega]
    have : g (m - 1) < g m := hg _ _ (by omega) hm
    have hne : g m - g (m - 1) ≠ 0 := by linarith
    rw [div_self hne]; ring

/-- The weight of the upper node. -/
theorem weight_range (g : ℕ → ℝ) (n : ℕ) (x : ℝ) (hn : 2 ≤ n) (hg : ∀ i j, i < j → j < n → g i < g j)
    (h0 : g 0 ≤ x) (h1 : x ≤ g (n - 1)) :
    0 ≤ (x - g (locate g n x)) / (g (locate g n x + 1) - g (locate g n x)) ∧
      (x - g (locate g n x)) / (g (locate g n x + 1) - g (locate g n x)) ≤ 1 := by
  obtain ⟨hi, ha, hb⟩ := locate_spec g n x hn hg h0 h1
  have hp : 0 < g (locate g n x + 1) - g (locate g n x) := sub_pos.2 (hg _ _ (by omega) hi)
  constructor
  · exact div_nonneg (by linarith) hp.le
  · rw [div_le_one hp]; linarith

theorem interp1_bounds (g : ℕ → ℝ) (n : ℕ) (vals : ℕ → ℝ) (x lo hi : ℝ) (hn : 2 ≤ n)
    (hg : ∀ i j, i < j → j < n → g i < g j) (h0 : g 0 ≤ x) (h1 : x ≤ g (n - 1))
    (hv : ∀ i, i < n → lo ≤ vals i ∧ vals i ≤ hi) :
    lo ≤ interp1 g n vals x ∧ interp1 g n vals x ≤ hi := by
  obtain ⟨hw0, hw1⟩ := weight_range g n x hn hg h0 h1
  obtain ⟨hi', -, -⟩ := locate_spec g n x hn hg h0 h1
  unfold interp1
  simp only
  generalize (x - g (locate g n x)) / (g (locate g n x + 1) - g (locate g n x)) = w at *
  have a := hv (locate g n x) (by omega)
  have b := hv (locate g n x + 1) hi'
  constructor <;> nlinarith [a.1, a.2, b.1, b.2]

/-- Interpolating two nearby sets of values. -/
theorem interp1_vals (g : ℕ → ℝ) (n : ℕ) (vals vals' : ℕ → ℝ) (x d : ℝ) (hn : 2 ≤ n)
    (hg : ∀ i j, i < j → j < n → g i < g j) (h0 : g 0 ≤ x) (h1 : x ≤ g (n - 1))
    (hv : ∀ i, i < n → |vals i - vals' i| ≤ d) : |interp1 g n vals x - interp1 g n vals' x| ≤ d := by
  have e : interp1 g n vals x - interp1 g n vals' x = interp1 g n (fun i => vals i - vals' i) x := by
    unfold interp1; ring
  rw [e, abs_le]
  exact interp1_bounds g n _ x (-d) d hn hg h0 h1 (fun i hi => abs_le.1 (hv i hi))

/-- The interpolant as a sum of ramps. -/
noncomputable def ramps (g : ℕ → ℝ) (vals : ℕ → ℝ) (x : ℝ) (n : ℕ) : ℝ :=
  vals 0 + ∑ i ∈ Finset.range n,
    (vals (i + 1) - vals i) / (g (i + 1) - g i) * (min (max x (g i)) (g (i + 1)) - g i)

theorem ramps_above (g vals : ℕ → ℝ) (x : ℝ) (m : ℕ) (hg : ∀ i j, i < j → j ≤ m → g i < g j)
    (hx : g m ≤ x) : ramps g vals x m = vals m := by
  induction m with
  | zero => simp [ramps]
  | succ m ih =>
    have hm : g m < g (m + 1) := hg _ _ (by omega) (by omega)
    have := ih (fun i j h1 h2 => hg i j h1 (by omega)) (by linarith)
    unfold ramps at *
    rw [Finset.sum_range_succ, ← add_assoc, this, max_eq_left (by linarith), min_eq_right hx]
    have : g (m + 1) - g m ≠ 0 := by linarith
    field_simp; ring

theorem ramps_locate (g vals : ℕ → ℝ) (x : ℝ) (n i : ℕ) (hg : ∀ i j, i < j → j ≤ n → g i < g j)
    (hi : i < n) (h0 : g i ≤ x) (h1 : x ≤ g (i + 1)) :
    ramps g vals x n = vals i + (vals (i + 1) - vals i) / (g (i + 1) - g i) * (x - g i) := by
  have step : ∀ k, i + 1 + k ≤ n → ramps g vals x (i + 1 + k) =
      vals i + (vals (i + 1) - vals i) / (g (i + 1) - g i) * (x - g i) := by
    intro k
    induction k with
    | zero =>
      intro _
      have := ramps_above g vals x i (fun a b h1 h2 => hg a b h1 (by omega)) h0
      unfold ramps at *
      rw [Nat.add_zero, Finset.sum_range_succ, ← add_assoc, this, max_eq_left h0, min_eq_left h1]
    | succ k ih =>
      intro hk
      have := ih (by omega)
      have hlt : g (i + 1 + k) < g (i + 1 + k + 1) := hg _ _ (by omega) (by omega)
      have hle : x ≤ g (i + 1 + k) := by
        rcases Nat.eq_zero_or_pos k with h | h
        · subst h; simpa using h1
        · exact h1.trans (hg (i + 1) (i + 1 + k) (by omega) (by omega)).le
      unfold ramps at *
      rw [show i + 1 + (k + 1) = i + 1 + k + 1 by ring, Finset.sum_range_succ, ← add_assoc, this,
        max_eq_right hle, min_eq_left hlt.le]
      ring
  have := step (n - (i + 1)) (by omega)
  rwa [show i + 1 + (n - (i + 1)) = n by omega] at this

theorem interp1_ramps (g vals : ℕ → ℝ) (n : ℕ) (x : ℝ) (hn : 2 ≤ n) (hg : ∀ i j, i < j → j < n → g i < g j)
    (h0 : g 0 ≤ x) (h1 : x ≤ g (n - 1)) : interp1 g n vals x = ramps g vals x (n - 1) := by
  obtain ⟨hi, ha, hb⟩ := locate_spec g n x hn hg h0 h1
  rw [ramps_locate g vals x (n - 1) (locate g n x) (fun i j h1 h2 => hg i j h1 (by omega)) (by omega) ha hb]
  unfold interp1
  simp only
  have : g (locate g n x + 1) - g (locate g n x) ≠ 0 := (sub_pos.2 (hg _ _ (by omega) hi)).ne'
  field_simp; ring

/-- The largest slope of the interpolant is bounded by the sum of all slopes. -/
noncomputable def slopes (g vals : ℕ → ℝ) (n : ℕ) : ℝ :=
  ∑ i ∈ Finset.range (n - 1), |(vals (i + 1) - vals i) / (g (i + 1) - g i)|

theorem clamp_lipschitz (x y a b : ℝ) : |min (max x a) b - min (max y a) b| ≤ |x - y| := by
  have h1 : |min (max x a) b - min (max y a) b| ≤ |max x a - max y a| :=
    (abs_min_sub_min_le_max _ _ _ _).trans (by simp)
  exact h1.trans ((abs_max_sub_max_le_abs _ _ _))

theorem interp1_lipschitz (g vals : ℕ → ℝ) (n : ℕ) (x y : ℝ) (hn : 2 ≤ n)
    (hg : ∀ i j, i < j → j < n → g i < g j) (hx0 : g 0 ≤ x) (hx1 : x ≤ g (n - 1)) (hy0 : g 0 ≤ y)
    (hy1 : y ≤ g (n - 1)) : |interp1 g n vals x - interp1 g n vals y| ≤ slopes g vals n * |x - y| := by
  rw [interp1_ramps g vals n x hn hg hx0 hx1, interp1_ramps g vals n y hn hg hy0 hy1]
  unfold ramps slopes
  rw [add_sub_add_left_eq_sub, ← Finset.sum_sub_distrib, Finset.sum_mul]
  refine (Finset.abs_sum_le_sum_abs _ _).trans (Finset.sum_le_sum fun i _ => ?_)
  rw [← mul_sub, abs_mul, sub_sub_sub_cancel_right]
  exact mul_le_mul_of_nonneg_left (clamp_lipschitz _ _ _ _) (abs_nonneg _)

end BLE
