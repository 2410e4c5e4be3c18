import Verif.Lemmas.Sun6

/-!
# The halving search with ties broken either way

`solar.py:354-370` halves a bracket by comparing its ends. Read backwards in time it is the same search
with ties broken the other way; statements about `Halving` therefore serve sunrise and sunset alike.
-/

namespace BLE

/-- `r` can be the result of halving the bracket `a..b` by comparing the ends, ties broken either way.
(`solar.py:354-370`) -/
inductive Halving (f : ℤ → ℝ) : ℤ → ℤ → ℤ → Prop
  | left {a b r : ℤ} (h : a + 1 < b) (hf : f a ≤ f b) (hr : Halving f a (a + (b - a + 1) / 2) r) : Halving f a b r
  | right {a b r : ℤ} (h : a + 1 < b) (hf : f b ≤ f a) (hr : Halving f (a + (b - a) / 2) b r) : Halving f a b r
  | pickLeft {a b : ℤ} (h : b = a + 1) (hf : f a ≤ f b) : Halving f a b a
  | pickRight {a b : ℤ} (h : b = a + 1) (hf : f b ≤ f a) : Halving f a b b

theorem halving_of_loop (f : ℤ → ℝ) (a b : ℤ) (h : a < b) : Halving f a b (bracketPick f (bracketLoop f a b)) := by
  fun_induction bracketLoop f a b with
  | case1 low high hgt hf ih => exact .left (by omega) hf.le (ih (by omega))
  | case2 low high hgt hf ih => exact .right (by omega) (not_lt.1 hf) (ih (by omega))
  | case3 low high hgt =>
    unfold bracketPick
    simp only
    split_ifs with hf
    · exact .pickLeft (by omega) hf.le
    · exact .pickRight (by omega) (not_lt.1 hf)

theorem halving_of_search (f : ℤ → ℝ) (N : ℤ) (h : 0 < N) : Halving f 0 N (searchIndex f N) :=
  halving_of_loop f 0 N h

theorem Halving.reverse {f : ℤ → ℝ} {a b r : ℤ} (h : Halving f a b r) (c : ℤ) :
    Halving (fun i => f (c - i)) (c - b) (c - a) (c - r) := by
  induction h with
  | @left a b r h hf _ ih =>
    refine .right (by omega) (by simpa using hf) ?_
    have : c - b + (c - a - (c - b)) / 2 = c - (a + (b - a + 1) / 2) := by omega
    rw [this]; exact ih
  | @right a b r h hf _ ih =>
    refine .left (by omega) (by simpa using hf) ?_
    have : c - b + (c - a - (c - b) + 1) / 2 = c - (a + (b - a) / 2) := by omega
    rw [this]; exact ih
  | pickLeft h hf => exact .pickRight (by omega) (by simpa using hf)
  | pickRight h hf => exact .pickLeft (by omega) (by simpa using hf)

theorem Halving.lt {f : ℤ → ℝ} {a b r : ℤ} (h : Halving f a b r) : a < b := by
  cases h <;> omega

theorem Halving.range {f : ℤ → ℝ} {a b r : ℤ} (h : Halving f a b r) : a ≤ r ∧ r ≤ b := by
  induction h with
  | left h hf hr ih => omega
  | right h hf hr ih => omega
  | pickLeft h hf => omega
  | pickRight h hf => omega

/-- If the objective is all but symmetric about `c`, the search ends within half a step of `c` (plus the
tolerance). -/
theorem Halving.extremum {f : ℤ → ℝ} {c η : ℝ} {lo hi : ℤ}
    (hcmp : ∀ a b : ℤ, lo ≤ a → a < b → b ≤ hi → (a : ℝ) ≤ c + η → c - η ≤ b →
      (c + η < ((a : ℝ) + b) / 2 → f a < f b) ∧ (((a : ℝ) + b) / 2 < c - η → f b < f a))
    {a b r : ℤ} (h : Halving f a b r) (hlo : lo ≤ a) (hhi : b ≤ hi) (h0 : (a : ℝ) ≤ c + η) (h1 : c - η ≤ b) :
    |(r : ℝ) - c| ≤ 1 / 2 + η := by
  induction h with
  | @left a b r h hf hr ih =>
    have hcs := hcmp a b hlo (by omega) hhi h0 h1
    refine ih hlo (by omega) h0 ?_
    have hm : c - η ≤ ((a : ℝ) + b) / 2 := by
      by_contra hn
      exact absurd (hcs.2 (not_le.1 hn)) (not_lt.2 hf)
    have : (a + b : ℤ) ≤ 2 * (a + (b - a + 1) / 2) := by omega
    have : ((a : ℝ) + b) ≤ 2 * ((a + (b - a + 1) / 2 : ℤ) : ℝ) := by exact_mod_cast this
    linarith
  | @right a b r h hf hr ih =>
    have hcs := hcmp a b hlo (by omega) hhi h0 h1
    refine ih (by omega) hhi ?_ h1
    have hm : ((a : ℝ) + b) / 2 ≤ c + η := by
      by_contra hn
      exact absurd (hcs.1 (not_le.1 hn)) (not_lt.2 hf)
    have : 2 * (a + (b - a) / 2) ≤ (a + b : ℤ) := by omega
    have : 2 * ((a + (b - a) / 2 : ℤ) : ℝ) ≤ ((a : ℝ) + b) := by exact_mod_cast this
    linarith
  | @pickLeft a b h hf =>
    have hcs := hcmp a b hlo (by omega) hhi h0 h1
    have hm : c - η ≤ ((a : ℝ) + b) / 2 := by
      by_contra hn
      exact absurd (hcs.2 (not_le.1 hn)) (not_lt.2 hf)
    subst h
    push_cast at *
    rw [abs_le]; constructor <;> linarith
  | @pickRight a b h hf =>
    have hcs := hcmp a b hlo (by omega) hhi h0 h1
    have hm : ((a : ℝ) + b) / 2 ≤ c + η := by
      by_contra hn
      exact absurd (hcs.1 (not_le.1 hn)) (not_lt.2 hf)
    subst h
    push_cast at *
    rw [abs_le]; constructor <;> linarith

/-! ## Searching a level of an increasing function -/

/-- On an increasing stretch above the level the left end is found. -/
theorem Halving.allAbove {g : ℤ → ℝ} {a b r : ℤ} (h : Halving (fun i => |g i|) a b r) (ha : 0 ≤ g a)
    (hmono : ∀ i j, a ≤ i → i < j → j ≤ b → g i < g j) : r = a := by
  induction h with
  | @left a b r h hf hr ih => exact ih ha (fun i j h1 h2 h3 => hmono i j h1 h2 (by omega))
  | @right a b r h hf hr ih =>
    have := hmono a b le_rfl (by omega) le_rfl
    rw [abs_of_nonneg ha, abs_of_nonneg (by linarith)] at hf
    linarith
  | pickLeft h hf => rfl
  | @pickRight a b h hf =>
    have := hmono a b le_rfl (by omega) le_rfl
    rw [abs_of_nonneg ha, abs_of_nonneg (by linarith)] at hf
    linarith

/-- On an increasing stretch below the level the right end is found. -/
theorem Halving.allBelow {g : ℤ → ℝ} {a b r : ℤ} (h : Halving (fun i => |g i|) a b r) (hb : g b ≤ 0)
    (hmono : ∀ i j, a ≤ i → i < j → j ≤ b → g i < g j) : r = b := by
  induction h with
  | @right a b r h hf hr ih => exact ih hb (fun i j h1 h2 h3 => hmono i j (by omega) h2 h3)
  | @left a b r h hf hr ih =>
    have := hmono a b le_rfl (by omega) le_rfl
    rw [abs_of_nonpos hb, abs_of_nonpos (by linarith)] at hf
    linarith
  | pickRight h hf => rfl
  | @pickLeft a b h hf =>
    have := hmono a b le_rfl (by omega) le_rfl
    rw [abs_of_nonpos hb, abs_of_nonpos (by linarith)] at hf
    linarith

/-- What is found on an increasing stretch: an end if the level is not crossed, else a point with the
property `G` that the midpoints chosen on the wrong side of the level and the final pairs have. -/
theorem Halving.level {g : ℤ → ℝ} {G : ℤ → Prop} {lo hi : ℤ} (hmono : ∀ i j, lo ≤ i → i < j → j ≤ hi → g i < g j)
    (hL : ∀ a b, lo ≤ a → a + 1 < b → b ≤ hi → g a < 0 → 0 < g b → 0 ≤ g a + g b → g (a + (b - a + 1) / 2) ≤ 0 →
      G (a + (b - a + 1) / 2))
    (hU : ∀ a b, lo ≤ a → a + 1 < b → b ≤ hi → g a < 0 → 0 < g b → g a + g b ≤ 0 → 0 ≤ g (a + (b - a) / 2) →
      G (a + (b - a) / 2))
    (hP : ∀ a, lo ≤ a → a + 1 ≤ hi → g a < 0 → 0 < g (a + 1) → (0 ≤ g a + g (a + 1) → G a) ∧
      (g a + g (a + 1) ≤ 0 → G (a + 1)))
    {a b r : ℤ} (h : Halving (fun i => |g i|) a b r) (hlo : lo ≤ a) (hhi : b ≤ hi) (ha : g a < 0) (hb : 0 < g b) : G r := by
  have hsum : ∀ {x y : ℝ}, x < 0 → 0 < y → (|x| ≤ |y| ↔ 0 ≤ x + y) ∧ (|y| ≤ |x| ↔ x + y ≤ 0) := by
    intro x y hx hy
    rw [abs_of_neg hx, abs_of_pos hy]
    constructor <;> constructor <;> intro h <;> linarith
  induction h with
  | @left a b r h hf hr ih =>
    have hs := (hsum ha hb).1.1 hf
    rcases le_or_gt (g (a + (b - a + 1) / 2)) 0 with hm | hm
    · rw [hr.allBelow hm (fun i j h1 h2 h3 => hmono i j (by omega) h2 (by omega))]
      exact hL a b hlo h hhi ha hb hs hm
    · exact ih hlo (by omega) ha hm
  | @right a b r h hf hr ih =>
    have hs := (hsum ha hb).2.1 hf
    rcases le_or_gt 0 (g (a + (b - a) / 2)) with hm | hm
    · rw [hr.allAbove hm (fun i j h1 h2 h3 => hmono i j (by omega) h2 (by omega))]
      exact hU a b hlo h hhi ha hb hs hm
    · exact ih (by omega) hhi hm hb
  | @pickLeft a b h hf =>
    subst h
    exact (hP a hlo hhi ha hb).1 ((hsum ha hb).1.1 hf)
  | @pickRight a b h hf =>
    subst h
    exact (hP a hlo hhi ha hb).2 ((hsum ha hb).2.1 hf)

end BLE
