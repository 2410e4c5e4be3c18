import Verif.Lemmas.Dawn

/-!
# What the search for the sunrise elevation finds (continued)
-/

namespace BLE

/-- A sun that climbs from midnight (index 0) to noon (index `N`) in three-minute steps: the sine of its geometric
elevation is `Q − P·cos ψ` up to a slow drift, and its phase `ψ` runs from about 0 to about π all but uniformly. -/
structure DawnSeq (Q P : ℝ) (ψ X : ℤ → ℝ) (N : ℤ) : Prop where
  hQ : |Q| ≤ 0.1075
  hP0 : 0.88 ≤ P
  hP1 : P ≤ 1
  npos : 0 < N
  hX : ∀ i, 0 ≤ i → i ≤ N → |X i - (Q - P * Real.cos (ψ i))| ≤ 1.8e-5 * |(i : ℝ) - 120|
  hX0 : ∀ i, 0 ≤ i → i ≤ N → -1 ≤ X i
  hX1 : ∀ i, 0 ≤ i → i ≤ N → X i ≤ 1
  hψ : ∀ i j, 0 ≤ i → i ≤ j → j ≤ N → |ψ j - ψ i - Real.pi / 240 * ((j : ℝ) - i)| ≤ 7.2e-6 * ((j : ℝ) - i)
  h0 : |ψ 0| ≤ 0.025
  hN : |ψ N - Real.pi| ≤ 0.025

namespace DawnSeq

variable {Q P : ℝ} {ψ X : ℤ → ℝ} {N : ℤ}

theorem N_range (S : DawnSeq Q P ψ X N) : 237 ≤ N ∧ N ≤ 243 := by
  have h1 := Real.pi_gt_d4
  have h2 := Real.pi_lt_d4
  have hp : (0 : ℝ) < N := by exact_mod_cast S.npos
  have h := abs_le.1 (S.hψ 0 N le_rfl S.npos.le le_rfl)
  have a := abs_le.1 S.h0
  have b := abs_le.1 S.hN
  push_cast at h
  constructor
  · by_contra hc
    have : (N : ℝ) ≤ 236 := by exact_mod_cast (by omega : N ≤ 236)
    norm_num at *; nlinarith
  · by_contra hc
    have : (244 : ℝ) ≤ N := by exact_mod_cast (by omega : 244 ≤ N)
    norm_num at *; nlinarith

/-- The phase at an index, from the start. -/
theorem phase (S : DawnSeq Q P ψ X N) {i : ℤ} (h0 : 0 ≤ i) (h1 : i ≤ N) :
    0.01308 * i - 0.025 ≤ ψ i ∧ ψ i ≤ 0.013098 * i + 0.025 := by
  have p1 := Real.pi_gt_d4
  have p2 := Real.pi_lt_d4
  have hi : (0 : ℝ) ≤ i := by exact_mod_cast h0
  have h := abs_le.1 (S.hψ 0 i le_rfl h0 h1)
  have a := abs_le.1 S.h0
  push_cast at h
  have q1 : 0.0130872 * (i : ℝ) ≤ Real.pi / 240 * i := mul_le_mul_of_nonneg_right (by linarith) hi
  have q2 : Real.pi / 240 * (i : ℝ) ≤ 0.0130904 * i := mul_le_mul_of_nonneg_right (by linarith) hi
  norm_num at h a q1 q2
  constructor <;> norm_num <;> linarith

/-- Near the middle the phase is a right angle. -/
theorem phase_mid (S : DawnSeq Q P ψ X N) {i : ℤ} (h0 : 118 ≤ i) (h1 : i ≤ 122) :
    (N ≤ 2 * i → Real.pi / 2 - 0.0261 ≤ ψ i) ∧ (2 * i ≤ N → ψ i ≤ Real.pi / 2 + 0.0261) ∧
    (N ≤ 2 * i + 1 → Real.pi / 2 - 0.033 ≤ ψ i) ∧ (2 * i ≤ N + 1 → ψ i ≤ Real.pi / 2 + 0.033) := by
  have p1 := Real.pi_gt_d4
  have p2 := Real.pi_lt_d4
  obtain ⟨n0, n1⟩ := S.N_range
  have i0 : (118 : ℝ) ≤ i := by exact_mod_cast h0
  have i1 : (i : ℝ) ≤ 122 := by exact_mod_cast h1
  have n0' : (237 : ℝ) ≤ N := by exact_mod_cast n0
  have n1' : (N : ℝ) ≤ 243 := by exact_mod_cast n1
  have h := abs_le.1 (S.hψ 0 i le_rfl (by omega) (by omega))
  have h' := abs_le.1 (S.hψ i N (by omega) (by omega) le_rfl)
  have a := abs_le.1 S.h0
  have b := abs_le.1 S.hN
  push_cast at h
  refine ⟨fun hh => ?_, fun hh => ?_, fun hh => ?_, fun hh => ?_⟩
  · have : (N : ℝ) ≤ 2 * i := by exact_mod_cast hh
    norm_num at *; nlinarith
  · have : 2 * (i : ℝ) ≤ N := by exact_mod_cast hh
    norm_num at *; nlinarith
  · have : (N : ℝ) ≤ 2 * i + 1 := by exact_mod_cast hh
    norm_num at *; nlinarith
  · have : 2 * (i : ℝ) ≤ N + 1 := by exact_mod_cast hh
    norm_num at *; nlinarith

theorem cos_mid {x d : ℝ} (h0 : Real.pi / 2 - d ≤ x) (h1 : x ≤ Real.pi / 2 + d) : |Real.cos x| ≤ d := by
  have := Real.abs_cos_sub_cos_le x (Real.pi / 2)
  rw [Real.cos_pi_div_two, sub_zero] at this
  exact this.trans (abs_le.2 ⟨by linarith, by linarith⟩)

/-- Drift bound. -/
theorem near (S : DawnSeq Q P ψ X N) {i : ℤ} (h0 : 0 ≤ i) (h1 : i ≤ N) {d : ℝ} (hd0 : 120 - d ≤ i) (hd1 : (i : ℝ) ≤ 120 + d) :
    |X i - (Q - P * Real.cos (ψ i))| ≤ 1.8e-5 * d := by
  refine (S.hX i h0 h1).trans ?_
  have : |(i : ℝ) - 120| ≤ d := abs_le.2 ⟨by linarith, by linarith⟩
  norm_num at *; linarith

theorem g_mid (S : DawnSeq Q P ψ X N) {i : ℤ} (h0 : 118 ≤ i) (h1 : i ≤ 122) (ha : N ≤ 2 * i + 1) (hb : 2 * i ≤ N + 1) :
    |elOf (X i) - minSolarEl| ≤ 13.2 := by
  obtain ⟨n0, n1⟩ := S.N_range
  obtain ⟨-, -, c, d⟩ := S.phase_mid h0 h1
  have hc := abs_le.1 (cos_mid (c ha) (d hb))
  have hn := abs_le.1 (S.near (i := i) (by omega) (by omega) (d := 2) (by
    have : (118 : ℝ) ≤ i := by exact_mod_cast h0
    linarith) (by
    have : (i : ℝ) ≤ 122 := by exact_mod_cast h1
    linarith))
  have hq := abs_le.1 S.hQ
  have hx : |X i| ≤ 0.1406 := by
    have p0 := S.hP0
    have p1 := S.hP1
    have e : |P * Real.cos (ψ i)| ≤ 0.033 := by
      rw [abs_mul, abs_of_nonneg (by norm_num at *; linarith)]
      have := abs_le.2 hc
      have := abs_nonneg (Real.cos (ψ i))
      nlinarith
    have e := abs_le.1 e
    rw [abs_le]
    constructor <;> norm_num at * <;> linarith
  have hd := (deg_of_sine (S.hX0 i (by omega) (by omega)) (S.hX1 i (by omega) (by omega))).2.2.1 0.1406 (by norm_num) (by norm_num) hx
  have hd := abs_le.1 hd
  obtain ⟨a1, a2, -⟩ := elOf_geo (X i)
  unfold minSolarEl
  rw [abs_le]
  constructor <;> norm_num at * <;> linarith

theorem cos_ge {x d : ℝ} (h0 : 0 ≤ x) (h1 : x ≤ d) : 1 - d ^ 2 / 2 ≤ Real.cos x := by
  have := Real.one_sub_sq_div_two_le_cos (x := x)
  have : x ^ 2 ≤ d ^ 2 := pow_le_pow_left₀ h0 h1 2
  linarith

theorem g_start (S : DawnSeq Q P ψ X N) : elOf (X 0) - minSolarEl ≤ -39 ∧
    elOf (X 0) ≤ degrees (Real.arcsin (X 0)) + 0.023 ∧ |X 0 - (Q - P * Real.cos (ψ 0))| ≤ 0.0022 ∧ 0.9996 ≤ Real.cos (ψ 0) := by
  obtain ⟨n0, n1⟩ := S.N_range
  have hn := S.near (i := 0) le_rfl (by omega) (d := 120) (by norm_num) (by norm_num)
  have hc : 1 - 0.025 ^ 2 / 2 ≤ Real.cos (ψ 0) := by
    rw [← Real.cos_abs]; exact cos_ge (abs_nonneg _) S.h0
  have hq := abs_le.1 S.hQ
  have p0 := S.hP0
  have hx : X 0 ≤ -0.77 := by
    have := abs_le.1 hn
    norm_num at *; nlinarith
  have hd := (deg_of_sine (S.hX0 0 le_rfl (by omega)) (S.hX1 0 le_rfl (by omega))).2.1 0.77 (by norm_num) (by norm_num at *; linarith)
  obtain ⟨-, -, -, a4⟩ := elOf_geo (X 0)
  have := a4 (Or.inl (by norm_num at *; linarith))
  refine ⟨?_, this, by norm_num at *; linarith, by norm_num at *; linarith⟩
  unfold minSolarEl
  norm_num at *; linarith

theorem g_end (S : DawnSeq Q P ψ X N) : 48 ≤ elOf (X N) - minSolarEl ∧
    elOf (X N) ≤ degrees (Real.arcsin (X N)) + 0.023 ∧ |X N - (Q - P * Real.cos (ψ N))| ≤ 0.0023 ∧ Real.cos (ψ N) ≤ -0.9996 := by
  obtain ⟨n0, n1⟩ := S.N_range
  have n0' : (237 : ℝ) ≤ N := by exact_mod_cast n0
  have n1' : (N : ℝ) ≤ 243 := by exact_mod_cast n1
  have hn := S.near (i := N) (by omega) le_rfl (d := 123) (by linarith) (by linarith)
  have hc : 1 - 0.025 ^ 2 / 2 ≤ -Real.cos (ψ N) := by
    rw [← Real.cos_sub_pi, ← Real.cos_abs]; exact cos_ge (abs_nonneg _) S.hN
  have hq := abs_le.1 S.hQ
  have p0 := S.hP0
  have hx : 0.769 ≤ X N := by
    have := abs_le.1 hn
    norm_num at *; nlinarith
  have hd := (deg_of_sine (S.hX0 N (by omega) le_rfl) (S.hX1 N (by omega) le_rfl)).1 0.769 (by norm_num) (by norm_num at *; linarith)
  obtain ⟨a1, -, -, a4⟩ := elOf_geo (X N)
  have := a4 (Or.inr (by norm_num at *; linarith))
  refine ⟨?_, this, by norm_num at *; linarith, by norm_num at *; linarith⟩
  unfold minSolarEl
  norm_num at *; linarith

theorem g_low (S : DawnSeq Q P ψ X N) {i : ℤ} (h0 : 59 ≤ i) (h1 : i ≤ 61) : elOf (X i) - minSolarEl ≤ -22 := by
  obtain ⟨n0, n1⟩ := S.N_range
  have i0 : (59 : ℝ) ≤ i := by exact_mod_cast h0
  have i1 : (i : ℝ) ≤ 61 := by exact_mod_cast h1
  obtain ⟨a, b⟩ := S.phase (i := i) (by omega) (by omega)
  have hn := abs_le.1 (S.near (i := i) (by omega) (by omega) (d := 61) (by linarith) (by linarith))
  have hc := cos_ge (x := ψ i) (d := 0.8245) (by norm_num at *; linarith) (by norm_num at *; linarith)
  have hq := abs_le.1 S.hQ
  have p0 := S.hP0
  have hx : X i ≤ -0.47 := by norm_num at *; nlinarith
  have hd := (deg_of_sine (S.hX0 i (by omega) (by omega)) (S.hX1 i (by omega) (by omega))).2.1 0.47 (by norm_num) (by norm_num at *; linarith)
  have a3 := (elOf_geo (X i)).2.1
  unfold minSolarEl
  norm_num at *; linarith

theorem g_high (S : DawnSeq Q P ψ X N) {i : ℤ} (h0 : 178 ≤ i) (h1 : i ≤ 182) : 30 ≤ elOf (X i) - minSolarEl := by
  obtain ⟨n0, n1⟩ := S.N_range
  have p1 := Real.pi_gt_d4
  have p2 := Real.pi_lt_d4
  have i0 : (178 : ℝ) ≤ i := by exact_mod_cast h0
  have i1 : (i : ℝ) ≤ 182 := by exact_mod_cast h1
  obtain ⟨a, b⟩ := S.phase (i := i) (by omega) (by omega)
  have hn := abs_le.1 (S.near (i := i) (by omega) (by omega) (d := 62) (by linarith) (by linarith))
  have hc := cos_ge (x := Real.pi - ψ i) (d := 0.8385) (by norm_num at *; linarith) (by norm_num at *; linarith)
  rw [Real.cos_pi_sub] at hc
  have hq := abs_le.1 S.hQ
  have p0 := S.hP0
  have hx : 0.46 ≤ X i := by norm_num at *; nlinarith
  have hd := (deg_of_sine (S.hX0 i (by omega) (by omega)) (S.hX1 i (by omega) (by omega))).1 0.46 (by norm_num) (by norm_num at *; linarith)
  have a3 := (elOf_geo (X i)).1
  unfold minSolarEl
  norm_num at *; linarith

theorem sin_ge {x d : ℝ} (hd : 0 < d) (h0 : d ≤ x) (h1 : x ≤ 1.57) : d - d ^ 3 / 4 ≤ Real.sin x := by
  have p1 := Real.pi_gt_d4
  have := Real.sin_gt_sub_cube hd
  have m := Real.sin_le_sin_of_le_of_le_pi_div_two (x := d) (y := x) (by linarith) (by norm_num at *; linarith) h0
  have : 0 < d ^ 3 := by positivity
  linarith

theorem x_upper (S : DawnSeq Q P ψ X N) {i : ℤ} (h0 : 133 ≤ i) (h1 : i ≤ 153) :
    0.0175 ≤ X i ∧ (148 ≤ i → 14.3 ≤ elOf (X i) - minSolarEl) := by
  obtain ⟨n0, n1⟩ := S.N_range
  have p1 := Real.pi_gt_d4
  have p2 := Real.pi_lt_d4
  have i0 : (133 : ℝ) ≤ i := by exact_mod_cast h0
  have i1 : (i : ℝ) ≤ 153 := by exact_mod_cast h1
  obtain ⟨a, b⟩ := S.phase (i := i) (by omega) (by omega)
  have hn := abs_le.1 (S.near (i := i) (by omega) (by omega) (d := 33) (by linarith) (by linarith))
  have hq := abs_le.1 S.hQ
  have p0 := S.hP0
  have e : Real.sin (ψ i - Real.pi / 2) = -Real.cos (ψ i) := Real.sin_sub_pi_div_two _
  constructor
  · have hc := sin_ge (x := ψ i - Real.pi / 2) (d := 0.1438) (by norm_num) (by norm_num at *; linarith) (by norm_num at *; linarith)
    rw [e] at hc
    norm_num at *; nlinarith
  · intro h148
    have i148 : (148 : ℝ) ≤ i := by exact_mod_cast h148
    have hc := sin_ge (x := ψ i - Real.pi / 2) (d := 0.34) (by norm_num) (by norm_num at *; linarith) (by norm_num at *; linarith)
    rw [e] at hc
    have hx : 0.181 ≤ X i := by norm_num at *; nlinarith
    have hd := (deg_of_sine (S.hX0 i (by omega) (by omega)) (S.hX1 i (by omega) (by omega))).1 0.181 (by norm_num) (by norm_num at *; linarith)
    have a3 := (elOf_geo (X i)).1
    unfold minSolarEl
    norm_num at *; linarith

theorem x_lower (S : DawnSeq Q P ψ X N) {i : ℤ} (h0 : 89 ≤ i) (h1 : i ≤ 91) : elOf (X i) - minSolarEl < 0 := by
  obtain ⟨n0, n1⟩ := S.N_range
  have p1 := Real.pi_gt_d4
  have p2 := Real.pi_lt_d4
  have i0 : (89 : ℝ) ≤ i := by exact_mod_cast h0
  have i1 : (i : ℝ) ≤ 91 := by exact_mod_cast h1
  obtain ⟨a, b⟩ := S.phase (i := i) (by omega) (by omega)
  have hn := abs_le.1 (S.near (i := i) (by omega) (by omega) (d := 31) (by linarith) (by linarith))
  have hq := abs_le.1 S.hQ
  have p0 := S.hP0
  have e : Real.sin (Real.pi / 2 - ψ i) = Real.cos (ψ i) := Real.sin_pi_div_two_sub _
  have hc := sin_ge (x := Real.pi / 2 - ψ i) (d := 0.353) (by norm_num) (by norm_num at *; linarith) (by norm_num at *; linarith)
  rw [e] at hc
  have hx : X i ≤ -0.19 := by norm_num at *; nlinarith
  have hd := (deg_of_sine (S.hX0 i (by omega) (by omega)) (S.hX1 i (by omega) (by omega))).2.1 0.19 (by norm_num) (by norm_num at *; linarith)
  have a3 := (elOf_geo (X i)).2.1
  unfold minSolarEl
  norm_num at *; linarith

end DawnSeq

end BLE
