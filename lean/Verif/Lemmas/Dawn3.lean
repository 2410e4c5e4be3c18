import Verif.Lemmas.Dawn2

/-!
# What the search for the sunrise elevation finds (conclusion)
-/

namespace BLE

namespace DawnSeq

variable {Q P : ℝ} {ψ X : ℤ → ℝ} {N : ℤ}

theorem scaled_le {p z c : ℝ} (h0 : 0 ≤ p) (h1 : p ≤ 1) (hz : z ≤ c) (hc : 0 ≤ c) : p * z ≤ c := by
  rcases le_or_gt 0 z with q | q
  · nlinarith
  · have := mul_nonneg h0 (by linarith : 0 ≤ -z)
    linarith

/-- How much `−cos` gains between two phases near a right angle. -/
theorem cos_gain {u v d q : ℝ} (huv : u < v) (hq : (v - u) / 2 ≤ q) (hd0 : Real.pi / 2 - d ≤ (u + v) / 2)
    (hd1 : (u + v) / 2 ≤ Real.pi / 2 + d) (hd : d ^ 2 / 2 ≤ 1) (hq1 : q ^ 2 / 4 ≤ 1) :
    (1 - d ^ 2 / 2) * (1 - q ^ 2 / 4) * (v - u) ≤ Real.cos u - Real.cos v ∧ Real.cos u - Real.cos v ≤ v - u := by
  have e := Real.cos_sub_cos u v
  set s := (u + v) / 2 with hs
  set D := (v - u) / 2 with hD
  have e' : Real.cos u - Real.cos v = 2 * (Real.sin s * Real.sin D) := by
    rw [e, show (u - v) / 2 = -D by rw [hD]; ring, Real.sin_neg]; ring
  have Dp : 0 < D := by rw [hD]; linarith
  have hsin : 1 - d ^ 2 / 2 ≤ Real.sin s := by
    rw [← Real.cos_sub_pi_div_two, ← Real.cos_abs]
    exact cos_ge (abs_nonneg _) (abs_le.2 ⟨by linarith, by linarith⟩)
  have hsD := Real.sin_gt_sub_cube Dp
  have hsD2 := Real.sin_le Dp.le
  have hsD3 : (1 - q ^ 2 / 4) * D ≤ Real.sin D := by
    have h1 : D ^ 2 ≤ q ^ 2 := pow_le_pow_left₀ Dp.le hq 2
    have h2 : D ^ 3 = D ^ 2 * D := by ring
    have h3 : D ^ 2 * D ≤ q ^ 2 * D := mul_le_mul_of_nonneg_right h1 Dp.le
    have h4 : 0 < D ^ 3 := by positivity
    linarith
  have hv : v - u = 2 * D := by rw [hD]; ring
  rw [e', hv]
  constructor
  · have h1 : 0 ≤ (1 - q ^ 2 / 4) * D := mul_nonneg (by linarith) Dp.le
    have := mul_le_mul hsin hsD3 h1 (by linarith)
    linarith
  · have h1 := Real.sin_le_one s
    have h2 : 0 ≤ Real.sin D := le_trans (mul_nonneg (by linarith) Dp.le) hsD3
    nlinarith

theorem steps (S : DawnSeq Q P ψ X N) {i j : ℤ} (h0 : 0 ≤ i) (h : i ≤ j) (h1 : j ≤ N) :
    0.01308 * ((j : ℝ) - i) ≤ ψ j - ψ i ∧ ψ j - ψ i ≤ 0.013098 * ((j : ℝ) - i) := by
  have p1 := Real.pi_gt_d4
  have p2 := Real.pi_lt_d4
  have hh := abs_le.1 (S.hψ i j h0 h h1)
  have ij : (0 : ℝ) ≤ (j : ℝ) - i := by
    have : (i : ℝ) ≤ j := by exact_mod_cast h
    linarith
  generalize (j : ℝ) - i = n at *
  have q1 : 0.0130895 * n ≤ Real.pi / 240 * n := mul_le_mul_of_nonneg_right (by norm_num at *; linarith) ij
  have q2 : Real.pi / 240 * n ≤ 0.01309034 * n := mul_le_mul_of_nonneg_right (by norm_num at *; linarith) ij
  constructor <;> norm_num at * <;> linarith

/-- Around the horizon the sun climbs. -/
theorem climbs (S : DawnSeq Q P ψ X N) {i j : ℤ} (h0 : 89 ≤ i) (h : i < j) (h1 : j ≤ 147) :
    X i + 0.008 ≤ X j ∧ (j = i + 1 → X j ≤ X i + 0.0145) := by
  obtain ⟨n0, n1⟩ := S.N_range
  have p1 := Real.pi_gt_d4
  have p2 := Real.pi_lt_d4
  have i0 : (89 : ℝ) ≤ i := by exact_mod_cast h0
  have j1 : (j : ℝ) ≤ 147 := by exact_mod_cast h1
  have ij : (i : ℝ) + 1 ≤ j := by exact_mod_cast h
  obtain ⟨a, -⟩ := S.phase (i := i) (by omega) (by omega)
  obtain ⟨-, b⟩ := S.phase (i := j) (by omega) (by omega)
  have ni := abs_le.1 (S.near (i := i) (by omega) (by omega) (d := 31) (by linarith) (by linarith))
  have nj := abs_le.1 (S.near (i := j) (by omega) (by omega) (d := 31) (by linarith) (by linarith))
  obtain ⟨w1, w2⟩ := S.steps (i := i) (j := j) (by omega) h.le (by omega)
  have g := cos_gain (u := ψ i) (v := ψ j) (d := 0.432) (q := 0.38) (by norm_num at *; linarith) (by norm_num at *; linarith)
    (by norm_num at *; linarith) (by norm_num at *; linarith) (by norm_num) (by norm_num)
  have hp0 := S.hP0
  have hp1 := S.hP1
  obtain ⟨g1, g2⟩ := g
  have g1' : 0.87 * (ψ j - ψ i) ≤ Real.cos (ψ i) - Real.cos (ψ j) := by norm_num at *; linarith
  clear g1
  generalize Real.cos (ψ i) = ci at *
  generalize Real.cos (ψ j) = cj at *
  constructor
  · have : 0.88 * (0.87 * (ψ j - ψ i)) ≤ P * (ci - cj) := mul_le_mul hp0 g1' (by norm_num at *; linarith) (by linarith)
    norm_num at *; linarith
  · intro hj
    have hj' : (j : ℝ) = i + 1 := by rw [hj]; push_cast; ring
    have : P * (ci - cj) ≤ 1 * (ψ j - ψ i) := mul_le_mul hp1 g2 (by norm_num at *; linarith) (by norm_num)
    rw [hj'] at w2
    norm_num at *; linarith

/-- Half an hour of climbing. -/
theorem climbs_ten (S : DawnSeq Q P ψ X N) {i : ℤ} (h0 : 89 ≤ i) (h1 : i ≤ 137) :
    X i + 0.1055 ≤ X (i + 10) ∧ (119 ≤ i → i ≤ 122 → X i + 0.113 ≤ X (i + 10)) := by
  obtain ⟨n0, n1⟩ := S.N_range
  have p1 := Real.pi_gt_d4
  have p2 := Real.pi_lt_d4
  have i0 : (89 : ℝ) ≤ i := by exact_mod_cast h0
  have i1 : (i : ℝ) ≤ 137 := by exact_mod_cast h1
  obtain ⟨a, -⟩ := S.phase (i := i) (by omega) (by omega)
  obtain ⟨-, b⟩ := S.phase (i := i + 10) (by omega) (by omega)
  have ni := abs_le.1 (S.near (i := i) (by omega) (by omega) (d := 31) (by linarith) (by linarith))
  have nj := abs_le.1 (S.near (i := i + 10) (by omega) (by omega) (d := 31) (by push_cast; linarith) (by push_cast; linarith))
  obtain ⟨w1, w2⟩ := S.steps (i := i) (j := i + 10) (by omega) (by omega) (by omega)
  have hp0 := S.hP0
  have hp1 := S.hP1
  push_cast at w1 w2 b
  constructor
  · obtain ⟨g1, -⟩ := cos_gain (u := ψ i) (v := ψ (i + 10)) (d := 0.368) (q := 0.066) (by norm_num at *; linarith) (by norm_num at *; linarith)
      (by norm_num at *; linarith) (by norm_num at *; linarith) (by norm_num) (by norm_num)
    have g1' : 0.1217 ≤ Real.cos (ψ i) - Real.cos (ψ (i + 10)) := by norm_num at *; linarith
    clear g1
    generalize Real.cos (ψ i) = ci at *
    generalize Real.cos (ψ (i + 10)) = cj at *
    have : 0.88 * 0.1217 ≤ P * (ci - cj) := mul_le_mul hp0 g1' (by norm_num) (by linarith)
    norm_num at *; linarith
  · intro h119 h122
    have i119 : (119 : ℝ) ≤ i := by exact_mod_cast h119
    have i122 : (i : ℝ) ≤ 122 := by exact_mod_cast h122
    obtain ⟨g1, -⟩ := cos_gain (u := ψ i) (v := ψ (i + 10)) (d := 0.12) (q := 0.066) (by norm_num at *; linarith) (by norm_num at *; linarith)
      (by norm_num at *; linarith) (by norm_num at *; linarith) (by norm_num) (by norm_num)
    have g1' : 0.1297 ≤ Real.cos (ψ i) - Real.cos (ψ (i + 10)) := by norm_num at *; linarith
    clear g1
    generalize Real.cos (ψ i) = ci at *
    generalize Real.cos (ψ (i + 10)) = cj at *
    have : 0.88 * 0.1297 ≤ P * (ci - cj) := mul_le_mul hp0 g1' (by norm_num) (by linarith)
    norm_num at *; linarith

set_option maxHeartbeats 1000000 in
/-- The sine at the midpoint against the mean of the sines at the ends. -/
theorem midpoint (S : DawnSeq Q P ψ X N) {a b : ℤ} (h0 : 89 ≤ a) (h : a + 1 < b) (h1 : b ≤ 137) :
    (X a + X b) / 2 - 0.0085 ≤ X (a + (b - a + 1) / 2) ∧ X (a + (b - a) / 2) ≤ (X a + X b) / 2 + 0.0085 := by
  obtain ⟨n0, n1⟩ := S.N_range
  have p1 := Real.pi_gt_d4
  have p2 := Real.pi_lt_d4
  have a0 : (89 : ℝ) ≤ a := by exact_mod_cast h0
  have b1 : (b : ℝ) ≤ 137 := by exact_mod_cast h1
  have ab : (a : ℝ) + 1 ≤ b := by exact_mod_cast (by omega : a + 1 ≤ b)
  obtain ⟨pa, -⟩ := S.phase (i := a) (by omega) (by omega)
  obtain ⟨-, pb⟩ := S.phase (i := b) (by omega) (by omega)
  have na := abs_le.1 (S.near (i := a) (by omega) (by omega) (d := 31) (by linarith) (by linarith))
  have nb := abs_le.1 (S.near (i := b) (by omega) (by omega) (d := 31) (by linarith) (by linarith))
  obtain ⟨w1, w2⟩ := S.steps (i := a) (j := b) (by omega) (by omega) (by omega)
  have hp0 := S.hP0
  have hp1 := S.hP1
  set s := (ψ a + ψ b) / 2 with hs
  set D := (ψ b - ψ a) / 2 with hD
  have Dp : 0 < D := by rw [hD]; norm_num at *; linarith
  have Dm : D ≤ 0.32 := by rw [hD]; norm_num at *; linarith
  have hmean : Real.cos (ψ a) + Real.cos (ψ b) = 2 * (Real.cos s * Real.cos D) := by
    rw [Real.cos_add_cos, show (ψ a - ψ b) / 2 = -D by rw [hD]; ring, Real.cos_neg]; ring
  have hcs : |Real.cos s| ≤ 0.432 - D := cos_mid (by rw [hs, hD]; norm_num at *; linarith) (by rw [hs, hD]; norm_num at *; linarith)
  have hcD := Real.one_sub_sq_div_two_le_cos (x := D)
  have hcD1 := Real.cos_le_one D
  have hcube : D ^ 2 * (0.432 - D) ≤ 0.01195 := by
    have := mul_nonneg (by norm_num; linarith : (0 : ℝ) ≤ D + 0.144) (sq_nonneg (D - 0.288))
    norm_num at *; nlinarith
  have hcc : |Real.cos s * (1 - Real.cos D)| ≤ 0.006 := by
    rw [abs_mul, abs_of_nonneg (by linarith : 0 ≤ 1 - Real.cos D)]
    have : |Real.cos s| * (1 - Real.cos D) ≤ (0.432 - D) * (D ^ 2 / 2) :=
      mul_le_mul hcs (by linarith) (by linarith) (by norm_num at *; linarith)
    norm_num at *; linarith
  have hPcc : |P * (Real.cos s * (1 - Real.cos D))| ≤ 0.006 := by
    rw [abs_mul, abs_of_nonneg (by norm_num at *; linarith)]
    have := abs_nonneg (Real.cos s * (1 - Real.cos D))
    nlinarith
  have hPcc := abs_le.1 hPcc
  have spi : s ≤ 2 := by rw [hs]; norm_num at *; linarith
  have s0 : 1 ≤ s := by rw [hs]; norm_num at *; linarith
  have avg : |(X a + X b) / 2 - (Q - P * (Real.cos s * Real.cos D))| ≤ 0.00056 := by
    have : P * Real.cos (ψ a) + P * Real.cos (ψ b) = 2 * (P * (Real.cos s * Real.cos D)) := by rw [← mul_add, hmean]; ring
    rw [abs_le]; constructor <;> norm_num at * <;> linarith
  have avg := abs_le.1 avg
  have exp : P * (Real.cos s * (1 - Real.cos D)) = P * Real.cos s - P * (Real.cos s * Real.cos D) := by ring
  rw [exp] at hPcc
  have hPn : 0 ≤ P := by norm_num at hp0 ⊢; linarith
  clear exp hcc hcube hcD hcD1 hcs hmean na nb
  generalize P * (Real.cos s * Real.cos D) = PcD at *
  constructor
  · obtain ⟨m, hm⟩ : ∃ m, a + (b - a + 1) / 2 = m := ⟨_, rfl⟩
    rw [hm]
    have m0 : a ≤ m := by omega
    have m1 : m ≤ b := by omega
    have hm2 : (a : ℝ) + b ≤ 2 * m := by exact_mod_cast (by omega : a + b ≤ 2 * m)
    have ma : (a : ℝ) ≤ m := by exact_mod_cast m0
    have mb : (m : ℝ) ≤ b := by exact_mod_cast m1
    have nm := abs_le.1 (S.near (i := m) (by omega) (by omega) (d := 31) (by linarith) (by linarith))
    have k1 := abs_le.1 (S.hψ a m (by omega) (by omega) (by omega))
    have k2 := abs_le.1 (S.hψ m b (by omega) (by omega) (by omega))
    have hψm : s - 0.0002 ≤ ψ m := by
      rw [hs]
      have : 0 ≤ Real.pi / 240 * (2 * (m : ℝ) - a - b) := by
        have := Real.pi_pos
        have : (0 : ℝ) ≤ 2 * (m : ℝ) - a - b := by linarith
        positivity
      have e1 : Real.pi / 240 * (2 * (m : ℝ) - a - b) = Real.pi / 240 * ((m : ℝ) - a) - Real.pi / 240 * ((b : ℝ) - m) := by ring
      rw [e1] at this
      generalize Real.pi / 240 * ((m : ℝ) - a) = z1 at *
      generalize Real.pi / 240 * ((b : ℝ) - m) = z2 at *
      norm_num at k1 k2 ⊢; linarith
    have hmpi : ψ m ≤ Real.pi := by
      have := (S.phase (i := m) (by omega) (by omega)).2
      norm_num at this ⊢; linarith
    have c1 := Real.cos_le_cos_of_nonneg_of_le_pi (x := s - 0.0002) (by norm_num; linarith) hmpi hψm
    have c2 := Real.abs_cos_sub_cos_le (s - 0.0002) s
    rw [show s - 0.0002 - s = -0.0002 by ring, abs_neg, abs_of_pos (by norm_num : (0 : ℝ) < 0.0002)] at c2
    have c3 := abs_le.1 c2
    have c4 : Real.cos (ψ m) - Real.cos s ≤ 0.0002 := by linarith
    have c5 : P * (Real.cos (ψ m) - Real.cos s) ≤ 0.0002 := scaled_le hPn hp1 c4 (by norm_num)
    rw [mul_sub] at c5
    norm_num at nm avg hPcc c5 ⊢; linarith
  · obtain ⟨m, hm⟩ : ∃ m, a + (b - a) / 2 = m := ⟨_, rfl⟩
    rw [hm]
    have m0 : a ≤ m := by omega
    have m1 : m ≤ b := by omega
    have hm2 : 2 * (m : ℝ) ≤ (a : ℝ) + b := by exact_mod_cast (by omega : 2 * m ≤ a + b)
    have ma : (a : ℝ) ≤ m := by exact_mod_cast m0
    have mb : (m : ℝ) ≤ b := by exact_mod_cast m1
    have nm := abs_le.1 (S.near (i := m) (by omega) (by omega) (d := 31) (by linarith) (by linarith))
    have k1 := abs_le.1 (S.hψ a m (by omega) (by omega) (by omega))
    have k2 := abs_le.1 (S.hψ m b (by omega) (by omega) (by omega))
    have hψm : ψ m ≤ s + 0.0002 := by
      rw [hs]
      have : 0 ≤ Real.pi / 240 * (a + b - 2 * (m : ℝ)) := by
        have := Real.pi_pos
        have : (0 : ℝ) ≤ a + b - 2 * (m : ℝ) := by linarith
        positivity
      have e1 : Real.pi / 240 * (a + b - 2 * (m : ℝ)) = Real.pi / 240 * ((b : ℝ) - m) - Real.pi / 240 * ((m : ℝ) - a) := by ring
      rw [e1] at this
      generalize Real.pi / 240 * ((m : ℝ) - a) = z1 at *
      generalize Real.pi / 240 * ((b : ℝ) - m) = z2 at *
      norm_num at k1 k2 ⊢; linarith
    have hm0 : 0 ≤ ψ m := by
      have := (S.phase (i := m) (by omega) (by omega)).1
      norm_num at this ⊢; linarith
    have c1 := Real.cos_le_cos_of_nonneg_of_le_pi (x := ψ m) (y := s + 0.0002) hm0 (by norm_num at *; linarith) hψm
    have c2 := Real.abs_cos_sub_cos_le (s + 0.0002) s
    rw [show s + 0.0002 - s = 0.0002 by ring, abs_of_pos (by norm_num : (0 : ℝ) < 0.0002)] at c2
    have c3 := abs_le.1 c2
    have c4 : Real.cos s - Real.cos (ψ m) ≤ 0.0002 := by linarith
    have c5 : P * (Real.cos s - Real.cos (ψ m)) ≤ 0.0002 := scaled_le hPn hp1 c4 (by norm_num)
    rw [mul_sub] at c5
    norm_num at nm avg hPcc c5 ⊢; linarith

/-- On the stretch around the horizon the elevations increase strictly. -/
theorem el_climbs (S : DawnSeq Q P ψ X N) {i j : ℤ} (h0 : 89 ≤ i) (h : i < j) (h1 : j ≤ 137) :
    elOf (X i) - minSolarEl < elOf (X j) - minSolarEl := by
  obtain ⟨n0, n1⟩ := S.N_range
  have := (S.climbs h0 h (by omega)).1
  have := elevation_lt_all (a := X i) (b := X j) (S.hX0 i (by omega) (by omega)) (by norm_num at *; linarith) (S.hX1 j (by omega) (by omega))
  unfold elOf
  linarith

/-- What is good enough for a sunrise. -/
def Good (X : ℤ → ℝ) (i : ℤ) : Prop := -0.0885 ≤ X i ∧ X i ≤ 0.0085

theorem level_found (S : DawnSeq Q P ψ X N) {a b r : ℤ} (h : Halving (fun i => |elOf (X i) - minSolarEl|) a b r)
    (h0 : 89 ≤ a) (h1 : b ≤ 137) (ha : elOf (X a) - minSolarEl < 0) (hb : 0 < elOf (X b) - minSolarEl) : Good X r := by
  obtain ⟨n0, n1⟩ := S.N_range
  have range : ∀ i, 89 ≤ i → i ≤ 137 → -1 ≤ X i ∧ X i ≤ 1 := fun i h h' => ⟨S.hX0 i (by omega) (by omega), S.hX1 i (by omega) (by omega)⟩
  have below : ∀ i, 89 ≤ i → i ≤ 137 → elOf (X i) - minSolarEl ≤ 0 → X i ≤ 0 ∧ degrees (Real.arcsin (X i)) ≤ -4.242 := by
    intro i h h' hg
    have e1 := (elOf_geo (X i)).1
    have : degrees (Real.arcsin (X i)) ≤ -4.242 := by unfold minSolarEl at hg; linarith
    exact ⟨(deg_of_sine (range i h h').1 (range i h h').2).2.2.2.2 (by norm_num at *; linarith), this⟩
  have above : ∀ i, 89 ≤ i → i ≤ 137 → 0 ≤ elOf (X i) - minSolarEl → -0.0885 ≤ X i := by
    intro i h h' hg
    have e1 := (elOf_geo (X i)).2.1
    have := (deg_of_sine (range i h h').1 (range i h h').2).2.2.2.1 4.823 (by norm_num) (by norm_num)
      (by unfold minSolarEl at hg; norm_num at *; linarith)
    norm_num at *; linarith
  have mean0 : ∀ a b, 89 ≤ a → a ≤ 137 → 89 ≤ b → b ≤ 137 → elOf (X a) - minSolarEl < 0 →
      0 ≤ (elOf (X a) - minSolarEl) + (elOf (X b) - minSolarEl) → -0.0799 ≤ (X a + X b) / 2 := by
    intro a b a0 a1 b0 b1 hg hs
    have e1 := (elOf_geo (X a)).2.2.1 (below a a0 a1 hg.le).2
    have e2 := (elOf_geo (X b)).2.1
    have := (mean_sine (X a) (X b) (range a a0 a1) (range b b0 b1)).1 4.5725 (by norm_num)
      (by unfold minSolarEl at hs; norm_num at *; linarith)
    norm_num at *; linarith
  have mean1 : ∀ a b, 89 ≤ a → a ≤ 137 → 89 ≤ b → b ≤ 137 →
      (elOf (X a) - minSolarEl) + (elOf (X b) - minSolarEl) ≤ 0 → (X a + X b) / 2 ≤ 0 := by
    intro a b a0 a1 b0 b1 hs
    have e1 := (elOf_geo (X a)).1
    have e2 := (elOf_geo (X b)).1
    exact (mean_sine (X a) (X b) (range a a0 a1) (range b b0 b1)).2 (by unfold minSolarEl at hs; norm_num at *; linarith)
  refine Halving.level (g := fun i => elOf (X i) - minSolarEl) (G := Good X) (lo := 89) (hi := 137)
    (fun i j h2 h3 h4 => S.el_climbs h2 h3 h4) ?_ ?_ ?_ h h0 h1 ha hb
  · intro a b c0 c1 c2 ga gb hs hm
    have := mean0 a b c0 (by omega) (by omega) c2 ga hs
    have m := (S.midpoint c0 c1 c2).1
    have := (below _ (by omega) (by omega) hm).1
    unfold Good
    constructor <;> norm_num at * <;> linarith
  · intro a b c0 c1 c2 ga gb hs hm
    have := mean1 a b c0 (by omega) (by omega) c2 hs
    have m := (S.midpoint c0 c1 c2).2
    have := above _ (by omega) (by omega) hm
    unfold Good
    constructor <;> norm_num at * <;> linarith
  · intro a c0 c1 ga gb
    have st := (S.climbs (i := a) (j := a + 1) c0 (by omega) (by omega)).2 rfl
    constructor
    · intro hs
      have := mean0 a (a + 1) c0 (by omega) (by omega) c1 ga hs
      have := (below a (by omega) (by omega) ga.le).1
      unfold Good
      constructor <;> norm_num at * <;> linarith
    · intro hs
      have := mean1 a (a + 1) c0 (by omega) (by omega) c1 hs
      have := above (a + 1) (by omega) (by omega) gb.le
      unfold Good
      constructor <;> norm_num at * <;> linarith

set_option maxHeartbeats 1600000 in
/-- What the search for the sunrise elevation finds between midnight and noon. -/
theorem found (S : DawnSeq Q P ψ X N) {r : ℤ} (h : Halving (fun i => |elOf (X i) - minSolarEl|) 0 N r) :
    89 ≤ r ∧ r ≤ 137 ∧ -0.1035 ≤ X r ∧ X r ≤ 0.029 ∧ (-0.0885 ≤ X r ∨ 119 ≤ r ∧ r ≤ 122) := by
  obtain ⟨n0, n1⟩ := S.N_range
  obtain ⟨s1, s2, s3, s4⟩ := S.g_start
  obtain ⟨e1, e2, e3, e4⟩ := S.g_end
  have hp0 := S.hP0
  have hp1 := S.hP1
  have hPn : 0 ≤ P := by norm_num at hp0 ⊢; linarith
  have s3 := abs_le.1 s3
  have e3 := abs_le.1 e3
  have c0 := Real.cos_le_one (ψ 0)
  have cN := Real.neg_one_le_cos (ψ N)
  have hcc : |P * (Real.cos (ψ 0) + Real.cos (ψ N))| ≤ 0.0004 := by
    rw [abs_le]
    have q1 := scaled_le (z := Real.cos (ψ 0) + Real.cos (ψ N)) (c := 0.0004) hPn hp1 (by norm_num at *; linarith) (by norm_num)
    have q2 := scaled_le (z := -(Real.cos (ψ 0) + Real.cos (ψ N))) (c := 0.0004) hPn hp1 (by norm_num at *; linarith) (by norm_num)
    rw [mul_neg] at q2
    exact ⟨by linarith, q1⟩
  have hcc := abs_le.1 hcc
  rw [mul_add] at hcc
  have r0 : -1 ≤ X 0 ∧ X 0 ≤ 1 := ⟨S.hX0 0 le_rfl (by omega), S.hX1 0 le_rfl (by omega)⟩
  have rN : -1 ≤ X N ∧ X N ≤ 1 := ⟨S.hX0 N (by omega) le_rfl, S.hX1 N (by omega) le_rfl⟩
  have s5 := (elOf_geo (X 0)).1
  have e5 := (elOf_geo (X N)).1
  have g0neg : |elOf (X 0) - minSolarEl| = -(elOf (X 0) - minSolarEl) := abs_of_nonpos (by linarith)
  have gNpos : |elOf (X N) - minSolarEl| = elOf (X N) - minSolarEl := abs_of_nonneg (by linarith)
  cases h with
  | @left _ _ _ hlt hf hr =>
    simp only [sub_zero, zero_add] at hr hf
    rw [g0neg, gNpos] at hf
    have hq : -0.0771 ≤ Q := by
      have := (mean_sine (X 0) (X N) r0 rN).1 4.265 (by norm_num) (by unfold minSolarEl at hf; norm_num at *; linarith)
      norm_num at *; linarith
    obtain ⟨H, hH⟩ : ∃ H, (N + 1) / 2 = H := ⟨_, rfl⟩
    rw [hH] at hr
    have gH := S.g_mid (i := H) (by omega) (by omega) (by omega) (by omega)
    have hr := (show Halving (fun i => |elOf (X i) - minSolarEl|) 0 H r from hr)
    cases hr with
    | left hlt hf hr =>
      rw [g0neg] at hf; linarith
    | right hlt hf hr =>
      simp only [sub_zero, zero_add] at hr
      obtain ⟨A, hA⟩ : ∃ A, H / 2 = A := ⟨_, rfl⟩
      rw [hA] at hr
      have gA := S.g_low (i := A) (by omega) (by omega)
      have gA' : |elOf (X A) - minSolarEl| = -(elOf (X A) - minSolarEl) := abs_of_nonpos (by linarith)
      cases hr with
      | left hlt hf hr =>
        rw [gA'] at hf; linarith
      | right hlt hf hr =>
        obtain ⟨L, hL⟩ : ∃ L, A + (H - A) / 2 = L := ⟨_, rfl⟩
        rw [hL] at hr
        have hrr := hr.range
        have gL := S.x_lower (i := L) (by omega) (by omega)
        rcases le_or_gt (elOf (X H) - minSolarEl) 0 with hz | hz
        · have hrH := hr.allBelow (g := fun i => elOf (X i) - minSolarEl) hz (fun i j q1 q2 q3 => S.el_climbs (by omega) q2 (by omega))
          rw [hrH]
          have ph := (S.phase_mid (i := H) (by omega) (by omega)).1 (by omega)
          have ph2 := (S.phase_mid (i := H) (by omega) (by omega)).2.2.2 (by omega)
          have p2 := Real.pi_lt_d4
          have p1 := Real.pi_gt_d4
          have hc : Real.cos (ψ H) ≤ 0.0261 := by
            have := Real.cos_le_cos_of_nonneg_of_le_pi (x := Real.pi / 2 - 0.0261) (y := ψ H) (by norm_num at *; linarith)
              (by norm_num at *; linarith) ph
            rw [Real.cos_pi_div_two_sub] at this
            exact this.trans (Real.sin_le (by norm_num))
          have hPc := scaled_le hPn hp1 hc (by norm_num)
          have nm := abs_le.1 (S.near (i := H) (by omega) (by omega) (d := 2) (by
            have : (118 : ℝ) ≤ H := by exact_mod_cast (by omega : 118 ≤ H)
            linarith) (by
            have : (H : ℝ) ≤ 122 := by exact_mod_cast (by omega : H ≤ 122)
            linarith))
          have eH := (elOf_geo (X H)).1
          have hX0 := (deg_of_sine (S.hX0 H (by omega) (by omega)) (S.hX1 H (by omega) (by omega))).2.2.2.2
            (by unfold minSolarEl at hz; norm_num at *; linarith)
          refine ⟨by omega, by omega, by norm_num at *; linarith, by norm_num at *; linarith, Or.inr ⟨by omega, by omega⟩⟩
        · obtain ⟨g1, g2⟩ := S.level_found hr (by omega) (by omega) gL hz
          exact ⟨by omega, by omega, by norm_num at *; linarith, by norm_num at *; linarith, Or.inl g1⟩
      | pickLeft hb hf => omega
      | pickRight hb hf => omega
    | pickLeft hb hf => omega
    | pickRight hb hf => omega
  | @right _ _ _ hlt hf hr =>
    simp only [sub_zero, zero_add] at hr hf
    rw [g0neg, gNpos] at hf
    have hq : Q ≤ 0.0025 := by
      have := (mean_sine (X 0) (X N) r0 rN).2 (by unfold minSolarEl at hf; norm_num at *; linarith)
      norm_num at *; linarith
    obtain ⟨M, hM⟩ : ∃ M, N / 2 = M := ⟨_, rfl⟩
    rw [hM] at hr
    have gM := S.g_mid (i := M) (by omega) (by omega) (by omega) (by omega)
    have hr := (show Halving (fun i => |elOf (X i) - minSolarEl|) M N r from hr)
    cases hr with
    | right hlt hf hr =>
      rw [gNpos] at hf; linarith
    | left hlt hf hr =>
      obtain ⟨A, hA⟩ : ∃ A, M + (N - M + 1) / 2 = A := ⟨_, rfl⟩
      rw [hA] at hr
      have gA := S.g_high (i := A) (by omega) (by omega)
      have gA' : |elOf (X A) - minSolarEl| = elOf (X A) - minSolarEl := abs_of_nonneg (by linarith)
      cases hr with
      | right hlt hf hr =>
        rw [gA'] at hf; linarith
      | left hlt hf hr =>
        obtain ⟨B, hB⟩ : ∃ B, M + (A - M + 1) / 2 = B := ⟨_, rfl⟩
        rw [hB] at hr
        have gB := (S.x_upper (i := B) (by omega) (by omega)).2 (by omega)
        have gB' : |elOf (X B) - minSolarEl| = elOf (X B) - minSolarEl := abs_of_nonneg (by linarith)
        cases hr with
        | right hlt hf hr =>
          rw [gB'] at hf; linarith
        | left hlt hf hr =>
          obtain ⟨L, hL⟩ : ∃ L, M + (B - M + 1) / 2 = L := ⟨_, rfl⟩
          rw [hL] at hr
          have hrr := hr.range
          have xL := (S.x_upper (i := L) (by omega) (by omega)).1
          have gL : 0 < elOf (X L) - minSolarEl := by
            have e := (elOf_geo (X L)).1
            have := (deg_of_sine (S.hX0 L (by omega) (by omega)) (S.hX1 L (by omega) (by omega))).1 0 le_rfl (by norm_num at *; linarith)
            unfold minSolarEl
            norm_num at *; linarith
          rcases le_or_gt 0 (elOf (X M) - minSolarEl) with hz | hz
          · have hrM := hr.allAbove (g := fun i => elOf (X i) - minSolarEl) hz (fun i j q1 q2 q3 => S.el_climbs (by omega) q2 (by omega))
            rw [hrM]
            have ph := (S.phase_mid (i := M) (by omega) (by omega)).2.1 (by omega)
            have ph2 := (S.phase_mid (i := M) (by omega) (by omega)).2.2.1 (by omega)
            have p2 := Real.pi_lt_d4
            have p1 := Real.pi_gt_d4
            have hc : -Real.cos (ψ M) ≤ 0.0261 := by
              have := Real.cos_le_cos_of_nonneg_of_le_pi (x := ψ M) (y := Real.pi / 2 + 0.0261) (by norm_num at *; linarith)
                (by norm_num at *; linarith) ph
              rw [add_comm, Real.cos_add_pi_div_two] at this
              have := Real.sin_le (x := 0.0261) (by norm_num)
              linarith
            have hPc := scaled_le hPn hp1 hc (by norm_num)
            rw [mul_neg] at hPc
            have nm := abs_le.1 (S.near (i := M) (by omega) (by omega) (d := 2) (by
              have : (118 : ℝ) ≤ M := by exact_mod_cast (by omega : 118 ≤ M)
              linarith) (by
              have : (M : ℝ) ≤ 122 := by exact_mod_cast (by omega : M ≤ 122)
              linarith))
            have eM := (elOf_geo (X M)).2.1
            have hX0 := (deg_of_sine (S.hX0 M (by omega) (by omega)) (S.hX1 M (by omega) (by omega))).2.2.2.1 4.823 (by norm_num) (by norm_num)
              (by unfold minSolarEl at hz; norm_num at *; linarith)
            refine ⟨by omega, by omega, by norm_num at *; linarith, by norm_num at *; linarith, Or.inl (by norm_num at *; linarith)⟩
          · obtain ⟨g1, g2⟩ := S.level_found hr (by omega) (by omega) hz gL
            exact ⟨by omega, by omega, by norm_num at *; linarith, by norm_num at *; linarith, Or.inl g1⟩
        | pickLeft hb hf => omega
        | pickRight hb hf => omega
      | pickLeft hb hf => omega
      | pickRight hb hf => omega
    | pickLeft hb hf => omega
    | pickRight hb hf => omega
  | pickLeft hb hf => omega
  | pickRight hb hf => omega

end DawnSeq

end BLE
