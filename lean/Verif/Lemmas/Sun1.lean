import Verif.Model.Solar
import Mathlib.Analysis.Real.Pi.Bounds
import Mathlib.Analysis.SpecialFunctions.Trigonometric.Bounds

/-!
# How fast the sun's coordinates change

Lipschitz bounds, in Julian centuries, for the declination and the equation of time of `solar.py:66-133`, on the two
centuries around the epoch J2000.
-/

namespace BLE

/-- `f` is bounded by `A` and Lipschitz with constant `K` on [-1, 1]. -/
def Lip (f : ℝ → ℝ) (A K : ℝ) : Prop :=
  ∀ x y, |x| ≤ 1 → |y| ≤ 1 → |f x| ≤ A ∧ |f x - f y| ≤ K * |x - y|

theorem Lip.mono {f : ℝ → ℝ} {A B K L : ℝ} (h : Lip f A K) (h1 : A ≤ B) (h2 : K ≤ L) : Lip f B L := by
  intro x y hx hy
  obtain ⟨a, b⟩ := h x y hx hy
  exact ⟨a.trans h1, b.trans (mul_le_mul_of_nonneg_right h2 (abs_nonneg _))⟩

theorem Lip.bound_nonneg {f : ℝ → ℝ} {A K : ℝ} (h : Lip f A K) : 0 ≤ A :=
  (abs_nonneg _).trans (h 0 0 (by simp) (by simp)).1

theorem Lip.lip_nonneg {f : ℝ → ℝ} {A K : ℝ} (h : Lip f A K) : 0 ≤ K := by
  have := (abs_nonneg _).trans (h 1 0 (by simp) (by simp)).2
  simpa using this

theorem Lip.const (c : ℝ) : Lip (fun _ => c) |c| 0 := fun x y _ _ => ⟨le_rfl, by simp⟩

theorem Lip.ident : Lip (fun x => x) 1 1 := fun x y hx _ => ⟨hx, by simp⟩

theorem Lip.add {f g : ℝ → ℝ} {A B K L : ℝ} (hf : Lip f A K) (hg : Lip g B L) : Lip (fun x => f x + g x) (A + B) (K + L) := by
  intro x y hx hy
  obtain ⟨a, b⟩ := hf x y hx hy
  obtain ⟨c, d⟩ := hg x y hx hy
  refine ⟨(abs_add_le _ _).trans (by linarith), ?_⟩
  have : f x + g x - (f y + g y) = (f x - f y) + (g x - g y) := by ring
  rw [this]
  exact (abs_add_le _ _).trans (by linarith)

theorem Lip.sub {f g : ℝ → ℝ} {A B K L : ℝ} (hf : Lip f A K) (hg : Lip g B L) : Lip (fun x => f x - g x) (A + B) (K + L) := by
  intro x y hx hy
  obtain ⟨a, b⟩ := hf x y hx hy
  obtain ⟨c, d⟩ := hg x y hx hy
  refine ⟨(abs_sub _ _).trans (by linarith), ?_⟩
  have : f x - g x - (f y - g y) = (f x - f y) - (g x - g y) := by ring
  rw [this]
  exact (abs_sub _ _).trans (by linarith)

theorem Lip.mul {f g : ℝ → ℝ} {A B K L : ℝ} (hf : Lip f A K) (hg : Lip g B L) :
    Lip (fun x => f x * g x) (A * B) (A * L + B * K) := by
  have hA := hf.bound_nonneg
  intro x y hx hy
  obtain ⟨a, b⟩ := hf x y hx hy
  obtain ⟨c, d⟩ := hg x y hx hy
  obtain ⟨a', -⟩ := hf y x hy hx
  refine ⟨by rw [abs_mul]; exact mul_le_mul a c (abs_nonneg _) hA, ?_⟩
  have : f x * g x - f y * g y = g x * (f x - f y) + f y * (g x - g y) := by ring
  rw [this]
  refine (abs_add_le _ _).trans ?_
  rw [abs_mul, abs_mul]
  have e1 := mul_le_mul c b (abs_nonneg _) hg.bound_nonneg
  have e2 := mul_le_mul a' d (abs_nonneg _) hA
  nlinarith

theorem Lip.smul {f : ℝ → ℝ} {A K : ℝ} (c : ℝ) (hf : Lip f A K) : Lip (fun x => c * f x) (|c| * A) (|c| * K) := by
  have := (Lip.const c).mul hf
  simpa using this

theorem Lip.sin {f : ℝ → ℝ} {A K : ℝ} (hf : Lip f A K) : Lip (fun x => Real.sin (f x)) 1 K := by
  intro x y hx hy
  exact ⟨Real.abs_sin_le_one _, (Real.abs_sin_sub_sin_le _ _).trans (hf x y hx hy).2⟩

theorem Lip.cos {f : ℝ → ℝ} {A K : ℝ} (hf : Lip f A K) : Lip (fun x => Real.cos (f x)) 1 K := by
  intro x y hx hy
  exact ⟨Real.abs_cos_le_one _, (Real.abs_cos_sub_cos_le _ _).trans (hf x y hx hy).2⟩

theorem Lip.radians {f : ℝ → ℝ} {A K : ℝ} (hf : Lip f A K) :
    Lip (fun x => radians (f x)) (0.017454 * A) (0.017454 * K) := by
  have h := (hf.smul (Real.pi / 180))
  have hp := Real.pi_lt_d6
  have hp0 := Real.pi_pos
  have e : |Real.pi / 180| ≤ 0.017454 := by rw [abs_of_pos (by positivity)]; norm_num at *; linarith
  refine Lip.mono (f := fun x => BLE.radians (f x)) ?_ (mul_le_mul_of_nonneg_right e hf.bound_nonneg)
    (mul_le_mul_of_nonneg_right e hf.lip_nonneg)
  have : (fun x => BLE.radians (f x)) = fun x => Real.pi / 180 * f x := by
    funext x; unfold BLE.radians; ring
  rw [this]; exact h

theorem lip_longitude : Lip meanLongSun 634 629 := by
  have h := (((Lip.ident.mul ((Lip.const 36000.76983).add (Lip.ident.mul (Lip.const 0.0003032)))).add
    (Lip.const 280.46646))).radians
  have : meanLongSun = fun x => radians (x * (36000.76983 + x * 0.0003032) + 280.46646) := by
      funext x; unfold meanLongSun; ring_nf
  rw [this]
  refine Lip.mono (h) ?_ ?_
  all_goals norm_num [abs_of_pos]

theorem lip_anomaly : Lip meanAnomalySun 635 629 := by
  have h := (((Lip.ident.mul ((Lip.const 35999.05029).sub ((Lip.const 0.0001537).mul Lip.ident))).add
    (Lip.const 357.52911))).radians
  have : meanAnomalySun = fun x => radians (x * (35999.05029 - 0.0001537 * x) + 357.52911) := by
      funext x; unfold meanAnomalySun; ring_nf
  rw [this]
  refine Lip.mono (h) ?_ ?_
  all_goals norm_num [abs_of_pos]

theorem lip_eccentricity : Lip eccentricity 0.0168 0.0001 := by
  have h := (Lip.const 0.016708634).sub (Lip.ident.mul ((Lip.const 0.000042037).add
    ((Lip.const 0.0000001267).mul Lip.ident)))
  refine Lip.mono (f := eccentricity) h ?_ ?_ <;> norm_num [abs_of_pos]

/-- Longitude of the ascending node, in the corrections. -/
theorem lip_node : Lip (fun jc => radians (125.04 - 1934.136 * jc)) 40 34 := by
  have h := ((Lip.const 125.04).sub ((Lip.const 1934.136).mul Lip.ident)).radians
  refine Lip.mono h ?_ ?_ <;> norm_num [abs_of_pos]

theorem lip_obliquity : Lip obliquity 0.42 0.002 := by
  have h := ((Lip.const (1 / 3600)).mul ((Lip.const (23 * 3600 + 26 * 60 + 21.448)).sub (Lip.ident.mul ((Lip.const 46.815).add (Lip.ident.mul
    ((Lip.const 0.00059).sub (Lip.ident.mul (Lip.const 0.001813)))))))).radians
  have h' := ((Lip.const 0.00256).mul lip_node.cos).radians
  have : obliquity = fun x => radians (1 / 3600 * (23 * 3600 + 26 * 60 + 21.448 - x * (46.815 + x * (0.00059 - x * 0.001813)))) +
        radians (0.00256 * Real.cos (radians (125.04 - 1934.136 * x))) := by
      funext x; unfold obliquity; congr 2; ring
  rw [this]
  refine Lip.mono (h.add h') ?_ ?_
  all_goals norm_num [abs_of_pos]

theorem obliquity_range {x : ℝ} (hx : |x| ≤ 1) : 0.4 ≤ obliquity x ∧ obliquity x ≤ 0.41 := by
  obtain ⟨hx0, hx1⟩ := abs_le.1 hx
  have hp := Real.pi_gt_d6
  have hp' := Real.pi_lt_d6
  have c1 := Real.cos_le_one (radians (125.04 - 1934.136 * x))
  have c0 := Real.neg_one_le_cos (radians (125.04 - 1934.136 * x))
  unfold obliquity
  generalize Real.cos (radians (125.04 - 1934.136 * x)) = c at *
  have p1 : |x * (46.815 + x * (0.00059 - x * 0.001813))| ≤ 47 := by
    rw [abs_mul]
    have : |46.815 + x * (0.00059 - x * 0.001813)| ≤ 47 := by
      rw [abs_le]; constructor <;> nlinarith
    calc |x| * _ ≤ 1 * 47 := mul_le_mul hx this (abs_nonneg _) (by norm_num)
      _ = 47 := by norm_num
  obtain ⟨p2, p3⟩ := abs_le.1 p1
  generalize x * (46.815 + x * (0.00059 - x * 0.001813)) = w at *
  have e : radians (23 + (26 + (21.448 - w) / 60) / 60) + radians (0.00256 * c) =
      Real.pi * ((23 + (26 + (21.448 - w) / 60) / 60 + 0.00256 * c) / 180) := by unfold radians; ring
  rw [e]
  constructor
  · norm_num at *; nlinarith
  · norm_num at *; nlinarith

theorem tan_lip {a b : ℝ} (ha : 0.2 ≤ a) (ha' : a ≤ 0.205) (hb : 0.2 ≤ b) (hb' : b ≤ 0.205) :
    |Real.tan a| ≤ 0.21 ∧ |Real.tan a - Real.tan b| ≤ 1.05 * |a - b| := by
  have hc : ∀ x : ℝ, 0.2 ≤ x → x ≤ 0.205 → 0.978 ≤ Real.cos x := by
    intro x h0 h1
    have := Real.one_sub_sq_div_two_le_cos (x := x)
    norm_num at *; nlinarith
  have ca := hc a ha ha'
  have cb := hc b hb hb'
  have hca : 0 < Real.cos a := by norm_num at *; linarith
  have hcb : 0 < Real.cos b := by norm_num at *; linarith
  constructor
  · rw [Real.tan_eq_sin_div_cos, abs_div, abs_of_pos hca, div_le_iff₀ hca]
    have := Real.abs_sin_le_abs (x := a)
    have e : |a| = a := abs_of_pos (by norm_num at *; linarith)
    rw [e] at this
    norm_num at *; linarith
  · have e : Real.tan a - Real.tan b = Real.sin (a - b) / (Real.cos a * Real.cos b) := by
      rw [Real.tan_eq_sin_div_cos, Real.tan_eq_sin_div_cos, Real.sin_sub]; field_simp
    rw [e, abs_div, abs_of_pos (mul_pos hca hcb), div_le_iff₀ (mul_pos hca hcb)]
    have h1 := Real.abs_sin_le_abs (x := a - b)
    have h2 : 0.956 ≤ Real.cos a * Real.cos b := by
      have := mul_le_mul ca cb (by norm_num) hca.le
      norm_num at *; linarith
    have h3 := abs_nonneg (a - b)
    norm_num at h2 ⊢; nlinarith

theorem lip_tan_half : Lip (fun x => Real.tan (obliquity x / 2)) 0.21 0.0011 := by
  intro x y hx hy
  obtain ⟨a0, a1⟩ := obliquity_range hx
  obtain ⟨b0, b1⟩ := obliquity_range hy
  obtain ⟨h1, h2⟩ := tan_lip (a := obliquity x / 2) (b := obliquity y / 2) (by norm_num at *; linarith)
    (by norm_num at *; linarith) (by norm_num at *; linarith) (by norm_num at *; linarith)
  refine ⟨h1, h2.trans ?_⟩
  have h3 := (lip_obliquity x y hx hy).2
  rw [show obliquity x / 2 - obliquity y / 2 = (1 / 2) * (obliquity x - obliquity y) by ring, abs_mul,
    abs_of_pos (by norm_num : (0 : ℝ) < 1 / 2)]
  have := abs_nonneg (x - y)
  norm_num at h3 ⊢; linarith

/-- The equation of time, in radians of hour angle. -/
noncomputable def eqTime (jc : ℝ) : ℝ := equationOfTime jc / 4

theorem lip_eqTime : Lip eqTime 0.1 100 := by
  have y := lip_tan_half.mul lip_tan_half
  have l2 := (Lip.smul 2 lip_longitude).sin
  have l2c := (Lip.smul 2 lip_longitude).cos
  have l4 := (Lip.smul 4 lip_longitude).sin
  have m1 := lip_anomaly.sin
  have m2 := (Lip.smul 2 lip_anomaly).sin
  have e := lip_eccentricity
  have h := ((((y.mul l2).sub ((Lip.smul 2 e).mul m1)).add ((((Lip.smul 4 e).mul y).mul m1).mul l2c)).sub
    (((Lip.smul 0.5 y).mul y).mul l4)).sub (((Lip.smul 1.25 e).mul e).mul m2)
  have : eqTime = fun jc => Real.tan (obliquity jc / 2) * Real.tan (obliquity jc / 2) * Real.sin (2 * meanLongSun jc) -
        2 * eccentricity jc * Real.sin (meanAnomalySun jc) +
        4 * eccentricity jc * (Real.tan (obliquity jc / 2) * Real.tan (obliquity jc / 2)) * Real.sin (meanAnomalySun jc) *
          Real.cos (2 * meanLongSun jc) -
        0.5 * (Real.tan (obliquity jc / 2) * Real.tan (obliquity jc / 2)) *
          (Real.tan (obliquity jc / 2) * Real.tan (obliquity jc / 2)) * Real.sin (4 * meanLongSun jc) -
        1.25 * eccentricity jc * eccentricity jc * Real.sin (2 * meanAnomalySun jc) := by
      funext jc; unfold eqTime equationOfTime; ring
  rw [this]
  refine Lip.mono (h) ?_ ?_
  all_goals norm_num [abs_of_pos]

theorem lip_sinDeclination : Lip sinDeclination 0.41 272 := by
  have m1 := lip_anomaly.sin
  have m2 := (Lip.smul 2 lip_anomaly).sin
  have m3 := (Lip.smul 3 lip_anomaly).sin
  have c := (((m1.mul ((Lip.const 1.914602).sub (Lip.ident.mul ((Lip.const 0.004817).add
    ((Lip.const 0.000014).mul Lip.ident))))).add (m2.mul ((Lip.const 0.019993).sub ((Lip.const 0.000101).mul
    Lip.ident)))).add (m3.mul (Lip.const 0.000289))).radians
  have a := (lip_longitude.add c).sub ((Lip.const 0.00569).sub ((Lip.const 0.00478).mul lip_node.sin)).radians
  have hso : Lip (fun x => Real.sin (obliquity x)) 0.41 0.002 := by
    intro x y hx hy
    refine ⟨?_, (lip_obliquity.sin x y hx hy).2⟩
    obtain ⟨h0, h1⟩ := obliquity_range hx
    refine (Real.abs_sin_le_abs).trans ?_
    rw [abs_of_nonneg (by norm_num at *; linarith)]; exact h1
  have h := hso.mul a.sin
  refine Lip.mono (f := sinDeclination) h ?_ ?_
  all_goals norm_num [abs_of_pos]

end BLE
