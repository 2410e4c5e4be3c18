import Verif.Model.Balloon
import Mathlib.Tactic.Linarith
import Mathlib.Tactic.FieldSimp
import Mathlib.Tactic.Ring

namespace BLE

theorem quad_pos_root (N p v0 dv : ℝ) (hN : 0 < N) (hv0 : 0 < v0) (hdv : 0 ≤ dv) :
    let b := -(v0 - dv * p)
    let v := 0.5 * (-b + Real.sqrt (b * b + 4 * (dv * N)))
    0 < v ∧ v * v = (v0 - dv * p) * v + dv * N := by
  intro b v
  have hD0 : 0 ≤ b * b + 4 * (dv * N) := by
    have := mul_nonneg hdv hN.le
    have := mul_self_nonneg b
    linarith
  have hq2 := Real.mul_self_sqrt hD0
  have hq0 := Real.sqrt_nonneg (b * b + 4 * (dv * N))
  have hv : v = 0.5 * (-b + Real.sqrt (b * b + 4 * (dv * N))) := rfl
  have hb : b = -(v0 - dv * p) := rfl
  clear_value v b
  generalize Real.sqrt (b * b + 4 * (dv * N)) = q at *
  have hqe : q = 2 * v + b := by rw [hv]; ring
  constructor
  · rcases hdv.lt_or_eq with hpos | hz
    · have hpn := mul_pos hpos hN
      have : b < q := by
        by_contra hc
        have : q ≤ b := not_lt.1 hc
        nlinarith
      linarith
    · have hb' : b = -v0 := by rw [hb, ← hz]; ring
      linarith
  · rw [hqe] at hq2
    have hbe : v0 - dv * p = -b := by rw [hb]; ring
    rw [hbe]; linarith

theorem quad_solution (N p v0 dv v : ℝ) (hp : 0 < p) (hdv : 0 ≤ dv)
    (hv : 0 < v) (hroot : v * v = (v0 - dv * p) * v + dv * N) (h : p * v0 < N) :
    0 < N / v - p ∧ v = v0 + dv * (N / v - p) ∧ (p + (N / v - p)) * v = N := by
  have hs : N / v * v = N := by field_simp
  generalize N / v = w at *
  have hveq : v = v0 + dv * (w - p) := by
    apply mul_right_cancel₀ hv.ne'
    rw [hroot, ← hs]; ring
  refine ⟨?_, hveq, by rw [add_sub_cancel]; exact hs⟩
  by_contra hc
  have hc : w - p ≤ 0 := not_lt.1 hc
  have h1 : v ≤ v0 := by
    have := mul_nonneg hdv (neg_nonneg.2 hc)
    linarith
  have h2 : w * v ≤ p * v := mul_le_mul_of_nonneg_right (by linarith) hv.le
  have h3 : p * v ≤ p * v0 := mul_le_mul_of_nonneg_left h1 hp.le
  linarith

theorem envelope_compare {p v0 dv N N' V S V' S' : ℝ} (hp : 0 < p) (hv0 : 0 < v0) (hdv : 0 ≤ dv)
    (hNN : N ≤ N')
    (a1 : N ≤ p * v0 → S = 0 ∧ V * p = N)
    (a2 : p * v0 < N → 0 < S ∧ V = v0 + dv * S ∧ (p + S) * V = N)
    (b1 : N' ≤ p * v0 → S' = 0 ∧ V' * p = N')
    (b2 : p * v0 < N' → 0 < S' ∧ V' = v0 + dv * S' ∧ (p + S') * V' = N') :
    V ≤ V' ∧ S ≤ S' ∧ (S' - S) * v0 ≤ N' - N ∧ (V' - V) * p ≤ N' - N := by
  rcases le_or_gt N' (p * v0) with hN' | hN'
  · obtain ⟨e1', e2'⟩ := b1 hN'
    obtain ⟨e1, e2⟩ := a1 (hNN.trans hN')
    refine ⟨?_, by rw [e1, e1'], by rw [e1, e1']; linarith, by rw [sub_mul, e2, e2']⟩
    by_contra hc
    nlinarith [not_le.1 hc]
  · obtain ⟨q1', q2', q3'⟩ := b2 hN'
    have hv' : v0 ≤ V' := by rw [q2']; linarith [mul_nonneg hdv q1'.le]
    rcases le_or_gt N (p * v0) with hN | hN
    · obtain ⟨e1, e2⟩ := a1 hN
      have hV : V ≤ v0 := by by_contra hc; nlinarith [not_le.1 hc]
      refine ⟨hV.trans hv', by rw [e1]; exact q1'.le, ?_, ?_⟩
      · rw [e1]; nlinarith
      · rw [sub_mul, e2]; nlinarith
    · obtain ⟨q1, q2, q3⟩ := a2 hN
      have hS : S ≤ S' := by
        by_contra hc
        have hc := not_le.1 hc
        have : V' ≤ V := by rw [q2, q2']; linarith [mul_le_mul_of_nonneg_left hc.le hdv]
        nlinarith
      have hV : V ≤ V' := by rw [q2, q2']; linarith [mul_le_mul_of_nonneg_left hS hdv]
      have hvv : v0 ≤ V := by rw [q2]; linarith [mul_nonneg hdv q1.le]
      refine ⟨hV, hS, ?_, ?_⟩
      · rw [← q3, ← q3']
        nlinarith [mul_nonneg (sub_nonneg.2 hS) (sub_nonneg.2 hv'), mul_nonneg (add_pos hp q1).le (sub_nonneg.2 hV)]
      · rw [← q3, ← q3']
        nlinarith [mul_nonneg q1.le (sub_nonneg.2 hV), mul_nonneg (sub_nonneg.2 hS) (hv0.le.trans hv')]

end BLE
