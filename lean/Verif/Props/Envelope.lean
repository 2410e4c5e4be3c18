import Verif.Lemmas.Envelope

/-!
# C14, C15: superpressure and volume of the envelope
-/

namespace BLE

/-- The physical law the solver is supposed to satisfy. `n` is the amount of gas [mol], `t` its
temperature, `p` the ambient pressure, `v0` and `dv` the envelope's volume law. Nothing here refers to
the solver. -/
def Spec.EnvelopeBalance (n t p v0 dv vol sp : ℝ) : Prop :=
  (n * 8.3144621 * t ≤ p * v0 → sp = 0 ∧ vol * p = n * 8.3144621 * t) ∧
  (p * v0 < n * 8.3144621 * t →
    0 < sp ∧ vol = v0 + dv * sp ∧ (p + sp) * vol = n * 8.3144621 * t)

/-- C14: the returned volume and superpressure satisfy the envelope equations. -/
theorem C14_solves (nL nA t p v0 dv : ℝ) (hn : 0 < nL + nA) (ht : 0 < t) (hp : 0 < p) (hv0 : 0 < v0)
    (hdv : 0 ≤ dv) :
    Spec.EnvelopeBalance (nL + nA) t p v0 dv (superpressureAndVolume nL nA t p v0 dv).1
      (superpressureAndVolume nL nA t p v0 dv).2 := by
  have hR : gasR = 8.3144621 := rfl
  have hNp : 0 < (nL + nA) * 8.3144621 * t := by positivity
  unfold superpressureAndVolume Spec.EnvelopeBalance
  simp only [hR]
  generalize (nL + nA) * 8.3144621 * t = N at *
  constructor
  · intro h
    have : N / p ≤ v0 := by rw [div_le_iff₀ hp]; linarith
    rw [if_pos this]
    exact ⟨rfl, by field_simp⟩
  · intro h
    have hu : v0 < N / p := by rw [lt_div_iff₀ hp]; linarith
    rw [if_neg (not_le.2 hu)]
    have hpu : p * (N / p) = N := by field_simp
    obtain ⟨hv, hroot⟩ := quad_pos_root N p v0 dv hNp hv0 hdv
    have hD : -(v0 - dv * p) * -(v0 - dv * p) - 4 * -(dv * (N / p) * p) =
        -(v0 - dv * p) * -(v0 - dv * p) + 4 * (dv * N) := by
      rw [show dv * (N / p) * p = dv * (p * (N / p)) by ring, hpu]; ring
    simp only [hD, hpu]
    exact quad_solution N p v0 dv _ hp hdv hv hroot h

example : (0 : ℝ) < 6830 + 1500 ∧ (0 : ℝ) < 206 ∧ (0 : ℝ) < 6000 ∧ (0 : ℝ) < 1804 ∧ (0 : ℝ) ≤ 0.0199 ∧
    6000 * (1804 : ℝ) < (6830 + 1500) * 8.3144621 * 206 := by norm_num

/-- C14: the balance has only one solution with positive volume. -/
theorem C14_unique (n t p v0 dv : ℝ) (hn : 0 < n) (ht : 0 < t) (hp : 0 < p) (hv0 : 0 < v0)
    (hdv : 0 ≤ dv) (v s v' s' : ℝ) (hvp : 0 < v) (hvp' : 0 < v')
    (h : Spec.EnvelopeBalance n t p v0 dv v s) (h' : Spec.EnvelopeBalance n t p v0 dv v' s') :
    v = v' ∧ s = s' := by
  unfold Spec.EnvelopeBalance at h h'
  set N := n * 8.3144621 * t with hN
  have hNp : 0 < N := by positivity
  rcases le_or_gt N (p * v0) with hle | hgt
  · obtain ⟨e1, e2⟩ := h.1 hle
    obtain ⟨e1', e2'⟩ := h'.1 hle
    exact ⟨mul_right_cancel₀ hp.ne' (e2.trans e2'.symm), e1.trans e1'.symm⟩
  · obtain ⟨q1, q2, q3⟩ := h.2 hgt
    obtain ⟨q1', q2', q3'⟩ := h'.2 hgt
    have hs : s = s' := by
      rcases lt_trichotomy s s' with hlt | he | hlt
      · exfalso
        have : v ≤ v' := by rw [q2, q2']; nlinarith
        nlinarith
      · exact he
      · exfalso
        have : v' ≤ v := by rw [q2, q2']; nlinarith
        nlinarith
    exact ⟨by rw [q2, q2', hs], hs⟩

/-- Positive volume of the computed solution (used by C14/C15). -/
theorem volume_pos (nL nA t p v0 dv : ℝ) (hn : 0 < nL + nA) (ht : 0 < t) (hp : 0 < p) (hv0 : 0 < v0)
    (hdv : 0 ≤ dv) : 0 < (superpressureAndVolume nL nA t p v0 dv).1 ∧
      0 ≤ (superpressureAndVolume nL nA t p v0 dv).2 := by
  obtain ⟨h1, h2⟩ := C14_solves nL nA t p v0 dv hn ht hp hv0 hdv
  have hNp : 0 < (nL + nA) * 8.3144621 * t := by positivity
  rcases le_or_gt ((nL + nA) * 8.3144621 * t) (p * v0) with hle | hgt
  · obtain ⟨e1, e2⟩ := h1 hle
    refine ⟨?_, e1.ge⟩
    by_contra hc
    nlinarith [not_lt.1 hc]
  · obtain ⟨q1, q2, _⟩ := h2 hgt
    exact ⟨by rw [q2]; nlinarith, q1.le⟩

/-- C14 put together: the solver returns the one and only physical solution. -/
theorem C14_exact (nL nA t p v0 dv : ℝ) (hn : 0 < nL + nA) (ht : 0 < t) (hp : 0 < p) (hv0 : 0 < v0)
    (hdv : 0 ≤ dv) (v s : ℝ) :
    superpressureAndVolume nL nA t p v0 dv = (v, s) ↔
      0 < v ∧ Spec.EnvelopeBalance (nL + nA) t p v0 dv v s := by
  have hb := C14_solves nL nA t p v0 dv hn ht hp hv0 hdv
  have hv := (volume_pos nL nA t p v0 dv hn ht hp hv0 hdv).1
  constructor
  · intro h
    rw [h] at hb hv
    exact ⟨hv, hb⟩
  · rintro ⟨h1, h2⟩
    obtain ⟨e1, e2⟩ := C14_unique _ t p v0 dv hn ht hp hv0 hdv _ _ v s hv h1 hb h2
    exact Prod.ext e1 e2

/-- C15: more gas or more heat (larger `n·t`) never lowers superpressure or volume, and both change at
most proportionally, so there is no jump anywhere, in particular not where the envelope becomes fully
inflated. -/
theorem C15_monotone_lipschitz (nL nA t nL' nA' t' p v0 dv : ℝ) (hn : 0 < nL + nA) (ht : 0 < t)
    (hn' : 0 < nL' + nA') (ht' : 0 < t') (hp : 0 < p) (hv0 : 0 < v0) (hdv : 0 ≤ dv)
    (hle : (nL + nA) * t ≤ (nL' + nA') * t') :
    let r := superpressureAndVolume nL nA t p v0 dv
    let r' := superpressureAndVolume nL' nA' t' p v0 dv
    let d := 8.3144621 * ((nL' + nA') * t' - (nL + nA) * t)
    r.1 ≤ r'.1 ∧ r.2 ≤ r'.2 ∧ r'.2 - r.2 ≤ d / v0 ∧ r'.1 - r.1 ≤ d / p := by
  intro r r' d
  obtain ⟨h1, h2⟩ := C14_solves nL nA t p v0 dv hn ht hp hv0 hdv
  obtain ⟨h1', h2'⟩ := C14_solves nL' nA' t' p v0 dv hn' ht' hp hv0 hdv
  have hd : d = (nL' + nA') * 8.3144621 * t' - (nL + nA) * 8.3144621 * t := by simp only [d]; ring
  rw [le_div_iff₀ hv0, le_div_iff₀ hp, hd]
  exact envelope_compare hp hv0 hdv (by linarith) h1 h2 h1' h2'

example : (6830 + (0 : ℝ)) * 206 ≤ (6830 + 1500) * 210 := by norm_num

/-- C15 (ambient): at fixed gas and heat, a higher ambient pressure never raises superpressure or
volume. -/
theorem C15_ambient_antitone (nL nA t p p' v0 dv : ℝ) (hn : 0 < nL + nA) (ht : 0 < t)
    (hp : 0 < p) (hpp : p ≤ p') (hv0 : 0 < v0) (hdv : 0 ≤ dv) :
    (superpressureAndVolume nL nA t p' v0 dv).1 ≤ (superpressureAndVolume nL nA t p v0 dv).1 ∧
    (superpressureAndVolume nL nA t p' v0 dv).2 ≤ (superpressureAndVolume nL nA t p v0 dv).2 := by
  have hp' : 0 < p' := by linarith
  obtain ⟨a1, a2⟩ := C14_solves nL nA t p v0 dv hn ht hp hv0 hdv
  obtain ⟨b1, b2⟩ := C14_solves nL nA t p' v0 dv hn ht hp' hv0 hdv
  have hv := volume_pos nL nA t p v0 dv hn ht hp hv0 hdv
  have hv' := volume_pos nL nA t p' v0 dv hn ht hp' hv0 hdv
  generalize (superpressureAndVolume nL nA t p v0 dv).1 = V at *
  generalize (superpressureAndVolume nL nA t p v0 dv).2 = S at *
  generalize (superpressureAndVolume nL nA t p' v0 dv).1 = V' at *
  generalize (superpressureAndVolume nL nA t p' v0 dv).2 = S' at *
  generalize (nL + nA) * 8.3144621 * t = N at *
  rcases le_or_gt N (p * v0) with hN | hN
  · obtain ⟨e1, e2⟩ := a1 hN
    obtain ⟨e1', e2'⟩ := b1 (by nlinarith)
    refine ⟨?_, by rw [e1, e1']⟩
    by_contra hc
    nlinarith [not_le.1 hc, hv.1]
  · obtain ⟨q1, q2, q3⟩ := a2 hN
    rcases le_or_gt N (p' * v0) with hN' | hN'
    · obtain ⟨e1, e2⟩ := b1 hN'
      refine ⟨?_, by rw [e1]; exact q1.le⟩
      have h1 : V' ≤ v0 := by by_contra hc; nlinarith [not_le.1 hc]
      rw [q2]; nlinarith
    · obtain ⟨q1', q2', q3'⟩ := b2 hN'
      have hS : S' ≤ S := by
        by_contra hc
        have hc := not_le.1 hc
        have : V ≤ V' := by rw [q2, q2']; nlinarith
        nlinarith [hv.1]
      exact ⟨by rw [q2, q2']; nlinarith, hS⟩

example : (0 : ℝ) < 6830 + 1500 ∧ (6000 : ℝ) ≤ 9000 := by norm_num

end BLE
