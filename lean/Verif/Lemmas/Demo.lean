import Verif.Lemmas.Flight

/-!
# A concrete balloon used in the non-vacuity examples

The default vehicle of `BalloonState` (`balloon.py:150-208`) at 6000 Pa with 1000 Pa superpressure.
-/

namespace BLE

/-- Default vehicle (`balloon.py:156-208`), slightly inflated ballonet; layers nominal. -/
noncomputable def demo : BState where
  center := ⟨0, 0⟩
  dateTime := 0
  timeElapsed := 0
  volBase := 1804
  dvdp := 0.0199
  envMass := 68.5
  maxSp := 2380
  cod := 0.25
  payload := 92.5
  nightLoad := 183.7
  dayLoad := 120.4
  valveDiam := 0.04
  cap := 3058.56
  x := 0
  y := 0
  pressure := 6000
  ambT := 206
  molsLift := 6830
  molsAir := 100
  intT := 206
  vol := 1804
  sp := 1000
  acsPower := 0
  acsFlow := 0
  solarCharging := 0
  powerLoad := 0
  charge := 2905.6
  lastCommand := .stay
  status := .ok
  powerEnabled := true
  power := PowerLayer.new (6 * 3600 * usPerSec) (18 * 3600 * usPerSec)
  env := EnvLayer.new 2380
  alt := .nominal
  upwelling := 250

/-- Midnight everywhere. -/
noncomputable def nightSun : Sun := fun _ _ => ⟨-90, 0⟩
/-- Sun at the zenith everywhere. -/
noncomputable def noonSun : Sun := fun _ _ => ⟨90, 1366⟩

theorem demo_substep (sun : Sun) (hel : ∀ l t, -90 ≤ (sun l t).el ∧ (sun l t).el ≤ 90) (u v : ℝ)
    (a : Command) (stride : ℤ) (lc : Command) (pw : PowerLayer) :
    ∃ s', substep sun 0 u v a stride { demo with lastCommand := lc, power := pw } = .ok s' :=
  substep_no_error (by norm_num) (by norm_num) u v a stride (by norm_num [demo]) (by norm_num [demo])
    (by norm_num [demo]) (by norm_num [demo]) (by norm_num [demo]) (by norm_num [demo])
    (by norm_num [demo]) (by norm_num [demo]) (by norm_num [demo]) (by norm_num [demo]) hel

theorem nightSun_el : ∀ l t, -90 ≤ (nightSun l t).el ∧ (nightSun l t).el ≤ 90 := by
  intro l t; norm_num [nightSun]

theorem noonSun_el : ∀ l t, -90 ≤ (noonSun l t).el ∧ (noonSun l t).el ≤ 90 := by
  intro l t; norm_num [noonSun]

/-- Superpressure of an over-inflated envelope: positive, and at most the excess over base volume. -/
theorem sp_range {nL nA t p v0 dv : ℝ} (hn : 0 < nL + nA) (ht : 0 < t) (hp : 0 < p) (hv0 : 0 < v0)
    (hdv : 0 ≤ dv) (hgt : p * v0 < (nL + nA) * 8.3144621 * t) :
    v0 < (superpressureAndVolume nL nA t p v0 dv).1 + 1 ∧
    (superpressureAndVolume nL nA t p v0 dv).2 ≤ ((nL + nA) * 8.3144621 * t - p * v0) / v0 ∧
    0 < (superpressureAndVolume nL nA t p v0 dv).2 := by
  obtain ⟨h1, h2⟩ := C14_solves nL nA t p v0 dv hn ht hp hv0 hdv
  obtain ⟨e1, e2, e3⟩ := h2 hgt
  obtain ⟨v1, v2⟩ := volume_pos nL nA t p v0 dv hn ht hp hv0 hdv
  generalize (superpressureAndVolume nL nA t p v0 dv).1 = V at *
  generalize (superpressureAndVolume nL nA t p v0 dv).2 = S at *
  have hV : v0 ≤ V := by nlinarith
  refine ⟨by linarith, ?_, ?_⟩
  · rw [le_div_iff₀ hv0]; nlinarith
  · nlinarith

/-- One sub-step of the demo balloon at night keeps it flying. -/
theorem demo_ok (a lc : Command) (pw : PowerLayer) :
    ∃ s', substep nightSun 0 3 4 a (10 * usPerSec) { demo with lastCommand := lc, power := pw } = .ok s' ∧
    s'.status = .ok := by
  obtain ⟨s', hs'⟩ := demo_substep nightSun nightSun_el 3 4 a (10 * usPerSec) lc pw
  refine ⟨s', hs', ?_⟩
  obtain ⟨p', amb, dT, solar, _, _, _, hsol, e⟩ := substep_ok hs'
  have hnight : ∀ l t, ¬ (nightSun l t).el > minSolarEl := by
    intro l t; norm_num [nightSun, minSolarEl]
  rw [if_neg (hnight _ _)] at hsol
  rw [e]
  simp only [if_neg (hnight _ _), hsol]
  obtain ⟨_, h2, h3⟩ := sp_range (nL := demo.molsLift) (nA := demo.molsAir) (t := demo.intT)
    (p := demo.pressure) (v0 := demo.volBase) (dv := demo.dvdp) (by norm_num [demo]) (by norm_num [demo])
    (by norm_num [demo]) (by norm_num [demo]) (by norm_num [demo]) (by norm_num [demo])
  have h4 : (superpressureAndVolume demo.molsLift demo.molsAir demo.intT demo.pressure demo.volBase
      demo.dvdp).2 < demo.maxSp := by
    refine lt_of_le_of_lt h2 ?_
    norm_num [demo]
  have hacs : 0 ≤ (acsEffect { demo with lastCommand := lc, power := pw } a).1 ∧ (acsEffect { demo with lastCommand := lc, power := pw } a).1 ≤ 400 := by
    cases a
    · have := mostEfficientPower_bounds
        (BState.pressureRatio { demo with lastCommand := lc, power := pw })
      simp only [acsEffect]
      exact ⟨by linarith [this.1], this.2⟩
    · simp [acsEffect]
    · simp [acsEffect]
  unfold newStatus
  simp only
  rw [if_neg, if_neg (not_le.2 h3), if_neg (not_lt.2 h4.le)]
  · rfl
  · rw [not_le]
    unfold clip
    refine lt_min (lt_max_of_lt_left ?_) (by norm_num [demo])
    have hh : hoursOf (10 * usPerSec) = 1 / 360 := by norm_num [hoursOf, totalSeconds, usPerSec]
    rw [hh]
    have : demo.charge = 2905.6 := rfl
    have : demo.nightLoad = 183.7 := rfl
    linarith [hacs.2]

theorem demo_ok' (a : Command) : ∃ s', substep nightSun 0 3 4 a (10 * usPerSec) demo = .ok s' ∧
    s'.status = .ok := demo_ok a demo.lastCommand demo.power

end BLE
