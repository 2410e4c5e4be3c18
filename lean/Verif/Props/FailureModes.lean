import Verif.Lemmas.Demo
import Verif.Lemmas.Atmosphere4
import Verif.Props.Balloon
import Verif.Props.Env

/-!
# C146: the documented failure modes
-/

namespace BLE

/-- C146, what holds. After a call of `simulate_step` that makes at least one sub-step, the flight is over exactly if the battery is
empty or the superpressure is too low or too high; the altitude plays no part in it. -/
theorem C146_failures_partial (sun : Sun) (α u v : ℝ) (a : Command) (d n : ℕ) (hd : 0 < d) (hn : 0 < n)
    (s t : BState) (h : simulateStep sun α u v a (n * d * usPerSec) (d * usPerSec) s = (t, .ok ()))
    (hm : 0 ≤ s.maxSp) (hc : 0 ≤ s.cap) :
    t.status ≠ .ok ↔ t.charge = 0 ∨ t.sp ≤ 0 ∨ s.maxSp < t.sp := by
  have := (C12_status_after_step sun α u v a d n hd hn s t h hm hc).2.2.2
  rw [ne_eq, this]
  constructor
  · intro g
    by_contra hx
    push Not at hx
    exact g ⟨hx.1, hx.2.1, hx.2.2⟩
  · rintro (g | g | g) ⟨g1, g2, g3⟩
    · exact g1 g
    · linarith
    · linarith

/-- The demo balloon at 200 hPa, with the air that this takes. -/
noncomputable def lowDemo : BState := { demo with pressure := 20000, molsAir := 14770 }

theorem lowDemo_height : ∃ w, atPressure 0 lowDemo.pressure = .ok w ∧ w.height < 50000 * 0.3048 := by
  obtain ⟨w, hw⟩ := atPressure_in (α := 0) (p := lowDemo.pressure) le_rfl (by norm_num) (by norm_num [lowDemo]) (by norm_num [lowDemo])
  refine ⟨w, hw, ?_⟩
  by_contra hc
  have := (start_air le_rfl (by norm_num) hw (by norm_num [lowDemo]) (by norm_num at hc ⊢; exact hc)).2
  norm_num [lowDemo] at this

theorem low_flies_on (a : Command) : ∃ s', substep nightSun 0 3 4 a (10 * usPerSec) lowDemo = .ok s' ∧ s'.status = .ok := by
  obtain ⟨s', hs'⟩ := substep_no_error (sun := nightSun) (α := 0) (by norm_num) (by norm_num) 3 4 a (10 * usPerSec) (s := lowDemo)
    (by norm_num [lowDemo, demo]) (by norm_num [lowDemo, demo]) (by norm_num [lowDemo, demo]) (by norm_num [lowDemo, demo])
    (by norm_num [lowDemo, demo]) (by norm_num [lowDemo, demo]) (by norm_num [lowDemo, demo]) (by norm_num [lowDemo, demo])
    (by norm_num [lowDemo, demo]) (by norm_num [lowDemo, demo]) nightSun_el
  refine ⟨s', hs', ?_⟩
  obtain ⟨p', amb, dT, solar, _, _, _, hsol, e⟩ := substep_ok hs'
  have hnight : ∀ l t, ¬ (nightSun l t).el > minSolarEl := by
    intro l t; norm_num [nightSun, minSolarEl]
  rw [if_neg (hnight _ _)] at hsol
  rw [e]
  simp only [if_neg (hnight _ _), hsol]
  obtain ⟨_, h2, h3⟩ := sp_range (nL := lowDemo.molsLift) (nA := lowDemo.molsAir) (t := lowDemo.intT)
    (p := lowDemo.pressure) (v0 := lowDemo.volBase) (dv := lowDemo.dvdp) (by norm_num [lowDemo, demo]) (by norm_num [lowDemo, demo])
    (by norm_num [lowDemo]) (by norm_num [lowDemo, demo]) (by norm_num [lowDemo, demo]) (by norm_num [lowDemo, demo])
  have h4 : (superpressureAndVolume lowDemo.molsLift lowDemo.molsAir lowDemo.intT lowDemo.pressure lowDemo.volBase
      lowDemo.dvdp).2 < lowDemo.maxSp := by
    refine lt_of_le_of_lt h2 ?_
    norm_num [lowDemo, demo]
  have hacs : 0 ≤ (acsEffect lowDemo a).1 ∧ (acsEffect lowDemo a).1 ≤ 400 := by
    cases a
    · have := mostEfficientPower_bounds (BState.pressureRatio lowDemo)
      simp only [acsEffect]
      exact ⟨by linarith [this.1], this.2⟩
    · simp [acsEffect]
    · simp [acsEffect]
  unfold newStatus
  simp only
  rw [if_neg, if_neg (not_le.2 h3), if_neg (not_lt.2 h4.le)]
  · rfl
  · rw [not_le]
    unfold clip
    refine lt_min (lt_max_of_lt_left ?_) (by norm_num [lowDemo, demo])
    have hh : hoursOf (10 * usPerSec) = 1 / 360 := by norm_num [hoursOf, totalSeconds, usPerSec]
    rw [hh]
    have : lowDemo.charge = 2905.6 := rfl
    have : lowDemo.nightLoad = 183.7 := rfl
    linarith [hacs.2]

/-- C146, what does not: "a balloon can have a critical failure by … flying too low" (`docs/about.rst`). A stock balloon below the
altitude layer's floor of 50,000 ft flies on, whatever the command. -/
theorem C146_low_is_no_failure : ∃ s : BState, s.status = .ok ∧ (∃ w, atPressure 0 s.pressure = .ok w ∧ w.height < 50000 * 0.3048) ∧
    ∀ a : Command, ∃ s', substep nightSun 0 3 4 a (10 * usPerSec) s = .ok s' ∧ s'.status = .ok :=
  ⟨lowDemo, rfl, lowDemo_height, low_flies_on⟩

/-- A call that ends a flight, by the empty battery, and one that does not. -/
example : (∃ t, simulateStep nightSun 0 3 4 .stay agentStep defaultStride demoDying = (t, .ok ()) ∧ t.status ≠ .ok ∧ t.charge = 0) ∧
    ∃ t, simulateStep nightSun 0 3 4 .down (((1 : ℕ) : ℤ) * ((10 : ℕ) : ℤ) * usPerSec) (((10 : ℕ) : ℤ) * usPerSec) demo = (t, .ok ()) ∧
      t.charge ≠ 0 ∧ 0 < t.sp ∧ t.sp ≤ demo.maxSp := by
  constructor
  · obtain ⟨t, h, h1, -⟩ := demoDying_step .stay 3 4
    refine ⟨t, h, by rw [h1]; decide, ?_⟩
    exact (C12_status_after_step nightSun 0 3 4 .stay 10 18 (by norm_num) (by norm_num) demoDying t h
      (by norm_num [demoDying, demo]) (by norm_num [demoDying, demo])).1.1 h1
  · obtain ⟨t, h, h1⟩ := demo_step .down
    refine ⟨t, h, ?_⟩
    have := C146_failures_partial nightSun 0 3 4 .down 10 1 (by norm_num) (by norm_num) demo t h (by norm_num [demo])
      (by norm_num [demo])
    by_contra hc
    refine (this.2 ?_) h1
    by_contra hx
    push Not at hx
    exact hc ⟨hx.1, hx.2.1, hx.2.2⟩

end BLE
