import Verif.Lemmas.Daylight
import Verif.Lemmas.Safety
import Verif.Props.SunriseLate

/-!
# C133: day and night by the power safety layer's clock
-/

open Spec

namespace BLE

/-- Day by a layer's clock at `now`: its next sunset `ss` comes before its next sunrise (plus 30 minutes). -/
def Spec.LayerDay (L : PowerLayer) (now ss : ℤ) : Prop :=
  ∃ sr, IsNext L.sunriseH now sr ∧ IsNext L.sunset now ss ∧ ss < sr

/-- Night by a layer's clock at `now`: its next sunrise (plus 30 minutes) `sr` is not after its next sunset. -/
def Spec.LayerDark (L : PowerLayer) (now sr : ℤ) : Prop :=
  ∃ ss, IsNext L.sunriseH now sr ∧ IsNext L.sunset now ss ∧ sr ≤ ss

/-- `l'` is within `d` degrees of `l`, latitude and longitude differences added up (longitudes modulo 360°). -/
def Spec.WithinDegrees (l l' : LatLng) (d : ℝ) : Prop :=
  ∃ k : ℤ, |degrees (l'.lat - l.lat)| + |degrees (l'.lng - l.lng) - 360 * k| ≤ d

theorem within_radians {l l' : LatLng} (h : Spec.WithinDegrees l l' 2) :
    ∃ k : ℤ, |l'.lat - l.lat| + |l'.lng - l.lng - 2 * Real.pi * k| ≤ 0.03491 := by
  have hpi := Real.pi_pos
  have p2 := Real.pi_lt_d4
  obtain ⟨k, hk⟩ := h
  refine ⟨k, ?_⟩
  have e1 : |degrees (l'.lat - l.lat)| = 180 / Real.pi * |l'.lat - l.lat| := by
    unfold degrees
    rw [abs_mul, abs_of_pos (show 0 < 180 / Real.pi by positivity), mul_comm]
  have e2 : |degrees (l'.lng - l.lng) - 360 * k| = 180 / Real.pi * |l'.lng - l.lng - 2 * Real.pi * k| := by
    rw [show degrees (l'.lng - l.lng) - 360 * k = (l'.lng - l.lng - 2 * Real.pi * k) * (180 / Real.pi) by
      unfold degrees; field_simp; ring, abs_mul, abs_of_pos (show 0 < 180 / Real.pi by positivity), mul_comm]
  rw [e1, e2, ← mul_add, div_mul_eq_mul_div, div_le_iff₀ hpi] at hk
  norm_num at p2 ⊢; linarith

/-- The layer's clock after earlier calls is that of the new layer. -/
theorem next_after_calls (L : PowerLayer) (calls : List PowerCall) (now : ℤ) (hmono : calls.Pairwise (fun a b => a.now ≤ b.now))
    (hle : ∀ c ∈ calls, c.now ≤ now) (sr ss : ℤ) :
    (IsNext (L.run calls).sunriseH now sr → IsNext L.sunriseH now sr) ∧
    (IsNext (L.run calls).sunset now ss → IsNext L.sunset now ss) := by
  obtain ⟨a, b⟩ := PowerLayer.run_clock_next L calls ⟨.stay, now, 0, 0, 0⟩ (by
    rw [List.pairwise_append]
    refine ⟨hmono, List.pairwise_singleton _ _, fun x hx y hy => ?_⟩
    rw [List.mem_singleton] at hy
    rw [hy]; exact hle x hx)
  constructor
  · intro h
    rw [isNext_unique h (isNext_catchUp now _)]
    simp only at a
    rw [a]; exact isNext_catchUp now _
  · intro h
    rw [isNext_unique h (isNext_catchUp now _)]
    simp only at b
    rw [b]; exact isNext_catchUp now _

/-- What the earliest repetition says. -/
theorem isNext_days {base now t : ℤ} (h : IsNext base now t) (hb : base ≤ now + day) :
    now ≤ t ∧ t ≤ now + day ∧ ∃ k : ℤ, 0 ≤ k ∧ t = base + k * day ∧ (k = 0 ∨ t < now + day) := by
  obtain ⟨h1, ⟨k, hk⟩, h3⟩ := h
  suffices hs : k = 0 ∨ t < now + day by
    refine ⟨h1, ?_, k, Int.natCast_nonneg k, hk, by simpa using hs⟩
    rcases hs with rfl | hs
    · simp at hk; omega
    · omega
  rcases Nat.eq_zero_or_pos k with hp | hp
  · exact Or.inl hp
  · right
    by_contra hn
    have := h3 (k - 1) (by
      rw [Nat.cast_sub hp]; push_cast
      unfold day at *; omega)
    rw [Nat.cast_sub hp] at this
    unfold day at *; push_cast at this; omega

set_option maxHeartbeats 1000000 in
/-- C133. For two days from its making the clock of the power safety layer is right while the balloon stays within 2° of where
the layer was made: half an hour after the making, and until half an hour before the layer's sunset, it is day by the layer's
clock only with the sun above `MIN_SOLAR_EL_DEG` at the balloon; and it is night by the layer's clock only with the sun
below 16°. (Made within 15° of the equator, 48 minutes clear of solar noon and midnight, 1970–2096; any calls of the layer in
between.) -/
theorem C133_clock_partial (cal : Calendar) (hcal : Spec.Gregorian cal) (l : LatLng) (hl : |degrees l.lat| ≤ 15) (t : ℤ)
    (h0 : 2 * 86400 * 1000000 ≤ t) (h1 : t < 3999000000 * 1000000) (hclear : Spec.ClearOfCulmination l t) (sunrise sunset : ℤ)
    (hr : nextSunriseSunset (fun t => (realSun cal l t).el) (degrees l.lat) t searchDelta = .ok (sunrise, sunset))
    (calls : List PowerCall) (hmono : calls.Pairwise (fun a b => a.now ≤ b.now)) (now : ℤ) (hle : ∀ c ∈ calls, c.now ≤ now)
    (hn1 : now ≤ t + 2 * 86400 * 1000000) (l' : LatLng) (hl' : Spec.WithinDegrees l l' 2) :
    (∀ ss, Spec.LayerDay ((PowerLayer.new sunrise sunset).run calls) now ss → t + 30 * 60 * 1000000 ≤ now → now + 30 * 60 * 1000000 ≤ ss →
      minSolarEl < (realSun cal l' now).el) ∧
    (∀ sr, Spec.LayerDark ((PowerLayer.new sunrise sunset).run calls) now sr → t ≤ now → (realSun cal l' now).el ≤ 16) := by
  have hle' := nearEquator_of_degrees hl
  have hT := hle'.tropical
  have hhy : powerHysteresis = 1800 * 1000000 := by norm_num [powerHysteresis, usPerSec]
  obtain ⟨w1, w2, w3, w4⟩ := C50_within_a_day _ _ t searchDelta sunrise sunset (by norm_num [searchDelta, usPerSec]) hr
  obtain ⟨⟨s1, a0, a1, ea, Ea⟩, s2, b0, b1, eb, Eb⟩ := events_found cal hcal l hl t h0 h1 hclear sunrise sunset hr
  set σ : ℝ := ((t / 1000000 : ℤ) : ℝ) with hσ
  have σ0 : 172800 ≤ σ := by
    rw [hσ]
    exact_mod_cast (by omega : (172800 : ℤ) ≤ t / 1000000)
  have σ1 : σ ≤ 3999000000 := by
    rw [hσ]
    exact_mod_cast (by omega : t / 1000000 ≤ (3999000000 : ℤ))
  have era : ∀ s : ℝ, -172800 ≤ s → s ≤ 500000 → InEra (σ + s) := fun s q0 q1 => ⟨by linarith, by linarith⟩
  have s1r : (0 : ℝ) ≤ s1 ∧ (s1 : ℝ) ≤ 86400 := ⟨by exact_mod_cast (by omega : (0 : ℤ) ≤ s1), by exact_mod_cast (by omega : s1 ≤ (86400 : ℤ))⟩
  have s2r : (0 : ℝ) ≤ s2 ∧ (s2 : ℝ) ≤ 86400 := ⟨by exact_mod_cast (by omega : (0 : ℤ) ≤ s2), by exact_mod_cast (by omega : s2 ≤ (86400 : ℤ))⟩
  -- the sun at the balloon
  obtain ⟨k, hk⟩ := within_radians hl'
  have place := fun {s : ℝ} (h : InEra s) => (sunX_place l l' h k).trans hk
  have hT' : Tropical l' := by
    have p1 := Real.pi_gt_d4
    have := abs_nonneg (l'.lng - l.lng - 2 * Real.pi * k)
    have t1 := abs_sub_abs_le_abs_sub l'.lat l.lat
    have : |l.lat| ≤ Real.pi / 12 := hle'
    unfold Tropical
    norm_num at hk p1 ⊢; linarith
  -- the phases at the layer's instants
  obtain ⟨x1, x2⟩ : 0.66 ≤ Real.sin (sunPhi l.lng (σ + s1 + 1800)) ∧ sunX l (σ + s1 + 1800) ≤ 0.174 := by
    have e1 : InEra (σ + s1) := era _ (by linarith) (by linarith)
    have e2 : InEra (σ + s1 + 1800) := by rw [add_assoc]; exact era _ (by linarith) (by linarith)
    obtain ⟨p, q⟩ := half_hour l.lng e1 e2 (by norm_num)
    have p := abs_le.1 p
    have q := abs_le.1 q
    have E := Ea.phase
    refine ⟨by norm_num at p E ⊢; linarith, ?_⟩
    have d := (abs_le.1 (sunX_diff hT e2 e1)).2
    rw [add_sub_cancel_left, abs_of_pos (by norm_num : (0 : ℝ) < 1800)] at d
    obtain ⟨P0, P1⟩ := sunP_range hT e1
    have m := DawnSeq.scaled_le (c := 0.132) (by norm_num at P0 ⊢; linarith) P1 (by linarith [q.1] :
      Real.cos (sunPhi l.lng (σ + s1)) - Real.cos (sunPhi l.lng (σ + s1 + 1800)) ≤ 0.132) (by norm_num)
    have hi := Ea.high
    norm_num at d m hi ⊢; linarith
  have y1 : Real.sin (sunPhi l.lng (σ + s2 - 1800)) ≤ -0.66 := by
    obtain ⟨p, -⟩ := half_hour l.lng (s := σ + s2) (u := -1800) (era _ (by linarith) (by linarith))
      (by rw [add_assoc]; exact era _ (by linarith) (by linarith)) (by norm_num)
    have p := abs_le.1 p
    have E := Eb.phase
    rw [sub_eq_add_neg]
    norm_num at p E ⊢; linarith
  have x3 := Ea.later
  have y3 := Eb.later
  have y4 := Eb.high
  have y5 := Eb.phase
  rw [one_mul] at x3
  rw [neg_one_mul, ← sub_eq_add_neg] at y3
  constructor
  · rintro ss ⟨sr, n1, n2, hd⟩ hn0 hss
    have n1 := (next_after_calls (PowerLayer.new sunrise sunset) calls now hmono hle sr ss).1 n1
    have n2 := (next_after_calls (PowerLayer.new sunrise sunset) calls now hmono hle sr ss).2 n2
    simp only [PowerLayer.new, hhy] at n1 n2
    obtain ⟨c1, c2, j, j0, ej, -⟩ := isNext_days n1 (by unfold day; omega)
    obtain ⟨d1, d2, i, i0, ei, ej'⟩ := isNext_days n2 (by unfold day; omega)
    unfold day at *
    have jb : j ≤ 2 := by omega
    have ib : i ≤ 2 := by omega
    obtain ⟨u1, u2⟩ := sun_days hT (s := σ + s1 + 1800) (n := j - 1) (by rw [add_assoc, add_sub_assoc]; exact era _ (by linarith) (by linarith))
      (by rw [add_assoc, add_assoc]; exact era _ (by linarith) (by linarith)) (by omega) (by omega)
    obtain ⟨v1, v2⟩ := sun_days hT (s := σ + s2 - 1800) (n := i) (by rw [add_sub_assoc, add_sub_assoc]; exact era _ (by linarith) (by linarith))
      (by rw [add_sub_assoc, add_assoc]; exact era _ (by linarith) (by linarith)) (by omega) (by omega)
    have u1 := abs_le.1 u1
    have u2 := abs_le.1 u2
    have v1 := abs_le.1 v1
    have v2 := abs_le.1 v2
    have t0 : σ + s1 + 1800 + 86400 * ((j - 1 : ℤ) : ℝ) ≤ ((now / 1000000 : ℤ) : ℝ) := by
      rw [hσ]
      have : t / 1000000 + s1 + 1800 + 86400 * (j - 1) ≤ now / 1000000 := by omega
      exact_mod_cast this
    have t1 : ((now / 1000000 : ℤ) : ℝ) ≤ σ + s2 - 1800 + 86400 * (i : ℝ) := by
      rw [hσ]
      have : now / 1000000 ≤ t / 1000000 + s2 - 1800 + 86400 * i := by omega
      exact_mod_cast this
    have span : σ + s2 - 1800 + 86400 * (i : ℝ) - (σ + s1 + 1800 + 86400 * ((j - 1 : ℤ) : ℝ)) ≤ 86400 := by
      have : s2 - 1800 + 86400 * i - (s1 + 1800 + 86400 * (j - 1)) ≤ 86400 := by omega
      have : ((s2 - 1800 + 86400 * i - (s1 + 1800 + 86400 * (j - 1)) : ℤ) : ℝ) ≤ 86400 := by exact_mod_cast this
      push_cast at this ⊢; linarith
    have eN : InEra ((now / 1000000 : ℤ) : ℝ) := by
      constructor
      · exact_mod_cast (by omega : (0 : ℤ) ≤ now / 1000000)
      · exact_mod_cast (by omega : now / 1000000 ≤ (4000000000 : ℤ))
    have eA : InEra (σ + s1 + 1800 + 86400 * ((j - 1 : ℤ) : ℝ)) := by
      have : (-1 : ℝ) ≤ ((j - 1 : ℤ) : ℝ) := by exact_mod_cast (by omega : (-1 : ℤ) ≤ j - 1)
      have : ((j - 1 : ℤ) : ℝ) ≤ 1 := by exact_mod_cast (by omega : j - 1 ≤ (1 : ℤ))
      rw [add_assoc, add_assoc]; exact era _ (by linarith) (by linarith)
    have eB : InEra (σ + s2 - 1800 + 86400 * (i : ℝ)) := by
      have : (0 : ℝ) ≤ (i : ℝ) := by exact_mod_cast i0
      have : (i : ℝ) ≤ 2 := by exact_mod_cast ib
      rw [add_sub_assoc, add_assoc]; exact era _ (by linarith) (by linarith)
    have bt := sunX_between hT eA eN eB t0 t1 span (by norm_num at u2 x1 ⊢; linarith) (by norm_num at v2 y1 ⊢; linarith)
      (x := -0.0281) (by norm_num at u1 x3 ⊢; linarith) (by norm_num at v1 y3 ⊢; linarith)
    have pl := abs_le.1 (place eN)
    obtain ⟨z0, z1⟩ := sunX_range l' hT' eN
    rw [realSun_el cal hcal l' now (by omega) (by omega)]
    exact elevation_above z0 z1 (by norm_num at bt pl ⊢; linarith)
  · rintro sr ⟨ss, n1, n2, hd⟩ hn0
    have n1 := (next_after_calls (PowerLayer.new sunrise sunset) calls now hmono hle sr ss).1 n1
    have n2 := (next_after_calls (PowerLayer.new sunrise sunset) calls now hmono hle sr ss).2 n2
    simp only [PowerLayer.new, hhy] at n1 n2
    obtain ⟨c2, j, j0, ej⟩ : now ≤ sr ∧ ∃ k : ℤ, 0 ≤ k ∧ sr = sunrise + 1800 * 1000000 + k * day := by
      obtain ⟨q1, ⟨k, hk⟩, -⟩ := n1
      exact ⟨q1, k, Int.natCast_nonneg k, hk⟩
    obtain ⟨d1, d2, i, i0, ei, ej'⟩ := isNext_days n2 (by unfold day; omega)
    unfold day at *
    have ib : i ≤ 2 := by omega
    have jb : j ≤ 2 := by omega
    obtain ⟨u1, u2⟩ := sun_days hT (s := σ + s1 + 1800) (n := j) (by rw [add_assoc, add_sub_assoc]; exact era _ (by linarith) (by linarith))
      (by rw [add_assoc, add_assoc]; exact era _ (by linarith) (by linarith)) (by omega) (by omega)
    obtain ⟨v1, v2⟩ := sun_days hT (s := σ + s2) (n := i - 1) (by rw [add_sub_assoc]; exact era _ (by linarith) (by linarith))
      (by rw [add_assoc]; exact era _ (by linarith) (by linarith)) (by omega) (by omega)
    have u1 := abs_le.1 u1
    have u2 := abs_le.1 u2
    have v1 := abs_le.1 v1
    have v2 := abs_le.1 v2
    have t0 : σ + s2 + 86400 * ((i - 1 : ℤ) : ℝ) ≤ ((now / 1000000 : ℤ) : ℝ) := by
      rw [hσ]
      have : t / 1000000 + s2 + 86400 * (i - 1) ≤ now / 1000000 := by omega
      exact_mod_cast this
    have t1 : ((now / 1000000 : ℤ) : ℝ) ≤ σ + s1 + 1800 + 86400 * (j : ℝ) := by
      rw [hσ]
      have : now / 1000000 ≤ t / 1000000 + s1 + 1800 + 86400 * j := by omega
      exact_mod_cast this
    have span : σ + s1 + 1800 + 86400 * (j : ℝ) - (σ + s2 + 86400 * ((i - 1 : ℤ) : ℝ)) ≤ 86400 := by
      have : s1 + 1800 + 86400 * j - (s2 + 86400 * (i - 1)) ≤ 86400 := by omega
      have : ((s1 + 1800 + 86400 * j - (s2 + 86400 * (i - 1)) : ℤ) : ℝ) ≤ 86400 := by exact_mod_cast this
      push_cast at this ⊢; linarith
    have eN : InEra ((now / 1000000 : ℤ) : ℝ) := by
      constructor
      · exact_mod_cast (by omega : (0 : ℤ) ≤ now / 1000000)
      · exact_mod_cast (by omega : now / 1000000 ≤ (4000000000 : ℤ))
    have eA : InEra (σ + s2 + 86400 * ((i - 1 : ℤ) : ℝ)) := by
      have : (-1 : ℝ) ≤ ((i - 1 : ℤ) : ℝ) := by exact_mod_cast (by omega : (-1 : ℤ) ≤ i - 1)
      have : ((i - 1 : ℤ) : ℝ) ≤ 1 := by exact_mod_cast (by omega : i - 1 ≤ (1 : ℤ))
      rw [add_assoc]; exact era _ (by linarith) (by linarith)
    have eB : InEra (σ + s1 + 1800 + 86400 * (j : ℝ)) := by
      have : (0 : ℝ) ≤ (j : ℝ) := by exact_mod_cast j0
      have : (j : ℝ) ≤ 2 := by exact_mod_cast jb
      rw [add_assoc, add_assoc]; exact era _ (by linarith) (by linarith)
    have bt := sunX_overnight hT eA eN eB t0 t1 span (by norm_num at v2 y5 ⊢; linarith) (by norm_num at u2 x1 ⊢; linarith)
      (x := 0.1994) (by norm_num at v1 y4 ⊢; linarith) (by norm_num at u1 x2 ⊢; linarith)
    have pl := abs_le.1 (place eN)
    rw [realSun_el cal hcal l' now (by omega) (by omega)]
    exact elevation_below (by norm_num at bt pl ⊢; linarith)

set_option maxHeartbeats 1000000 in
/-- C133, against the full claim: the layer's clock is not moved with the balloon. 30° further west, one second after the sunrise of
the layer plus its half hour, it is day by the layer's clock — with a twentieth of the battery left, DOWN is let through — while the sun
at the balloon is at least 12° below the horizon. (For every place and instant of `C133_clock_partial`, whatever the earlier calls.) -/
theorem C133_drift (cal : Calendar) (hcal : Spec.Gregorian cal) (l : LatLng) (hl : |degrees l.lat| ≤ 15) (t : ℤ)
    (h0 : 2 * 86400 * 1000000 ≤ t) (h1 : t < 3999000000 * 1000000) (hclear : Spec.ClearOfCulmination l t) (sunrise sunset : ℤ)
    (hr : nextSunriseSunset (fun t => (realSun cal l t).el) (degrees l.lat) t searchDelta = .ok (sunrise, sunset))
    (calls : List PowerCall) (hmono : calls.Pairwise (fun a b => a.now ≤ b.now)) (now : ℤ) (hnow : now = sunrise + 1801 * 1000000)
    (hle : ∀ c ∈ calls, c.now ≤ now) (l' : LatLng) (hlat : l'.lat = l.lat) (hlng : degrees l'.lng = degrees l.lng - 30) :
    (t < now ∧ now < t + 25 * 3600 * 1000000) ∧
    (∃ ss, Spec.LayerDay ((PowerLayer.new sunrise sunset).run calls) now ss) ∧
    (realSun cal l' now).el ≤ -12 ∧
    ∀ night charge cap, 0 < cap → 0.05 * cap ≤ charge →
      (((PowerLayer.new sunrise sunset).run calls).getAction .down now night charge cap).2 = .ok .down := by
  have hle' := nearEquator_of_degrees hl
  have hT := hle'.tropical
  have hpi := Real.pi_pos
  have p1 := Real.pi_gt_d4
  have p2 := Real.pi_lt_d4
  have hhy : powerHysteresis = 1800 * 1000000 := by norm_num [powerHysteresis, usPerSec]
  obtain ⟨w1, w2, w3, w4⟩ := C50_within_a_day _ _ t searchDelta sunrise sunset (by norm_num [searchDelta, usPerSec]) hr
  obtain ⟨⟨s1, a0, a1, ea, Ea⟩, s2, b0, b1, eb, Eb⟩ := events_found cal hcal l hl t h0 h1 hclear sunrise sunset hr
  set σ : ℝ := ((t / 1000000 : ℤ) : ℝ) with hσ
  have σ0 : 172800 ≤ σ := by
    rw [hσ]
    exact_mod_cast (by omega : (172800 : ℤ) ≤ t / 1000000)
  have σ1 : σ ≤ 3999000000 := by
    rw [hσ]
    exact_mod_cast (by omega : t / 1000000 ≤ (3999000000 : ℤ))
  have era : ∀ s : ℝ, -172800 ≤ s → s ≤ 500000 → InEra (σ + s) := fun s q0 q1 => ⟨by linarith, by linarith⟩
  have s1r : (0 : ℝ) ≤ s1 ∧ (s1 : ℝ) ≤ 86400 := ⟨by exact_mod_cast (by omega : (0 : ℤ) ≤ s1), by exact_mod_cast (by omega : s1 ≤ (86400 : ℤ))⟩
  have s2r : (0 : ℝ) ≤ s2 ∧ (s2 : ℝ) ≤ 86400 := ⟨by exact_mod_cast (by omega : (0 : ℤ) ≤ s2), by exact_mod_cast (by omega : s2 ≤ (86400 : ℤ))⟩
  have e1 : InEra (σ + s1) := era _ (by linarith) (by linarith)
  have Ep := Ea.phase
  rw [one_mul] at Ep
  -- the clock
  obtain ⟨ca, cb⟩ := PowerLayer.run_clock_next (PowerLayer.new sunrise sunset) calls ⟨.stay, now, 0, 0, 0⟩ (by
    rw [List.pairwise_append]
    refine ⟨hmono, List.pairwise_singleton _ _, fun x hx y hy => ?_⟩
    rw [List.mem_singleton] at hy
    rw [hy]; exact hle x hx)
  simp only [PowerLayer.new, hhy] at ca cb
  have n1 := isNext_catchUp now (sunrise + 1800 * 1000000)
  have n2 := isNext_catchUp now sunset
  have hday : catchUp now sunset < catchUp now (sunrise + 1800 * 1000000) := by
    obtain ⟨c1, c2, j, j0, ej, -⟩ := isNext_days n1 (by unfold day; omega)
    obtain ⟨d1, d2, i, i0, ei, di⟩ := isNext_days n2 (by unfold day; omega)
    unfold day at *
    by_contra hbad
    have hj : j = 1 := by omega
    have ib : i ≤ 2 := by omega
    have hu : 0 ≤ s2 + 86400 * i - 86400 - s1 - 1800 ∧ s2 + 86400 * i - 86400 - s1 - 1800 ≤ 1 := by omega
    have hu' : (0 : ℝ) ≤ s2 + 86400 * i - 86400 - s1 - 1800 ∧ (s2 + 86400 * i - 86400 - s1 - 1800 : ℝ) ≤ 1 := by exact_mod_cast hu
    obtain ⟨-, v2⟩ := sun_days hT (s := σ + s2) (n := i - 1) (by rw [add_sub_assoc]; exact era _ (by linarith) (by linarith))
      (by rw [add_assoc]; exact era _ (by linarith) (by linarith)) (by omega) (by omega)
    have eq : σ + s2 + 86400 * ((i - 1 : ℤ) : ℝ) = σ + s1 + (1800 + (s2 + 86400 * i - 86400 - s1 - 1800)) := by push_cast; ring
    rw [eq] at v2
    obtain ⟨p, -⟩ := half_hour l.lng (u := 1800 + (s2 + 86400 * i - 86400 - s1 - 1800)) e1
      (by rw [add_assoc]; exact era _ (by linarith) (by linarith)) (abs_le.2 ⟨by linarith, by linarith⟩)
    have p := abs_le.1 p
    have v2 := abs_le.1 v2
    have y := Eb.phase
    norm_num at p v2 y Ep; linarith
  refine ⟨⟨by omega, by omega⟩, ⟨catchUp now sunset, catchUp now (sunrise + 1800 * 1000000), ?_, ?_, hday⟩, ?_, ?_⟩
  · rw [← ca]; exact isNext_catchUp _ _
  · rw [← cb]; exact isNext_catchUp _ _
  · -- the sun at the balloon
    have hsec : ((now / 1000000 : ℤ) : ℝ) = σ + s1 + 1801 := by
      rw [hσ, hnow, ea]
      have : (t + s1 * 1000000 + 1801 * 1000000) / 1000000 = t / 1000000 + s1 + 1801 := by omega
      rw [this]; push_cast; ring
    have e2 : InEra (σ + s1 + 1801) := by rw [add_assoc]; exact era _ (by linarith) (by linarith)
    have hl'T : Tropical l' := by unfold Tropical; rw [hlat]; exact hT
    have hlng' : l'.lng = l.lng - Real.pi / 6 := by
      unfold degrees at hlng
      field_simp at hlng
      linarith
    have hphi : ∀ s, sunPhi l'.lng s = sunPhi l.lng s - Real.pi / 6 := by
      intro s; unfold sunPhi; rw [hlng']; ring
    rw [realSun_el cal hcal l' now (by omega) (by omega), hsec]
    obtain ⟨z0, z1⟩ := sunX_range l' hl'T e2
    have d := (abs_le.1 (sunX_diff hl'T e2 e1)).2
    rw [add_sub_cancel_left, abs_of_pos (by norm_num : (0 : ℝ) < 1801)] at d
    have hP : ∀ s, sunP l' s = sunP l s := by intro s; unfold sunP; rw [hlat]
    have x0 : sunX l' (σ + s1) = sunX l (σ + s1) + sunP l (σ + s1) * (Real.cos (sunPhi l.lng (σ + s1)) - Real.cos (sunPhi l'.lng (σ + s1))) := by
      rw [sunX_eq, sunX_eq, hP, hlat]; ring
    rw [x0, hP] at d
    obtain ⟨Q, P0, P1⟩ := nearEquator_amp hle' e1
    have hX : sunX l (σ + s1) ≤ 0.0415 := Ea.high
    -- the phase at the balloon: 0.3927 behind that of the sunrise
    have hψ : |sunPhi l'.lng (σ + s1 + 1801) - (sunPhi l.lng (σ + s1) - 0.3926)| ≤ 0.0002 := by
      rw [hphi]
      have r := abs_le.1 (sunPhi_rate l.lng e2.1 e2.2 e1.1 e1.2)
      rw [add_sub_cancel_left, abs_of_pos (by norm_num : (0 : ℝ) < 1801)] at r
      rw [abs_le]; constructor <;> norm_num at r p1 p2 ⊢ <;> linarith
    have hc := (Real.abs_cos_sub_cos_le (sunPhi l'.lng (σ + s1 + 1801)) (sunPhi l.lng (σ + s1) - 0.3926)).trans hψ
    have hc := (abs_le.1 hc).1
    rw [Real.cos_sub] at hc
    have cl : 0.9229 ≤ Real.cos 0.3926 := le_trans (by norm_num) (Real.one_sub_sq_div_two_le_cos (x := 0.3926))
    have sl : 0.3825 ≤ Real.sin 0.3926 := by
      have := Real.sin_gt_sub_cube (x := 0.3926) (by norm_num)
      norm_num at this ⊢; linarith
    have cu : Real.cos 0.3926 ≤ 1 := Real.cos_le_one _
    have sp : 0.306 ≤ Real.sin (sunPhi l.lng (σ + s1)) * Real.sin 0.3926 := by
      have := mul_le_mul Ep sl (by norm_num) (by norm_num at Ep; linarith)
      norm_num at this ⊢; linarith
    -- P cos φ₁ is at least Q - 0.0415
    have hPc : Real.sin l.lat * sunS (σ + s1) - 0.0415 ≤ sunP l (σ + s1) * Real.cos (sunPhi l.lng (σ + s1)) := by
      rw [sunX_eq] at hX; linarith
    have hXe := sunX_eq l (σ + s1)
    set P := sunP l (σ + s1)
    set c1 := Real.cos (sunPhi l.lng (σ + s1))
    set c2 := Real.cos (sunPhi l'.lng (σ + s1 + 1801))
    set q := Real.sin l.lat * sunS (σ + s1)
    set κ := Real.cos 0.3926
    have hQ := abs_le.1 Q
    have hPn : 0 ≤ P := by norm_num at P0 ⊢; linarith
    have lo : P * (c1 * κ + 0.306 - 0.0002) ≤ P * c2 := mul_le_mul_of_nonneg_left (by norm_num at hc sp ⊢; linarith) hPn
    have lo2 : 0.88 * 0.3058 ≤ P * 0.3058 := mul_le_mul_of_nonneg_right P0 (by norm_num)
    have lo3 : (q - 0.0415) * κ ≤ P * c1 * κ := mul_le_mul_of_nonneg_right hPc (by norm_num at cl ⊢; linarith)
    have lo4 : q - (q - 0.0415) * κ ≤ 0.0502 := by
      have : q * (1 - κ) ≤ 0.1075 * 0.0771 := by
        rcases le_total 0 q with z | z
        · exact mul_le_mul hQ.2 (by norm_num at cl ⊢; linarith) (by linarith) (by norm_num)
        · have := mul_nonpos_of_nonpos_of_nonneg z (by linarith : 0 ≤ 1 - κ)
          norm_num at this ⊢; linarith
      norm_num at this cu ⊢; nlinarith
    have hx : sunX l' (σ + s1 + 1801) ≤ -0.215 := by
      norm_num at d lo lo2 lo4 ⊢; nlinarith
    have g := (elOf_geo (sunX l' (σ + s1 + 1801))).2.2.1
    have dg := (deg_of_sine z0 z1).2.1 0.215 (by norm_num) hx
    have := g (by norm_num at dg ⊢; linarith)
    unfold elOf at this
    norm_num at dg this ⊢; linarith
  · intro night charge cap hcap hch
    unfold PowerLayer.getAction
    simp only [PowerLayer.new, hhy]
    rw [ca, cb, if_pos hday]
    have : pyDiv charge cap = .ok (charge / cap) := by unfold pyDiv; rw [if_neg hcap.ne']
    have hs : ¬ charge / cap < 0.05 := by rw [not_lt, le_div_iff₀ hcap]; exact hch
    simp only [this, hs, and_false, if_false]

/-- A layer made on the equator at 80° west at noon UTC on 1 January 2000: twelve hours of its clock are right at 81° west, and at
110° west it takes the night for day. -/
example : ∃ sunrise sunset, nextSunriseSunset (fun t => (realSun gregorian ⟨0, -1.4⟩ t).el) (degrees 0) (946728000 * 1000000) searchDelta =
      .ok (sunrise, sunset) ∧
    (∀ now ss, 946728000 * 1000000 + 30 * 60 * 1000000 ≤ now → now ≤ 946728000 * 1000000 + 12 * 3600 * 1000000 →
      Spec.LayerDay (PowerLayer.new sunrise sunset) now ss → now + 30 * 60 * 1000000 ≤ ss → minSolarEl < (realSun gregorian ⟨0, -1.41⟩ now).el) ∧
    ∃ now ss, Spec.LayerDay (PowerLayer.new sunrise sunset) now ss ∧ (realSun gregorian ⟨0, -1.4 - Real.pi / 6⟩ now).el ≤ -12 := by
  obtain ⟨a, b, h, -⟩ := C101_sunrise_found gregorian gregorian_ok ⟨0, -1.4⟩ (by simp [degrees]) (946728000 * 1000000) (by norm_num) (by norm_num)
  refine ⟨a, b, h, ?_, a + 1801 * 1000000, ?_⟩
  · intro now ss q0 q1 hd q2
    refine (C133_clock_partial gregorian gregorian_ok ⟨0, -1.4⟩ (by simp [degrees]) (946728000 * 1000000) (by norm_num) (by norm_num) clear_example
      a b h [] List.Pairwise.nil now (by simp) (by omega) ⟨0, -1.41⟩ ⟨0, ?_⟩).1 ss hd q0 q2
    have p1 := Real.pi_gt_d4
    have hpi := Real.pi_pos
    unfold degrees
    norm_num
    rw [abs_of_pos (show 0 < 180 / Real.pi by positivity), mul_div_assoc', div_le_iff₀ hpi]
    norm_num at p1 ⊢; linarith
  · obtain ⟨-, ⟨ss, hss⟩, he, -⟩ := C133_drift gregorian gregorian_ok ⟨0, -1.4⟩ (by simp [degrees]) (946728000 * 1000000) (by norm_num) (by norm_num)
      clear_example a b h [] List.Pairwise.nil _ rfl (by simp) ⟨0, -1.4 - Real.pi / 6⟩ rfl (by
        have hpi := Real.pi_pos
        unfold degrees; simp only; field_simp; ring)
    exact ⟨ss, hss, he⟩

end BLE
