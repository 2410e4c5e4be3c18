import Verif.Props.NightReserve
import Verif.Props.RealNight

/-!
# C144: the compressor's budget for a night

"The balloons in the BLE are constrained at night — they cannot constantly use the ACS without running out of power"
(`docs/about.rst:25-26`). The power layer (`power_safety.py:52-118`) and the battery (`balloon.py:529-542`) together decide how
many of a night's steps can be descents.
-/

open Spec

namespace BLE

/-- `x` is reached from `s` by `n` successful calls of `simulate_step`, each of `d` strides of 10 s (an agent step has 18), in winds
of at most `w` [m/s], still flying after each; `k` of them were descents — the compressor was drawing power at the end of them. -/
inductive Spec.NightFlown (sun : Sun) (α w : ℝ) (d : ℕ) (s : BState) : ℕ → ℕ → BState → Prop
  | start : Spec.NightFlown sun α w d s 0 0 s
  | pumped {n k : ℕ} {x x' : BState} {u v : ℝ} {a : Command} (before : Spec.NightFlown sun α w d s n k x)
      (wind : Real.sqrt (u ^ 2 + v ^ 2) ≤ w) (step : simulateStep sun α u v a (10000000 * d) 10000000 x = (x', .ok ()))
      (flying : x'.status = .ok) (draws : 0 < x'.acsPower) : Spec.NightFlown sun α w d s (n + 1) (k + 1) x'
  | idle {n k : ℕ} {x x' : BState} {u v : ℝ} {a : Command} (before : Spec.NightFlown sun α w d s n k x)
      (wind : Real.sqrt (u ^ 2 + v ^ 2) ≤ w) (step : simulateStep sun α u v a (10000000 * d) 10000000 x = (x', .ok ()))
      (flying : x'.status = .ok) (rests : x'.acsPower = 0) : Spec.NightFlown sun α w d s (n + 1) k x'

/-- The layer's decision at night, when it is not paused and the reserve is above its threshold. -/
theorem power_night_free {L : PowerLayer} {now T ss : ℤ} {night charge cap : ℝ} (n1 : IsNext L.sunriseH now T)
    (n2 : IsNext L.sunset now ss) (hss : T ≤ ss) (hp : L.paused = false) (hcap : 0 < cap)
    (hres : 0.025 * cap ≤ charge - night * (((T - now : ℤ) : ℝ) / 1000000 / 3600)) (a : Command) :
    L.getAction a now night charge cap = ({ L with sunriseH := T, sunset := ss }, .ok a) := by
  have c1 : catchUp now L.sunriseH = T := isNext_unique (isNext_catchUp _ _) n1
  have c2 : catchUp now L.sunset = ss := isNext_unique (isNext_catchUp _ _) n2
  unfold PowerLayer.getAction
  simp only [c1, c2]
  rw [if_neg (not_lt.2 hss), pyDiv_ok hcap.ne', if_neg (by rw [hp]; decide)]
  simp only
  rw [if_neg]
  rw [not_lt, le_div_iff₀ hcap]
  exact hres

/-- The chain keeps the layer's answer. -/
theorem chain_power {α : ℝ} {s : BState} {a : Command} (hen : s.powerEnabled = true) :
    (safetyChain α s a).1.power = (s.power.getAction a s.dateTime s.nightLoad s.charge s.cap).1 := by
  unfold safetyChain
  simp only [hen, if_true]
  split
  · rfl
  · split <;> rfl

/-- One agent step, as far as energy goes. -/
theorem budget_step {sun : Sun} {α u v w : ℝ} {d : ℕ} (hd0 : 0 < d) {a : Command} {s x x' : BState}
    (h : simulateStep sun α u v a (10000000 * d) 10000000 x = (x', .ok ())) (hok : x'.status = .ok)
    (hw : Real.sqrt (u ^ 2 + v ^ 2) ≤ w) (hx : Drifted s w x) :
    ∃ x1 eff, safetyChain α { x with lastCommand := a } a = (x1, .ok eff) ∧ x.status = .ok ∧
      x'.dateTime = x.dateTime + 10000000 * d ∧ Drifted s w x' ∧ x'.cap = x.cap ∧ x'.dayLoad = x.dayLoad ∧
      x'.nightLoad = x.nightLoad ∧ x'.powerEnabled = x.powerEnabled ∧ x'.power = x1.power ∧ 0 < x'.charge ∧
      (eff = .down ↔ 0 < x'.acsPower) ∧
      (∀ T, Spec.DarkAround sun s w T → x'.dateTime ≤ T → 0 ≤ x.nightLoad →
        x'.charge ≤ x.charge - (x.nightLoad + if eff = .down then 100 else 0) * (d / 360)) ∧
      (∀ T, x.charge ≤ x.cap → x.dayLoad ≤ x.nightLoad → 0 ≤ x.nightLoad → x'.charge ≤ x'.cap ∧
        Spec.reserveAt x T - (if eff = .down then 400 else 0) * (d / 360) ≤ Spec.reserveAt x' T) := by
  rcases simulateStep_cases sun α u v a (10000000 * d) 10000000 x with ⟨e, he, _⟩ | ⟨hxok, _, _, x1, eff, hch, h'⟩
  · rw [h] at he; cases he
  have hn : (Int.fdiv (Int.tdiv (10000000 * (d : ℤ)) usPerSec) (Int.tdiv 10000000 usPerSec)).toNat = d := by
    have e1 : Int.tdiv (10000000 * (d : ℤ)) usPerSec = 10 * d := by
      rw [show (10000000 : ℤ) * d = 10 * d * usPerSec by unfold usPerSec; ring]
      exact Int.mul_tdiv_cancel _ (by decide)
    rw [e1, show Int.tdiv 10000000 usPerSec = 10 from by decide, Int.fdiv_eq_ediv_of_nonneg _ (by norm_num)]
    omega
  rw [hn] at h'
  obtain ⟨j, hj, hit, hall, _⟩ := substepLoop_spec (substep sun α u v eff 10000000) d x1
  rw [← h', h] at hit hall
  obtain rfl : j = d := hall rfl hok
  obtain ⟨pw, ev, al, hx1⟩ := safetyChain_state α { x with lastCommand := a } a
  rw [hch] at hx1
  simp only at hx1
  have d1 : Drifted s w x1 := by
    rw [hx1]; exact ⟨hx.center, hx.later, hx.near⟩
  have key : ∀ {m : ℕ} {y y' : BState}, Iter (substep sun α u v eff 10000000) m y y' → Drifted s w y →
      Drifted s w y' ∧ y'.dateTime = y.dateTime + 10000000 * m ∧ y'.cap = y.cap ∧ y'.dayLoad = y.dayLoad ∧
      y'.nightLoad = y.nightLoad ∧ y'.powerEnabled = y.powerEnabled ∧ y'.power = y.power ∧
      (0 < m → (eff = .down ↔ 0 < y'.acsPower)) ∧ (0 < m → y'.status = .ok → 0 < y'.charge) ∧
      (y'.status = .ok → y.status = .ok) ∧
      (∀ T, Spec.DarkAround sun s w T → y'.dateTime ≤ T → 0 ≤ y.nightLoad → y'.status = .ok →
        y'.charge ≤ y.charge - (y.nightLoad + if eff = .down then 100 else 0) * (m / 360)) ∧
      (∀ T, y.charge ≤ y.cap → y.dayLoad ≤ y.nightLoad → 0 ≤ y.nightLoad → y'.charge ≤ y'.cap ∧
        Spec.reserveAt y T - (if eff = .down then 400 else 0) * (m / 360) ≤ Spec.reserveAt y' T) := by
    intro m y y' hit
    induction hit with
    | refl y =>
      intro hd
      exact ⟨hd, by simp, rfl, rfl, rfl, rfl, rfl, fun h => absurd h (lt_irrefl 0), fun h => absurd h (lt_irrefl 0), id,
        fun _ _ _ _ _ => by simp, fun _ hc _ _ => ⟨hc, by simp⟩⟩
    | @cons m y z y' hs rest ih =>
      intro hd
      obtain ⟨e1, e2, e3, e4, e5⟩ := C82_energy_balance _ _ _ _ _ _ _ _ hs
      obtain ⟨_, _, _, solar, _, _, _, hsol, hz⟩ := substep_ok hs
      have k2 : z.cap = y.cap := by rw [hz]
      have k3 : z.nightLoad = y.nightLoad := by rw [hz]
      have k4 : z.dateTime = y.dateTime + 10000000 := by rw [hz]
      have k5 : z.dayLoad = y.dayLoad := by rw [hz]
      have k6 : z.powerEnabled = y.powerEnabled := by rw [hz]
      have k7 : z.power = y.power := by rw [hz]
      have hst : z.status = .ok → y.status = .ok ∧ 0 < z.charge := by
        intro hok
        rw [hz] at hok ⊢
        simp only at hok ⊢
        generalize clip _ 0 y.cap = ch at hok ⊢
        simp only [newStatus] at hok
        split_ifs at hok with g1 g2 g3
        exact ⟨hok, not_le.1 g1⟩
      have hacs : eff = .down ↔ 0 < z.acsPower := by
        constructor
        · intro c; linarith [(e5 c).1]
        · intro c
          by_contra hne
          rw [e4 hne] at c
          exact lt_irrefl _ c
      obtain ⟨i1, i2, i3, i4, i5, i6, i7, i8, i9, i10, i11, i12⟩ := ih (drifted_substep (by norm_num) hw hs hd)
      refine ⟨i1, by rw [i2, k4]; push_cast; ring, i3.trans k2, i4.trans k5, i5.trans k3, i6.trans k6, i7.trans k7, fun _ => ?_,
        fun _ hok => ?_, fun hok => (hst (i10 hok)).1, fun T hT hle hnl hok => ?_, fun T hc hdl hnl => ?_⟩
      · rcases Nat.eq_zero_or_pos m with rfl | hm
        · cases rest; exact hacs
        · exact i8 hm
      · rcases Nat.eq_zero_or_pos m with rfl | hm
        · cases rest; exact (hst hok).2
        · exact i9 hm hok
      · have h1 := i11 T hT hle (by rw [k3]; exact hnl) hok
        have hlt : y.dateTime < T := by rw [i2, k4] at hle; omega
        have hdk := hd.dark hT hlt
        rw [e3 hdk, e2, if_neg (not_lt.2 hdk)] at e1
        have hpow : (if eff = .down then (100 : ℝ) else 0) ≤ z.acsPower := by
          split_ifs with c
          · exact (e5 c).1
          · rw [e4 c]
        generalize (if eff = .down then (100 : ℝ) else 0) = q at *
        have h2 : z.charge ≤ y.charge - (y.nightLoad + q) * (1 / 360) := by
          have h3 : z.charge ≤ max (y.charge + (0 - (y.nightLoad + z.acsPower)) * (((10000000 : ℤ) : ℝ) / 1000000 / 3600)) 0 := by
            rw [e1]; exact min_le_left _ _
          rcases le_max_iff.1 h3 with h4 | h4
          · refine h4.trans ?_
            norm_num
            linarith
          · linarith [(hst (i10 hok)).2]
        rw [k3] at h1
        push_cast
        have e : (y.nightLoad + q) * (((m : ℝ) + 1) / 360) = (y.nightLoad + q) * (m / 360) + (y.nightLoad + q) * (1 / 360) := by ring
        rw [e]
        linarith
      · obtain ⟨q1, q2, q3, -⟩ := substep_reserve (T := T) hs (by norm_num) hdl hnl hc
        obtain ⟨r1, r2⟩ := i12 T q2 (by rw [k5, k3]; exact hdl) (by rw [k3]; exact hnl)
        refine ⟨r1, ?_⟩
        push_cast at q1 ⊢
        generalize (if eff = .down then (400 : ℝ) else 0) = q at *
        have e : q * (((m : ℝ) + 1) / 360) = q * (m / 360) + q * (10000000 / 1000000 / 3600) := by ring
        rw [e]
        linarith
  obtain ⟨i1, i2, i3, i4, i5, i6, i7, i8, i9, i10, i11, i12⟩ := key hit d1
  have f1 : x1.cap = x.cap := by rw [hx1]
  have f2 : x1.nightLoad = x.nightLoad := by rw [hx1]
  have f3 : x1.dayLoad = x.dayLoad := by rw [hx1]
  have f4 : x1.charge = x.charge := by rw [hx1]
  have f5 : x1.dateTime = x.dateTime := by rw [hx1]
  have f6 : x1.powerEnabled = x.powerEnabled := by rw [hx1]
  rw [f2, f4] at i11
  rw [f1, f2, f3, f4] at i12
  refine ⟨x1, eff, hch, hxok, by rw [i2, f5], i1, i3.trans f1, i4.trans f3, i5.trans f2, i6.trans f6, i7,
    i9 hd0 hok, i8 hd0, fun T hT hle hnl => i11 T hT hle hnl hok, fun T hc hdl hnl => ?_⟩
  obtain ⟨r1, r2⟩ := i12 T hc hdl hnl
  have : Spec.reserveAt x1 T = Spec.reserveAt x T := by unfold Spec.reserveAt; rw [f2, f4, f5]
  rw [this] at r2
  exact ⟨r1, r2⟩

/-- What is unchanged by flying. -/
theorem flown_drift {sun : Sun} {α w : ℝ} {d : ℕ} (hd : 0 < d) {s x : BState} {n k : ℕ} (h : Spec.NightFlown sun α w d s n k x) :
    Drifted s w x ∧ x.dateTime = s.dateTime + 10000000 * d * n ∧ x.cap = s.cap ∧ x.dayLoad = s.dayLoad ∧
    x.nightLoad = s.nightLoad ∧ x.powerEnabled = s.powerEnabled ∧ k ≤ n := by
  induction h with
  | start => exact ⟨drifted_self s w, by simp, rfl, rfl, rfl, rfl, le_refl _⟩
  | pumped before wind step flying draws ih =>
    obtain ⟨i1, i2, i3, i4, i5, i6, i7⟩ := ih
    obtain ⟨x1, eff, -, -, q1, q2, q3, q4, q5, q6, -⟩ := budget_step hd step flying wind i1
    exact ⟨q2, by rw [q1, i2]; push_cast; ring, q3.trans i3, q4.trans i4, q5.trans i5, q6.trans i6, by omega⟩
  | idle before wind step flying rests ih =>
    obtain ⟨i1, i2, i3, i4, i5, i6, i7⟩ := ih
    obtain ⟨x1, eff, -, -, q1, q2, q3, q4, q5, q6, -⟩ := budget_step hd step flying wind i1
    exact ⟨q2, by rw [q1, i2]; push_cast; ring, q3.trans i3, q4.trans i4, q5.trans i5, q6.trans i6, by omega⟩

/-- C144 (what a descent costs). In the dark every call takes the hotel load and every descent at least 100 W more, whatever the
altitude (5 Wh for an agent step); so the compressor cannot have run for more than a hundredth of what the hotel load leaves. -/
theorem C144_at_most (sun : Sun) (α w : ℝ) (d : ℕ) (hd : 0 < d) (s x : BState) (n k : ℕ) (h : Spec.NightFlown sun α w d s n k x)
    (hdark : Spec.DarkAround sun s w x.dateTime) (hnl : 0 ≤ s.nightLoad) :
    x.charge ≤ s.charge - s.nightLoad * (d * n / 360) - 100 * (d * k / 360) ∧
    (0 ≤ s.charge → 100 * (d * k / 360 : ℝ) ≤ s.charge - s.nightLoad * (d * n / 360)) := by
  have key : ∀ {n k : ℕ} {x : BState}, Spec.NightFlown sun α w d s n k x → ∀ T, Spec.DarkAround sun s w T → x.dateTime ≤ T →
      x.charge ≤ s.charge - s.nightLoad * (d * n / 360) - 100 * (d * k / 360) ∧ (0 ≤ s.charge → 0 ≤ x.charge) := by
    intro n k x h T hT
    induction h with
    | start => intro _; exact ⟨by simp, id⟩
    | pumped before wind step flying draws ih =>
      intro hle
      obtain ⟨i1, i2, i3, i4, i5, i6, i7⟩ := flown_drift hd before
      obtain ⟨x1, eff, -, -, q1, q2, q3, q4, q5, q6, -, q7, q8, q9, -⟩ := budget_step hd step flying wind i1
      have h1 := (ih (by omega)).1
      have h2 := q9 T hT hle (by rw [i5]; exact hnl)
      rw [if_pos (q8.2 draws), i5] at h2
      refine ⟨h2.trans ?_, fun _ => q7.le⟩
      push_cast
      ring_nf at h1 ⊢
      linarith
    | idle before wind step flying rests ih =>
      intro hle
      obtain ⟨i1, i2, i3, i4, i5, i6, i7⟩ := flown_drift hd before
      obtain ⟨x1, eff, -, -, q1, q2, q3, q4, q5, q6, -, q7, q8, q9, -⟩ := budget_step hd step flying wind i1
      have h1 := (ih (by omega)).1
      have h2 := q9 T hT hle (by rw [i5]; exact hnl)
      rw [if_neg (fun c => by have := q8.1 c; rw [rests] at this; exact lt_irrefl _ this), i5] at h2
      refine ⟨h2.trans ?_, fun _ => q7.le⟩
      push_cast
      ring_nf at h1 ⊢
      linarith
  obtain ⟨h1, h2⟩ := key h _ hdark (le_refl _)
  exact ⟨h1, fun h0 => by linarith [h2 h0]⟩

/-- The clock's night goes on, and a layer that is not paused stays so above the threshold. -/
theorem night_goes_on {α : ℝ} {x x1 x' : BState} {a eff : Command} {T : ℤ} (hen : x.powerEnabled = true) (hcap : 0 < x.cap)
    (hn : Spec.LayerNight x T) (hch : safetyChain α { x with lastCommand := a } a = (x1, .ok eff))
    (hp : x'.power = x1.power) (hd : x.dateTime ≤ x'.dateTime) (hT : x'.dateTime ≤ T) :
    Spec.LayerNight x' T ∧ (eff = .down → 0.025 * x.cap ≤ Spec.reserveAt x T) ∧
    (x.power.paused = false → 0.025 * x.cap ≤ Spec.reserveAt x T → x'.power.paused = false) := by
  obtain ⟨⟨ss, n1, n2, n3⟩, c2⟩ := safetyChain_night (s := { x with lastCommand := a }) hen hn hcap hch
  have hx1 : x1.dateTime = x.dateTime := by
    obtain ⟨pw, ev, al, e⟩ := safetyChain_state α { x with lastCommand := a } a
    rw [hch] at e
    simp only at e
    rw [e]
  rw [hx1] at n1 n2
  refine ⟨⟨ss, ?_, ?_, n3⟩, fun h => c2 (by rw [h]), fun hpa hres => ?_⟩
  · rw [hp]; exact isNext_later n1 hd hT
  · rw [hp]; exact isNext_later n2 hd (hT.trans n3)
  · obtain ⟨ss', m1, m2, m3⟩ := hn
    have hpow := chain_power (α := α) (s := { x with lastCommand := a }) (a := a) hen
    rw [hch] at hpow
    simp only at hpow
    rw [hp, hpow, power_night_free m1 m2 m3 hpa hcap hres a]
    exact hpa

/-- C144 (what the layer leaves). With the power layer on, at night on its clock and in the dark, no descent is flown that starts
below 2.5 % of reserve until half an hour after sunrise; so the descents before then are bounded by what is above it, one more
being able to start at the threshold. -/
theorem C144_layer_limits (sun : Sun) (α w : ℝ) (d : ℕ) (hd : 0 < d) (s x : BState) (n k : ℕ) (h : Spec.NightFlown sun α w d s n k x) (T : ℤ)
    (hdark : Spec.DarkAround sun s w x.dateTime) (hnl : 0 ≤ s.nightLoad) (hen : s.powerEnabled = true) (hcap : 0 < s.cap)
    (hn : Spec.LayerNight s T) (hT : x.dateTime ≤ T) (hk : 0 < k) :
    0.025 * s.cap + 100 * (d * ((k : ℝ) - 1) / 360) ≤ Spec.reserveAt s T := by
  have key : ∀ {n k : ℕ} {x : BState}, Spec.NightFlown sun α w d s n k x → x.dateTime ≤ T → ∀ D, Spec.DarkAround sun s w D →
      x.dateTime ≤ D → Spec.LayerNight x T ∧ Spec.reserveAt x T ≤ Spec.reserveAt s T - 100 * (d * k / 360) ∧
        (0 < k → 0.025 * s.cap + 100 * (d * ((k : ℝ) - 1) / 360) ≤ Spec.reserveAt s T) := by
    intro n k x h hT D hD
    induction h with
    | start => intro _; exact ⟨hn, by simp, fun h => absurd h (lt_irrefl 0)⟩
    | @pumped n k x x' u v a before wind step flying draws ih =>
      intro hle
      obtain ⟨i1, i2, i3, i4, i5, i6, i7⟩ := flown_drift hd before
      obtain ⟨x1, eff, hch, -, q1, q2, q3, q4, q5, q6, q10, q7, q8, q9, -⟩ := budget_step hd step flying wind i1
      obtain ⟨j1, j2, j3⟩ := ih (by omega) (by omega)
      obtain ⟨g1, g2, -⟩ := night_goes_on (by rw [i6]; exact hen) (by rw [i3]; exact hcap) j1 hch q10 (by omega) hT
      have h2 := q9 D hD hle (by rw [i5]; exact hnl)
      have hdn := q8.2 draws
      rw [if_pos hdn] at h2
      have h3 := g2 hdn
      rw [i3] at h3
      have hr : Spec.reserveAt x' T ≤ Spec.reserveAt x T - 100 * (d / 360) := by
        unfold Spec.reserveAt
        rw [q1, q5]
        push_cast
        ring_nf at h2 ⊢
        linarith
      push_cast
      have e : (100 : ℝ) * (d * (k + 1) / 360) = 100 * (d * k / 360) + 100 * (d / 360) := by ring
      rw [add_sub_cancel_right, e]
      exact ⟨g1, by linarith, fun _ => by linarith⟩
    | @idle n k x x' u v a before wind step flying rests ih =>
      intro hle
      obtain ⟨i1, i2, i3, i4, i5, i6, i7⟩ := flown_drift hd before
      obtain ⟨x1, eff, hch, -, q1, q2, q3, q4, q5, q6, q10, q7, q8, q9, -⟩ := budget_step hd step flying wind i1
      obtain ⟨j1, j2, j3⟩ := ih (by omega) (by omega)
      obtain ⟨g1, -, -⟩ := night_goes_on (by rw [i6]; exact hen) (by rw [i3]; exact hcap) j1 hch q10 (by omega) hT
      have h2 := q9 D hD hle (by rw [i5]; exact hnl)
      rw [if_neg (fun c => by have := q8.1 c; rw [rests] at this; exact lt_irrefl _ this)] at h2
      have hr : Spec.reserveAt x' T ≤ Spec.reserveAt x T := by
        unfold Spec.reserveAt
        rw [q1, q5]
        push_cast
        ring_nf at h2 ⊢
        linarith
      exact ⟨g1, by linarith, j3⟩
  exact (key h hT _ hdark (le_refl _)).2.2 hk

/-- C144 (what the layer grants). Conversely, if the layer is not paused at nightfall, then as long as 400 W for every descent
flown (20 Wh for an agent step) fit between the reserve and the 2.5 %, it lets the next one through, whatever the sun does. -/
theorem C144_at_least (sun : Sun) (α w : ℝ) (d : ℕ) (hd : 0 < d) (s x : BState) (n k : ℕ) (h : Spec.NightFlown sun α w d s n k x) (T : ℤ)
    (hnl : 0 ≤ s.nightLoad) (hdl : s.dayLoad ≤ s.nightLoad) (hen : s.powerEnabled = true) (hcap : 0 < s.cap)
    (hc : s.charge ≤ s.cap) (hn : Spec.LayerNight s T) (hp : s.power.paused = false) (hT : x.dateTime ≤ T)
    (hfit : 0.025 * s.cap + 400 * (d * k / 360) ≤ Spec.reserveAt s T) (a : Command) :
    (x.power.getAction a x.dateTime x.nightLoad x.charge x.cap).2 = .ok a := by
  have key : ∀ {n k : ℕ} {x : BState}, Spec.NightFlown sun α w d s n k x → x.dateTime ≤ T → 0.025 * s.cap + 400 * (d * k / 360) ≤ Spec.reserveAt s T →
      Spec.LayerNight x T ∧ x.power.paused = false ∧ x.charge ≤ x.cap ∧ Spec.reserveAt s T - 400 * (d * k / 360) ≤ Spec.reserveAt x T := by
    intro n k x h
    induction h with
    | start => intro _ _; exact ⟨hn, hp, hc, by simp⟩
    | @pumped n k x x' u v a before wind step flying draws ih =>
      intro hle hfit
      push_cast at hfit
      have e : (400 : ℝ) * (d * (k + 1) / 360) = 400 * (d * k / 360) + 400 * (d / 360) := by ring
      have hd' : (0 : ℝ) ≤ 400 * (d / 360) := by positivity
      rw [e] at hfit
      obtain ⟨i1, i2, i3, i4, i5, i6, i7⟩ := flown_drift hd before
      obtain ⟨x1, eff, hch, -, q1, q2, q3, q4, q5, q6, q10, q7, q8, -, q9⟩ := budget_step hd step flying wind i1
      obtain ⟨j1, j2, j3, j4⟩ := ih (by omega) (by linarith)
      obtain ⟨g1, -, g3⟩ := night_goes_on (by rw [i6]; exact hen) (by rw [i3]; exact hcap) j1 hch q10 (by omega) hle
      obtain ⟨r1, r2⟩ := q9 T j3 (by rw [i4, i5]; exact hdl) (by rw [i5]; exact hnl)
      rw [if_pos (q8.2 draws)] at r2
      push_cast
      rw [e]
      exact ⟨g1, g3 j2 (by rw [i3]; linarith), r1, by linarith⟩
    | @idle n k x x' u v a before wind step flying rests ih =>
      intro hle hfit
      obtain ⟨i1, i2, i3, i4, i5, i6, i7⟩ := flown_drift hd before
      obtain ⟨x1, eff, hch, -, q1, q2, q3, q4, q5, q6, q10, q7, q8, -, q9⟩ := budget_step hd step flying wind i1
      obtain ⟨j1, j2, j3, j4⟩ := ih (by omega) hfit
      have hk : (0 : ℝ) ≤ 400 * (d * k / 360) := by positivity
      obtain ⟨g1, -, g3⟩ := night_goes_on (by rw [i6]; exact hen) (by rw [i3]; exact hcap) j1 hch q10 (by omega) hle
      obtain ⟨r1, r2⟩ := q9 T j3 (by rw [i4, i5]; exact hdl) (by rw [i5]; exact hnl)
      rw [if_neg (fun c => by have := q8.1 c; rw [rests] at this; exact lt_irrefl _ this)] at r2
      exact ⟨g1, g3 j2 (by rw [i3]; linarith), r1, by linarith⟩
  obtain ⟨⟨ss, m1, m2, m3⟩, j2, j3, j4⟩ := key h hT hfit
  obtain ⟨-, -, i3, -⟩ := flown_drift hd h
  have hk : (0 : ℝ) ≤ 400 * (d * k / 360) := by positivity
  have j5 : 0.025 * s.cap ≤ Spec.reserveAt x T := by linarith
  rw [power_night_free m1 m2 m3 j2 (by rw [i3]; exact hcap) (by rw [i3]; exact j5) a]

/-- C144 (as documented). The default vehicle with the power layer on, even with a full battery, cannot use the compressor throughout
the night: if it is dark for ten hours and the layer's night lasts eleven, then of the 200 steps at most 193 are descents. -/
theorem C144_not_all_night (sun : Sun) (α w : ℝ) (s x : BState) (k : ℕ) (h : Spec.NightFlown sun α w 18 s 200 k x) (T : ℤ)
    (hcap : s.cap = 3058.56) (hnl : s.nightLoad = 183.7) (hen : s.powerEnabled = true) (hc : s.charge ≤ s.cap)
    (hdark : Spec.DarkAround sun s w (s.dateTime + 10 * 3600 * 1000000)) (hn : Spec.LayerNight s T)
    (hT : s.dateTime + 11 * 3600 * 1000000 ≤ T) : k ≤ 193 := by
  have hx : x.dateTime = s.dateTime + 10 * 3600 * 1000000 := by
    rw [(flown_drift (by norm_num) h).2.1]; norm_num
  rcases Nat.eq_zero_or_pos k with rfl | hk
  · omega
  have := C144_layer_limits sun α w 18 (by norm_num) s x 200 k h T (by rw [hx]; exact hdark) (by rw [hnl]; norm_num) hen
    (by rw [hcap]; norm_num) hn (by omega) hk
  have hT' : (11 * 3600 * 1000000 : ℝ) ≤ ((T - s.dateTime : ℤ) : ℝ) := by exact_mod_cast (by omega : 11 * 3600 * 1000000 ≤ T - s.dateTime)
  unfold Spec.reserveAt at this
  rw [hcap] at this hc
  rw [hnl] at this
  generalize ((T - s.dateTime : ℤ) : ℝ) = d at *
  have hlt : (k : ℝ) < 194 := by
    norm_num at this hc hT'
    linarith
  have : k < 194 := by exact_mod_cast hlt
  omega

/-- The same under the sky of the code's own ephemeris, around a station within 10° of the equator, in the ten hours around its
midnight. -/
theorem C144_real_night (cal : Calendar) (hcal : Spec.Gregorian cal) (α w : ℝ) (s x : BState) (k : ℕ)
    (h : Spec.NightFlown (realSun cal) α w 18 s 200 k x) (T : ℤ)
    (hcap : s.cap = 3058.56) (hnl : s.nightLoad = 183.7) (hen : s.powerEnabled = true) (hc : s.charge ≤ s.cap) (hw : 0 ≤ w)
    (hlat : |degrees s.center.lat| ≤ 10) (h0 : 0 ≤ s.dateTime) (h1 : s.dateTime ≤ 3999900000 * 1000000)
    (hreach : Real.sqrt (s.x ^ 2 + s.y ^ 2) + w * 36000 ≤ 350000)
    (hlow : ∀ t, s.dateTime ≤ t → t < s.dateTime + 10 * 3600 * 1000000 → Spec.SunLow s.center.lng t)
    (hn : Spec.LayerNight s T) (hT : s.dateTime + 11 * 3600 * 1000000 ≤ T) : k ≤ 193 := by
  refine C144_not_all_night (realSun cal) α w s x k h T hcap hnl hen hc ?_ hn hT
  refine C130_real_dark cal hcal s w _ hw hlat h0 (by omega) ?_ hlow
  rw [add_sub_cancel_left]
  norm_num at hreach ⊢
  linarith

/-- Ten seconds of descent of the demo balloon at midnight, with six and a half hours on the layer's clock to go and 1711 Wh of
reserve. -/
example : ∃ x, Spec.NightFlown nightSun 0 5 1 demo 1 1 x ∧ Spec.DarkAround nightSun demo 5 x.dateTime ∧
    Spec.LayerNight demo (6 * 3600000000 + 1800000000) ∧ x.dateTime ≤ 6 * 3600000000 + 1800000000 ∧ demo.power.paused = false ∧
    0.025 * demo.cap + 400 * (1 * 1 / 360) ≤ Spec.reserveAt demo (6 * 3600000000 + 1800000000) := by
  obtain ⟨x, h1, h2⟩ := demo_step .down
  have hw : Real.sqrt ((3 : ℝ) ^ 2 + 4 ^ 2) ≤ 5 := by
    rw [show (3 : ℝ) ^ 2 + 4 ^ 2 = 5 ^ 2 by norm_num, Real.sqrt_sq (by norm_num)]
  have h1' : simulateStep nightSun 0 3 4 .down (10000000 * (1 : ℕ)) 10000000 demo = (x, .ok ()) := h1
  obtain ⟨s1, hc, -⟩ := demo_chain .down
  obtain ⟨x1, eff, e1, -, e2, -, -, -, -, -, -, -, e3, -⟩ := budget_step one_pos h1' h2 hw (drifted_self demo 5)
  rw [hc] at e1
  have heff : eff = .down := (Except.ok.inj (Prod.mk.inj e1).2).symm
  refine ⟨x, .pumped .start hw h1' h2 (e3.1 heff), fun _ _ _ _ _ _ => by norm_num [nightSun], ?_, ?_, rfl, ?_⟩
  · refine ⟨18 * 3600 * usPerSec, ?_, ?_, by decide⟩
    · have : demo.power.sunriseH = 6 * 3600000000 + 1800000000 := by
        norm_num [demo, PowerLayer.new, powerHysteresis, usPerSec]
      rw [this]; exact isNext_self (by norm_num [demo])
    · exact isNext_self (by norm_num [demo, usPerSec, PowerLayer.new])
  · rw [e2]; norm_num [demo]
  · norm_num [Spec.reserveAt, demo]

/-- Seven in the evening on the clock of the demo balloon's layer: eleven and a half hours until half an hour after sunrise. -/
example : Spec.LayerNight { demo with dateTime := 19 * 3600000000 } (30 * 3600000000 + 1800000000) ∧
    (19 * 3600000000 : ℤ) + 11 * 3600 * 1000000 ≤ 30 * 3600000000 + 1800000000 ∧
    Spec.DarkAround nightSun { demo with dateTime := 19 * 3600000000 } 5 (19 * 3600000000 + 10 * 3600 * 1000000) := by
  refine ⟨⟨42 * 3600000000, ?_, ?_, by norm_num⟩, by norm_num, fun _ _ _ _ _ _ => by norm_num [nightSun]⟩
  · refine ⟨by norm_num, ⟨1, by norm_num [demo, PowerLayer.new, powerHysteresis, usPerSec, day]⟩, fun k hk => ?_⟩
    simp only [demo, PowerLayer.new, powerHysteresis, usPerSec, day] at hk ⊢
    omega
  · refine ⟨by norm_num, ⟨1, by norm_num [demo, PowerLayer.new, powerHysteresis, usPerSec, day]⟩, fun k hk => ?_⟩
    simp only [demo, PowerLayer.new, powerHysteresis, usPerSec, day] at hk ⊢
    omega

end BLE
