import Verif.Props.Flight
import Verif.Props.Safety
import Verif.Props.Thermal

/-!
# C130: the overnight reserve

The power layer (`power_safety.py:52-118`) decides once per call of `simulate_step`
(`balloon.py:305-309`); the battery is drained sub-step by sub-step (`balloon.py:529-542`). Here the
two are put together: what the layer guarantees about the flight, and what it cannot.
-/

open Spec

namespace BLE

/-- The charge [Wh] left at the instant `T` [µs] if from now on only the night-time hotel load is
drawn and nothing is collected. -/
noncomputable def Spec.reserveAt (s : BState) (T : ℤ) : ℝ :=
  s.charge - s.nightLoad * (((T - s.dateTime : ℤ) : ℝ) / 1000000 / 3600)

/-- It is night on the layer's clock: its next sunrise (plus 30 minutes) is `T` and its next sunset is
not before it. -/
def Spec.LayerNight (s : BState) (T : ℤ) : Prop :=
  ∃ ss, IsNext s.power.sunriseH s.dateTime T ∧ IsNext s.power.sunset s.dateTime ss ∧ T ≤ ss

theorem isNext_later {base now now' t : ℤ} (h : IsNext base now t) (h1 : now ≤ now') (h2 : now' ≤ t) :
    IsNext base now' t :=
  ⟨h2, h.2.1, fun k hk => h.2.2 k (h1.trans hk)⟩

theorem isNext_self {now t : ℤ} (h : now ≤ t) : IsNext t now t :=
  ⟨h, ⟨0, by simp⟩, fun k _ => by simp only [day]; omega⟩

/-- One call of the chain at night: the clock shows the same night afterwards, and DOWN is flown only
with 2.5 % to spare. -/
theorem safetyChain_night {α : ℝ} {s s1 : BState} {a : Command} {T : ℤ} {r : Except Err Command}
    (hen : s.powerEnabled = true) (hn : Spec.LayerNight s T) (hcap : 0 < s.cap)
    (h : safetyChain α s a = (s1, r)) :
    Spec.LayerNight s1 T ∧ (r = .ok .down → 0.025 * s.cap ≤ Spec.reserveAt s T) := by
  obtain ⟨ss, n1, n2, hss⟩ := hn
  have c1 : catchUp s.dateTime s.power.sunriseH = T := isNext_unique (isNext_catchUp _ _) n1
  have c2 : catchUp s.dateTime s.power.sunset = ss := isNext_unique (isNext_catchUp _ _) n2
  -- the power layer's answer
  obtain ⟨pl, a1, hpl, hsr, hst, hdn⟩ : ∃ pl a1,
      s.power.getAction a s.dateTime s.nightLoad s.charge s.cap = (pl, .ok a1) ∧
      pl.sunriseH = T ∧ pl.sunset = ss ∧ (a1 = .down → 0.025 * s.cap ≤ Spec.reserveAt s T) := by
    unfold PowerLayer.getAction
    simp only [c1, c2]
    rw [if_neg (not_lt.2 hss), pyDiv_ok hcap.ne']
    split_ifs with p1
    · refine ⟨_, _, rfl, rfl, rfl, fun h => ?_⟩
      unfold pausedAction at h
      split_ifs at h
      exact absurd h (by assumption)
    · simp only
      split_ifs with p2
      · refine ⟨_, _, rfl, rfl, rfl, fun h => ?_⟩
        unfold pausedAction at h
        split_ifs at h
        exact absurd h (by assumption)
      · refine ⟨_, _, rfl, rfl, rfl, fun _ => ?_⟩
        rw [not_lt, le_div_iff₀ hcap] at p2
        exact p2
  unfold safetyChain at h
  simp only [hen, if_true, hpl] at h
  have henv : ∀ (L : EnvLayer) b x, (L.getAction b x).2 = .down → b = .down := by
    intro L b x hb
    unfold EnvLayer.getAction at hb
    simp only at hb
    split_ifs at hb <;> first | exact hb | cases hb
  have halt : ∀ (A : AltState) b x, (altGetAction A b x).2 = .down → b = .down := by
    intro A b x hb
    unfold altGetAction at hb
    simp only at hb
    split_ifs at hb <;> first | exact hb | cases hb
  have hnight : ∀ (s2 : BState), s2.power = pl → s2.dateTime = s.dateTime → Spec.LayerNight s2 T := by
    intro s2 e1 e2
    refine ⟨ss, ?_, ?_, hss⟩
    · rw [e1, e2, hsr]; exact isNext_self n1.1
    · rw [e1, e2, hst]; exact isNext_self n2.1
  split at h
  · obtain ⟨rfl, rfl⟩ := Prod.mk.inj h
    exact ⟨hnight _ rfl rfl, fun h => by cases h⟩
  · obtain ⟨rfl, rfl⟩ := Prod.mk.inj h
    refine ⟨hnight _ rfl rfl, fun h => ?_⟩
    injection h with h
    exact hdn (henv _ _ _ (halt _ _ _ h))

/-- One sub-step before `T` costs at most the compressor power on top of the hotel load. -/
theorem substep_reserve {sun : Sun} {α u v : ℝ} {a : Command} {stride : ℤ} {s s' : BState} {T : ℤ}
    (h : substep sun α u v a stride s = .ok s') (hst : 0 < stride) (hdl : s.dayLoad ≤ s.nightLoad)
    (hnl : 0 ≤ s.nightLoad) (hc : s.charge ≤ s.cap) :
    Spec.reserveAt s T - (if a = .down then 400 else 0) * ((stride : ℝ) / 1000000 / 3600) ≤
      Spec.reserveAt s' T ∧ s'.charge ≤ s'.cap ∧ s'.cap = s.cap ∧ s'.dayLoad = s.dayLoad ∧
      s'.nightLoad = s.nightLoad ∧ s'.power = s.power ∧ s'.powerEnabled = s.powerEnabled ∧
      s'.dateTime = s.dateTime + stride ∧
      (s.status ≠ .outOfPower → 0 < s'.charge → s'.status ≠ .outOfPower) := by
  obtain ⟨e1, e2, e3, e4, e5⟩ := C82_energy_balance _ _ _ _ _ _ _ _ h
  obtain ⟨_, _, _, solar, _, _, _, hsol, hs'⟩ := substep_ok h
  have hsolar : 0 ≤ solar := by
    split_ifs at hsol with c
    · exact (C51_solar_power _ _ _ hsol).1
    · rw [hsol]
  have k1 : s'.solarCharging = solar := by rw [hs']
  have k2 : s'.cap = s.cap := by rw [hs']
  have k3 : s'.nightLoad = s.nightLoad := by rw [hs']
  have k4 : s'.dateTime = s.dateTime + stride := by rw [hs']
  refine ⟨?_, ?_, k2, by rw [hs'], k3, by rw [hs'], by rw [hs'], k4, ?_⟩
  · have hstr : (0 : ℝ) < (stride : ℝ) / 1000000 / 3600 := by
      have : (0 : ℝ) < stride := by exact_mod_cast hst
      positivity
    generalize hh : (stride : ℝ) / 1000000 / 3600 = x at *
    have hw : s'.acsPower ≤ (if a = .down then 400 else 0) := by
      split_ifs with c
      · exact (e5 c).2
      · exact (e4 c).le
    generalize (if a = .down then (400 : ℝ) else 0) = w at *
    have hload : s'.powerLoad ≤ s.nightLoad + w := by
      rw [e2]; split_ifs <;> linarith
    have hlow : min (s.charge - (s.nightLoad + w) * x) s.charge ≤ s'.charge ∨
        s.charge - (s.nightLoad + w) * x ≤ s'.charge := by
      rw [e1, k1]
      have : s.charge - (s.nightLoad + w) * x ≤ s.charge + (solar - s'.powerLoad) * x := by nlinarith
      left
      refine le_min ((min_le_left _ _).trans (this.trans (le_max_left _ _))) ((min_le_right _ _).trans hc)
    have hT : (((T - s'.dateTime : ℤ) : ℝ) / 1000000 / 3600) =
        ((T - s.dateTime : ℤ) : ℝ) / 1000000 / 3600 - x := by
      rw [k4, ← hh]; push_cast; ring
    unfold Spec.reserveAt
    rw [hT, k3]
    have hw0 : 0 ≤ w := le_trans (by
      by_cases c : a = .down
      · linarith [(e5 c).1]
      · rw [e4 c]) hw
    have : min (s.charge - (s.nightLoad + w) * x) s.charge = s.charge - (s.nightLoad + w) * x :=
      min_eq_left (by nlinarith)
    rw [this] at hlow
    rcases hlow with h | h <;> nlinarith
  · rw [e1, k2]; exact min_le_right _ _
  · intro hs hpos hbad
    rw [hs'] at hbad hpos
    simp only [newStatus] at hbad hpos
    rw [if_neg (not_le.2 hpos)] at hbad
    split_ifs at hbad
    exact hs hbad

/-- C130 (the guarantee). It is night on the layer's clock, the next sunrise plus half an hour is `T`,
and the battery holds a margin of `m > 0` Wh over the hotel load until `T`. Then whatever is commanded,
whatever the wind and the sun do, and however the (whole-second) calls are cut, as long as the clock has
not passed `T` the balloon has not run out of power, and it still holds the margin — provided one call's
worth of full compressor power fits between `m` and the 2.5 % at which the layer pauses. -/
theorem C130_lasts_the_night (sun : Sun) (α : ℝ) (s : BState) (T Δ : ℤ) (m : ℝ) (calls : List StepCall)
    (hen : s.powerEnabled = true) (hn : Spec.LayerNight s T) (hm : 0 < m)
    (hfit : m + 400 * ((Δ : ℝ) / 1000000 / 3600) ≤ 0.025 * s.cap)
    (hdl : s.dayLoad ≤ s.nightLoad) (hnl : 0 ≤ s.nightLoad) (hc : s.charge ≤ s.cap) (hΔ : 0 ≤ Δ)
    (hst : s.status ≠ .outOfPower) (hres : m ≤ Spec.reserveAt s T)
    (hcalls : ∀ c ∈ calls, c.timeDelta ≤ Δ ∧ ∃ d : ℕ, 0 < d ∧ c.stride = d * 1000000)
    (hT : (simulateMany sun α s calls).dateTime ≤ T) :
    (simulateMany sun α s calls).status ≠ .outOfPower ∧
    m ≤ Spec.reserveAt (simulateMany sun α s calls) T ∧
    m ≤ (simulateMany sun α s calls).charge := by
  have hcap : 0 < s.cap := by
    have : (0 : ℝ) ≤ 400 * ((Δ : ℝ) / 1000000 / 3600) := by
      have : (0 : ℝ) ≤ Δ := by exact_mod_cast hΔ
      positivity
    linarith
  have key : ∀ x, (∀ c ∈ calls, c.timeDelta ≤ Δ ∧ ∃ d : ℕ, 0 < d ∧ c.stride = d * 1000000) →
      x = simulateMany sun α s calls → (x.dateTime ≤ T → Spec.LayerNight x T ∧ x.status ≠ .outOfPower ∧ x.charge ≤ x.cap ∧
        m ≤ Spec.reserveAt x T) ∧ x.powerEnabled = true ∧ x.cap = s.cap ∧ x.dayLoad = s.dayLoad ∧
        x.nightLoad = s.nightLoad := by
    clear hT hcalls
    induction calls using List.reverseRecOn with
    | nil =>
      rintro x - rfl
      exact ⟨fun _ => ⟨hn, hst, hc, hres⟩, hen, rfl, rfl, rfl⟩
    | append_singleton cs c ih =>
      rintro x hcalls rfl
      obtain ⟨ih1, i2, i3, i4, i5⟩ := ih _ (fun c hc => hcalls c (by simp [hc])) rfl
      have hrw : simulateMany sun α s (cs ++ [c]) =
          (simulateStep sun α c.u c.v c.action c.timeDelta c.stride (simulateMany sun α s cs)).1 := by
        unfold simulateMany
        rw [List.foldl_append]
        rfl
      rw [hrw]
      generalize simulateMany sun α s cs = r at *
      obtain ⟨hd, d, hd0, hstr⟩ := hcalls c (by simp)
      rcases hch : safetyChain α { r with lastCommand := c.action } c.action with ⟨s1, res⟩
      have hchain := fun (hnr : Spec.LayerNight r T) =>
        safetyChain_night (s := { r with lastCommand := c.action }) i2 hnr (by rw [i3]; exact hcap) hch
      obtain ⟨pw, ev, al, hs1⟩ := safetyChain_state α { r with lastCommand := c.action } c.action
      rw [hch] at hs1
      simp only at hs1
      have hstart : (s1.dateTime ≤ T → Spec.LayerNight s1 T ∧ s1.status ≠ .outOfPower ∧ s1.charge ≤ s1.cap ∧
          m ≤ Spec.reserveAt s1 T) ∧ s1.powerEnabled = true ∧ s1.cap = s.cap ∧ s1.dayLoad = s.dayLoad ∧
          s1.nightLoad = s.nightLoad := by
        have hdt : s1.dateTime = r.dateTime := by rw [hs1]
        refine ⟨fun hle => ?_, by rw [hs1]; exact i2, by rw [hs1]; exact i3, by rw [hs1]; exact i4,
          by rw [hs1]; exact i5⟩
        obtain ⟨j1, j2, j3, j4⟩ := ih1 (by rw [← hdt]; exact hle)
        refine ⟨(hchain j1).1, by rw [hs1]; exact j2, by rw [hs1]; exact j3, ?_⟩
        rw [hs1]; exact j4
      rcases simulateStep_cases sun α c.u c.v c.action c.timeDelta c.stride r with
        ⟨e, _, h⟩ | ⟨hok, _, _, s1', eff, hc', h⟩
      · rcases h with ⟨_, _, h⟩ | ⟨_, h⟩
        · rw [h]; exact ⟨ih1, i2, i3, i4, i5⟩
        · rw [h, hch]; exact hstart
      · rw [h]
        rw [hch] at hc'
        obtain ⟨rfl, rfl⟩ := Prod.mk.inj hc'
        obtain ⟨k, hk, hit, _⟩ := substepLoop_spec (substep sun α c.u c.v eff c.stride)
          (Int.fdiv (Int.tdiv c.timeDelta usPerSec) (Int.tdiv c.stride usPerSec)).toNat s1
        have hstr0 : 0 < c.stride := by rw [hstr]; positivity
        -- the whole call takes at most `Δ`
        have hdur : (k : ℤ) * c.stride ≤ Δ := by
          have e2 : Int.tdiv c.stride usPerSec = d := by
            rw [hstr]; exact Int.mul_tdiv_cancel _ (by decide)
          rw [e2] at hk
          rcases Nat.eq_zero_or_pos k with rfl | hk0
          · simpa using hΔ
          · have h0 : (0 : ℤ) ≤ Int.fdiv (Int.tdiv c.timeDelta usPerSec) d := by
              by_contra hneg
              rw [Int.toNat_of_nonpos (by omega)] at hk
              omega
            have h1 : (k : ℤ) ≤ Int.fdiv (Int.tdiv c.timeDelta usPerSec) d := by
              have := Int.toNat_of_nonneg h0; omega
            have h2 : Int.fdiv (Int.tdiv c.timeDelta usPerSec) d * d ≤ Int.tdiv c.timeDelta usPerSec := by
              rw [Int.fdiv_eq_ediv_of_nonneg _ (by omega)]
              exact Int.ediv_mul_le _ (by omega)
            have h3 : (k : ℤ) * d ≤ Int.tdiv c.timeDelta usPerSec :=
              (mul_le_mul_of_nonneg_right h1 (by omega)).trans h2
            have h4 : 0 < Int.tdiv c.timeDelta usPerSec := lt_of_lt_of_le (by positivity) h3
            have h5 : Int.tdiv c.timeDelta usPerSec * usPerSec ≤ c.timeDelta := by
              have := Int.mul_tdiv_add_tmod c.timeDelta usPerSec
              have hpos : 0 ≤ c.timeDelta := by
                by_contra hneg
                have : Int.tdiv c.timeDelta usPerSec ≤ 0 := by
                  have := Int.tdiv_nonneg (a := -c.timeDelta) (b := usPerSec) (by omega) (by decide)
                  rw [Int.neg_tdiv] at this
                  omega
                omega
              have := Int.tmod_nonneg usPerSec hpos
              nlinarith
            rw [hstr]
            have : usPerSec = 1000000 := rfl
            rw [this] at h5 h3
            nlinarith
        obtain ⟨b1, b2, b3, b4, b5⟩ := hstart
        -- along the call
        have hinv := hit.invariant (P := fun x => (x.dateTime ≤ T → x.dateTime - s1.dateTime ≤ Δ →
            Spec.LayerNight x T ∧ x.status ≠ .outOfPower ∧ x.charge ≤ x.cap ∧
            (if eff = .down then 0.025 * s.cap - 400 * (((x.dateTime - s1.dateTime : ℤ) : ℝ) / 1000000 / 3600)
              else m) ≤ Spec.reserveAt x T) ∧ s1.dateTime ≤ x.dateTime ∧ x.powerEnabled = true ∧ x.cap = s.cap ∧
            x.dayLoad = s.dayLoad ∧ x.nightLoad = s.nightLoad) ?_ ?_
        · obtain ⟨g1, g0, g2, g3, g4, g5⟩ := hinv
          refine ⟨fun hle => ?_, g2, g3, g4, g5⟩
          have hclk := (iter_clock hit).1
          obtain ⟨f1, f2, f3, f4⟩ := g1 hle (by rw [hclk]; linarith)
          refine ⟨f1, f2, f3, le_trans ?_ f4⟩
          split_ifs
          · have : (((substepLoop (substep sun α c.u c.v eff c.stride) (Int.fdiv (Int.tdiv c.timeDelta usPerSec)
                (Int.tdiv c.stride usPerSec)).toNat s1).1.dateTime - s1.dateTime : ℤ) : ℝ) ≤ Δ := by
              exact_mod_cast (by rw [hclk]; linarith : _ - s1.dateTime ≤ Δ)
            linarith
          · exact le_refl _
        · rintro x x' hx ⟨g1, g0, g2, g3, g4, g5⟩
          by_cases hdt : x.dateTime ≤ T ∧ x.dateTime - s1.dateTime ≤ Δ
          · obtain ⟨f1, f2, f3, f4⟩ := g1 hdt.1 hdt.2
            obtain ⟨q1, q2, q3, q4, q5, q6, q7, q8, q9⟩ := substep_reserve (T := T) hx hstr0
              (by rw [g4, g5]; exact hdl) (by rw [g5]; exact hnl) f3
            refine ⟨fun hle hΔ' => ?_, by omega, by rw [q7]; exact g2, by rw [q3]; exact g3, by rw [q4]; exact g4,
              by rw [q5]; exact g5⟩
            have hres' : (if eff = .down then 0.025 * s.cap -
                400 * (((x'.dateTime - s1.dateTime : ℤ) : ℝ) / 1000000 / 3600) else m) ≤ Spec.reserveAt x' T := by
              refine le_trans ?_ q1
              rw [q8]
              split_ifs with hdn
              · rw [if_pos hdn] at f4
                push_cast at f4 ⊢
                linarith
              · rw [if_neg hdn] at f4
                linarith
            have hm' : m ≤ Spec.reserveAt x' T := by
              refine le_trans ?_ hres'
              split_ifs
              · have : ((x'.dateTime - s1.dateTime : ℤ) : ℝ) ≤ Δ := by exact_mod_cast hΔ'
                linarith
              · exact le_refl _
            have hpos : 0 < x'.charge := by
              unfold Spec.reserveAt at hm'
              have : (0 : ℝ) ≤ ((T - x'.dateTime : ℤ) : ℝ) := by exact_mod_cast (by omega : 0 ≤ T - x'.dateTime)
              have : 0 ≤ x'.nightLoad * (((T - x'.dateTime : ℤ) : ℝ) / 1000000 / 3600) := by
                rw [q5, g5]; positivity
              linarith
            obtain ⟨ss, n1, n2, n3⟩ := f1
            refine ⟨⟨ss, ?_, ?_, n3⟩, q9 f2 hpos, q2, hres'⟩
            · rw [q6]; exact isNext_later n1 (by omega) hle
            · rw [q6]; exact isNext_later n2 (by omega) (hle.trans n3)
          · obtain ⟨_, _, _, _, _, _, _, _, rfl⟩ := substep_ok hx
            refine ⟨fun h1 h2 => absurd ⟨?_, ?_⟩ hdt, ?_, g2, g3, g4, g5⟩ <;> simp only at * <;> omega
        · refine ⟨fun hle _ => ?_, le_refl _, b2, b3, b4, b5⟩
          obtain ⟨f1, f2, f3, f4⟩ := b1 hle
          refine ⟨f1, f2, f3, ?_⟩
          split_ifs with hdn
          · have hr : r.dateTime ≤ T := by have : s1.dateTime = r.dateTime := by rw [hs1]
                                           omega
            have := (hchain (ih1 hr).1).2 (by rw [hdn])
            rw [sub_self]
            have e : Spec.reserveAt s1 T = Spec.reserveAt { r with lastCommand := c.action } T := by rw [hs1]; rfl
            rw [e]
            rw [← i3]
            simpa using this
          · exact f4
  obtain ⟨h1, _, _, _, h5⟩ := key _ hcalls rfl
  obtain ⟨_, k2, _, k4⟩ := h1 hT
  refine ⟨k2, k4, k4.trans ?_⟩
  unfold Spec.reserveAt
  have : (0 : ℝ) ≤ ((T - (simulateMany sun α s calls).dateTime : ℤ) : ℝ) := by exact_mod_cast (by omega)
  have : 0 ≤ (simulateMany sun α s calls).nightLoad *
      (((T - (simulateMany sun α s calls).dateTime : ℤ) : ℝ) / 1000000 / 3600) := by
    rw [h5]; positivity
  linarith

/-- C130 for the default vehicle flown in the environment's steps (3 minutes in strides of 10 s): 50 Wh
over the hotel load until half an hour after sunrise are enough, whatever the agent does. -/
theorem C130_default_vehicle (sun : Sun) (α : ℝ) (s : BState) (T : ℤ) (calls : List StepCall)
    (hcap : s.cap = 3058.56) (hnl : s.nightLoad = 183.7) (hdl : s.dayLoad = 120.4)
    (hen : s.powerEnabled = true) (hn : Spec.LayerNight s T) (hc : s.charge ≤ s.cap) (hst : s.status = .ok)
    (hres : 183.7 * (((T - s.dateTime : ℤ) : ℝ) / 3600000000) + 50 ≤ s.charge)
    (hcalls : ∀ c ∈ calls, c.timeDelta = 180000000 ∧ c.stride = 10000000)
    (hT : (simulateMany sun α s calls).dateTime ≤ T) :
    (simulateMany sun α s calls).status ≠ .outOfPower ∧ 50 ≤ (simulateMany sun α s calls).charge := by
  obtain ⟨h1, _, h3⟩ := C130_lasts_the_night sun α s T 180000000 50 calls hen hn (by norm_num)
    (by rw [hcap]; norm_num) (by rw [hdl, hnl]; norm_num) (by rw [hnl]; norm_num) hc (by norm_num)
    (by rw [hst]; decide)
    (by unfold Spec.reserveAt; rw [hnl]; linarith)
    (fun c hc => ⟨(hcalls c hc).1.le, 10, by norm_num, by rw [(hcalls c hc).2]; norm_num⟩) hT
  exact ⟨h1, h3⟩

/-- Non-vacuity: the demo balloon at midnight, sunrise at 6:00, sunset at 18:00. -/
example : Spec.LayerNight demo (6 * 3600000000 + 1800000000) ∧ demo.powerEnabled = true ∧
    demo.charge ≤ demo.cap ∧ demo.status = .ok ∧
    183.7 * (((6 * 3600000000 + 1800000000 - demo.dateTime : ℤ) : ℝ) / 3600000000) + 50 ≤ demo.charge := by
  refine ⟨⟨18 * 3600 * usPerSec, ?_, ?_, by decide⟩, rfl, by norm_num [demo], rfl, by norm_num [demo]⟩
  · have : demo.power.sunriseH = 6 * 3600000000 + 1800000000 := by
      norm_num [demo, PowerLayer.new, powerHysteresis, usPerSec]
    rw [this]; exact isNext_self (by norm_num [demo])
  · exact isNext_self (by norm_num [demo, usPerSec, PowerLayer.new])

/-- C130 (the limit). If the battery does not cover the hotel load until `T` and it is dark until then wherever the winds can
carry the balloon, no command saves it: with or without the layer, whatever the calls, it is no longer flying at `T`. -/
theorem C130_too_little (sun : Sun) (α : ℝ) (s : BState) (w : ℝ) (T : ℤ) (calls : List StepCall)
    (hdark : Spec.DarkAround sun s w T) (hwind : ∀ c ∈ calls, Real.sqrt (c.u ^ 2 + c.v ^ 2) ≤ w) (hlt : s.dateTime < T)
    (hres : Spec.reserveAt s T ≤ 0) (hnl : 0 ≤ s.nightLoad) (hstr : ∀ c ∈ calls, 0 < c.stride)
    (hT : T ≤ (simulateMany sun α s calls).dateTime) :
    (simulateMany sun α s calls).status ≠ .ok := by
  have := simulateMany_invariant (P := fun x => Drifted s w x ∧ x.nightLoad = s.nightLoad ∧
      (x.status = .ok → x.dateTime < T ∧ Spec.reserveAt x T ≤ 0)) (sun := sun) (α := α)
    (G := fun c => 0 < c.stride ∧ Real.sqrt (c.u ^ 2 + c.v ^ 2) ≤ w)
    (fun x a pw ev al h => ⟨⟨h.1.center, h.1.later, h.1.near⟩, h.2⟩) ?_ calls (fun c hc => ⟨hstr c hc, hwind c hc⟩) s
    ⟨drifted_self s w, rfl, fun _ => ⟨hlt, hres⟩⟩
  · intro hok
    have := (this.2.2 hok).1
    omega
  · rintro c ⟨hc, hw⟩ a x x' h ⟨h1, h2, h3⟩
    obtain ⟨e1, e2, e3, e4, e5⟩ := C82_energy_balance _ _ _ _ _ _ _ _ h
    obtain ⟨_, _, _, solar, _, _, _, hsol, hs'⟩ := substep_ok h
    have k3 : x'.nightLoad = x.nightLoad := by rw [hs']
    have k4 : x'.dateTime = x.dateTime + c.stride := by rw [hs']
    refine ⟨drifted_substep hc.le hw h h1, by rw [k3]; exact h2, fun hok => ?_⟩
    have hold : x.status = .ok ∧ 0 < x'.charge := by
      rw [hs'] at hok ⊢
      simp only at hok ⊢
      generalize clip _ 0 x.cap = ch at hok ⊢
      simp only [newStatus] at hok
      split_ifs at hok with g1 g2 g3
      exact ⟨hok, not_le.1 g1⟩
    obtain ⟨j1, j2⟩ := h3 hold.1
    have hd := h1.dark hdark j1
    have hacs : 0 ≤ x'.acsPower := by
      by_cases c : a = .down
      · linarith [(e5 c).1]
      · rw [e4 c]
    have hx : (0 : ℝ) < (c.stride : ℝ) / 1000000 / 3600 := by
      have : (0 : ℝ) < c.stride := by exact_mod_cast hc
      positivity
    have hchg : x'.charge ≤ x.charge - x.nightLoad * ((c.stride : ℝ) / 1000000 / 3600) := by
      rw [e3 hd, e2, if_neg (not_lt.2 hd)] at e1
      have h4 : x'.charge ≤ max (x.charge + (0 - (x.nightLoad + x'.acsPower)) * ((c.stride : ℝ) / 1000000 / 3600)) 0 := by
        rw [e1]; exact min_le_left _ _
      rcases le_max_iff.1 h4 with h5 | h5
      · nlinarith
      · linarith [hold.2]
    have hr : Spec.reserveAt x' T ≤ 0 := by
      unfold Spec.reserveAt at j2 ⊢
      rw [k3, k4]
      push_cast at j2 ⊢
      have : x.nightLoad * (((T : ℝ) - (x.dateTime + c.stride)) / 1000000 / 3600) =
        x.nightLoad * (((T : ℝ) - x.dateTime) / 1000000 / 3600) - x.nightLoad * ((c.stride : ℝ) / 1000000 / 3600) := by
        ring
      rw [this]
      linarith
    refine ⟨?_, hr⟩
    by_contra hge
    unfold Spec.reserveAt at hr
    have h6 : ((T - x'.dateTime : ℤ) : ℝ) ≤ 0 := by exact_mod_cast (by omega)
    have h7 : x'.nightLoad * (((T - x'.dateTime : ℤ) : ℝ) / 1000000 / 3600) ≤ 0 := by
      rw [k3, h2]
      exact mul_nonpos_of_nonneg_of_nonpos hnl (by linarith)
    linarith [hold.2]

/-- The same midnight with 1000 Wh: six and a half hours of hotel load are 1194 Wh. -/
example : Spec.reserveAt { demo with charge := 1000 } (6 * 3600000000 + 1800000000) ≤ 0 ∧
    Spec.DarkAround nightSun { demo with charge := 1000 } 50 (6 * 3600000000 + 1800000000) := by
  refine ⟨?_, fun _ _ _ _ _ _ => by norm_num [nightSun]⟩
  norm_num [Spec.reserveAt, demo]

end BLE
