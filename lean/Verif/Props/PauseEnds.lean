import Verif.Props.Endurance
import Verif.Props.PowerClock
import Verif.Props.NightReserve

/-!
# C142: a power pause ends in the morning

The power layer (`power_safety.py:52-118`) lifts a pause by day as soon as a twentieth of the battery is charged. While it is
paused the compressor stays off (`power_safety.py:120-126`), so the panels can charge the battery.
-/

open Spec

namespace BLE

/-- The sun is high: its hour angle at longitude `lng` is within 4 h 50 min (1.275 rad) of noon; `sunPhi` is counted from
midnight. -/
def Spec.SunHigh (lng : ℝ) (t : ℤ) : Prop := Real.cos (sunPhi lng ((t / 1000000 : ℤ) : ℝ)) ≤ -0.291

theorem sunHigh_angle {lng : ℝ} {t : ℤ} (h : Spec.SunHigh lng t) :
    ∃ z, |z| ≤ 1.28 ∧ Real.cos (sunPhi lng ((t / 1000000 : ℤ) : ℝ)) = -Real.cos z := by
  unfold Spec.SunHigh at h
  set c := Real.cos (sunPhi lng ((t / 1000000 : ℤ) : ℝ)) with hc
  have hc1 : -1 ≤ c := Real.neg_one_le_cos _
  have hpi4 := Real.pi_lt_d4
  have hpi3 := Real.pi_gt_d4
  refine ⟨Real.arccos (-c), ?_, by rw [Real.cos_arccos (by linarith) (by linarith), neg_neg]⟩
  rw [abs_of_nonneg (Real.arccos_nonneg _)]
  have h128 : Real.cos 1.28 ≤ -c := by
    rw [← Real.sin_pi_div_two_sub]
    have := Real.sin_le (x := Real.pi / 2 - 1.28) (by norm_num at *; linarith)
    norm_num at *; linarith
  have : Real.arccos (-c) ≤ Real.arccos (Real.cos 1.28) := Real.arccos_le_arccos h128
  rwa [Real.arccos_cos (by norm_num) (by norm_num at *; linarith)] at this

/-- Ten seconds of high sun without the compressor. -/
theorem gain_substep {cal : Calendar} (hcal : Spec.Gregorian cal) {α u v : ℝ} {a : Command} {s s' : BState} {B : ℝ}
    (ha : a ≠ .down) (hs : Charged s B) (hp0 : 0 ≤ s.pressure) (hp : s.pressure ≤ 36500)
    (hnear : s.x ^ 2 + s.y ^ 2 ≤ 350000 ^ 2) (hera : s.dateTime + 10 * 1000000 < 4000000000 * 1000000)
    (hhigh : Spec.SunHigh s.center.lng s.dateTime)
    (h : substep (realSun cal) α u v a defaultStride s = .ok s') :
    min (s.charge + 0.5961) 3000 ≤ s'.charge := by
  obtain ⟨e1, e2, e3, e4, e5⟩ := C82_energy_balance _ _ _ _ _ _ _ _ h
  obtain ⟨p', amb, dT, solar, hnp, hamb, hdT, hsol, hs'⟩ := substep_ok h
  have k1 : s'.solarCharging = solar := by rw [hs']
  obtain ⟨-, hel1, -⟩ := C100_real_sun cal hcal.1 s.latlng s.dateTime
  have hel := realSun_el cal hcal s.latlng s.dateTime hs.era (by omega)
  have hera' : InEra ((s.dateTime / 1000000 : ℤ) : ℝ) := by
    have := hs.era
    constructor
    · exact_mod_cast (by omega : (0 : ℤ) ≤ s.dateTime / 1000000)
    · exact_mod_cast (by omega : s.dateTime / 1000000 ≤ (4000000000 : ℤ))
  obtain ⟨z, hz, hcos⟩ := sunHigh_angle hhigh
  have h75 : 7.5 ≤ (realSun cal s.latlng s.dateTime).el := by
    rw [hel]
    exact (near_day hs.station hera' hnear hcos hz).1
  generalize (realSun cal s.latlng s.dateTime).el = el at *
  obtain ⟨w, hw, hw'⟩ := panels_noon el s.pressure h75 hel1 hp0 hp
  have hm : el > minSolarEl := by unfold minSolarEl; norm_num at *; linarith
  have hm' : el > -4.242 := hm
  rw [if_pos hm, hw] at hsol
  obtain rfl := Except.ok.inj hsol
  rw [if_pos hm', e4 ha] at e2
  have hstr : ((defaultStride : ℤ) : ℝ) / 1000000 / 3600 = 1 / 360 := by norm_num [defaultStride, usPerSec]
  rw [e1, k1, e2, hs.cap, hstr, hs.loads.1]
  exact min_le_min (le_max_of_le_left (by norm_num at *; linarith)) (by norm_num)

/-- Any number of sub-steps. -/
theorem gain_loop {cal : Calendar} (hcal : Spec.Gregorian cal) {α : ℝ} (h0 : 0 ≤ α) (h1 : α ≤ 1) {u v : ℝ} {a : Command}
    (ha : a ≠ .down) {t1 : ℤ} (m : ℕ) (s : BState) {B : ℝ} (hB : 0 ≤ B) (hok : s.status = .ok) (hA : AloftInv s)
    (hs : Charged s B) (hnear : s.x ^ 2 + s.y ^ 2 ≤ 350000 ^ 2)
    (hnear' : (substepLoop (substep (realSun cal) α u v a defaultStride) m s).1.x ^ 2 +
      (substepLoop (substep (realSun cal) α u v a defaultStride) m s).1.y ^ 2 ≤ 350000 ^ 2)
    (hera : s.dateTime + m * (10 * 1000000) < 4000000000 * 1000000)
    (ht1 : (substepLoop (substep (realSun cal) α u v a defaultStride) m s).1.dateTime ≤ t1)
    (hhigh : ∀ t, s.dateTime ≤ t → t ≤ t1 → Spec.SunHigh s.center.lng t) :
    ∃ k : ℕ, k ≤ m ∧ (substepLoop (substep (realSun cal) α u v a defaultStride) m s).1.dateTime = s.dateTime + k * 10000000 ∧
      min (s.charge + 0.5961 * k) 3000 ≤ (substepLoop (substep (realSun cal) α u v a defaultStride) m s).1.charge := by
  have hsun : ∀ l t, 0 ≤ (realSun cal l t).flux ∧ (realSun cal l t).flux ≤ 1500 := fun l t => by
    obtain ⟨-, -, f0, f1⟩ := C100_real_sun cal hcal.1 l t
    exact ⟨f0, by linarith⟩
  induction m generalizing s with
  | zero => exact ⟨0, le_refl _, by simp [substepLoop], by simp [substepLoop]⟩
  | succ m ih =>
    unfold substepLoop at hnear' ht1 ⊢
    rcases h : substep (realSun cal) α u v a defaultStride s with e | s'
    · exact ⟨0, by omega, by simp, by simp⟩
    · rw [h] at hnear' ht1
      simp only at hnear' ht1 ⊢
      push_cast at hera
      have k1 := charged_substep hcal hok hB hs (by linarith [hA.range.1]) hA.range.2 hnear (by omega) h
      rw [if_neg ha, add_zero] at k1
      obtain ⟨k2, -⟩ := aloft_substep hsun h0 h1 (by decide) (by decide) hok hA (fun h => absurd h ha) h
      obtain ⟨_, _, _, _, _, _, _, _, hs'⟩ := substep_ok h
      have ht : totalSeconds defaultStride = 10 := by norm_num [totalSeconds, defaultStride, usPerSec]
      have ex : s'.x = s.x + u * 10 := by rw [hs', ← ht]
      have ey : s'.y = s.y + v * 10 := by rw [hs', ← ht]
      have ed : s'.dateTime = s.dateTime + 10 * 1000000 := by rw [hs']; rfl
      have ec : s'.center = s.center := by rw [hs']
      have hlater : s.dateTime ≤ t1 := by
        by_cases hc : s'.status = .ok
        · rw [if_neg (not_not.2 hc)] at ht1
          have : s'.dateTime ≤ (substepLoop (substep (realSun cal) α u v a defaultStride) m s').1.dateTime := by
            obtain ⟨j, _, hit, _⟩ := substepLoop_spec (substep (realSun cal) α u v a defaultStride) m s'
            have := (iter_clock hit).1
            rw [this]
            have : (0 : ℤ) ≤ (j : ℤ) * defaultStride := mul_nonneg (by omega) (by decide)
            omega
          omega
        · rw [if_pos hc] at ht1
          simp only at ht1
          omega
      have hg := gain_substep hcal ha hs (by linarith [hA.range.1]) hA.range.2 hnear (by omega)
        (hhigh _ (le_refl _) hlater) h
      by_cases hc : s'.status = .ok
      · rw [if_neg (not_not.2 hc)] at hnear' ht1 ⊢
        obtain ⟨k, q1, q2⟩ := loop_drift (sun := realSun cal) (α := α) (u := u) (v := v) (a := a) m s'
        have hn' : s'.x ^ 2 + s'.y ^ 2 ≤ 350000 ^ 2 := by
          rw [q1, q2, ex, ey] at hnear'
          rw [ex, ey]
          exact segment_near hnear hnear'
        obtain ⟨j, j1, j2, j3⟩ := ih s' hc k2 k1 hn' hnear' (by rw [ed]; omega) ht1
          (fun t h1 h2 => by rw [ec]; exact hhigh t (by omega) h2)
        refine ⟨j + 1, by omega, by rw [j2, ed]; push_cast; ring, le_trans ?_ j3⟩
        have hj : (0 : ℝ) ≤ j := Nat.cast_nonneg j
        refine le_min ?_ (min_le_right _ _)
        push_cast
        rcases le_total (s.charge + 0.5961) 3000 with c | c
        · rw [min_eq_left c] at hg
          refine (min_le_left _ _).trans (by linarith)
        · rw [min_eq_right c] at hg
          refine (min_le_right _ _).trans (by nlinarith)
      · rw [if_pos hc]
        exact ⟨1, by omega, by rw [ed]; norm_num, by rw [Nat.cast_one, mul_one]; exact hg⟩

/-- One decision of the power layer by day. -/
theorem chain_day {α : ℝ} {s s1 : BState} {a : Command} {r : Except Err Command} {ss : ℤ} (hen : s.powerEnabled = true)
    (hd : Spec.LayerDay s.power s.dateTime ss) (hcap : 0 < s.cap) (h : safetyChain α s a = (s1, r)) :
    Spec.LayerDay s1.power s.dateTime ss ∧ (s.power.paused = false → s1.power.paused = false) ∧
    (0.05 * s.cap ≤ s.charge → s1.power.paused = false) ∧ (r = .ok .down → s1.power.paused = false) := by
  obtain ⟨sr, n1, n2, hlt⟩ := hd
  have c1 : catchUp s.dateTime s.power.sunriseH = sr := isNext_unique (isNext_catchUp _ _) n1
  have c2 : catchUp s.dateTime s.power.sunset = ss := isNext_unique (isNext_catchUp _ _) n2
  obtain ⟨pl, a1, hpl, hsr, hst, q1, q2, q3⟩ : ∃ pl a1,
      s.power.getAction a s.dateTime s.nightLoad s.charge s.cap = (pl, .ok a1) ∧ pl.sunriseH = sr ∧ pl.sunset = ss ∧
      (s.power.paused = false → pl.paused = false) ∧ (0.05 * s.cap ≤ s.charge → pl.paused = false) ∧
      (a1 = .down → pl.paused = false) := by
    unfold PowerLayer.getAction
    simp only [c1, c2]
    rw [if_pos hlt, pyDiv_ok hcap.ne']
    simp only
    split_ifs with p1
    · refine ⟨_, _, rfl, rfl, rfl, fun h => absurd p1.1 (by rw [h]; decide), fun h => ?_, fun h => ?_⟩
      · have := p1.2
        rw [div_lt_iff₀ hcap] at this
        exact absurd h (not_le.2 this)
      · exfalso
        unfold pausedAction at h
        split_ifs at h
        exact absurd h (by assumption)
    · exact ⟨_, _, rfl, rfl, rfl, fun _ => rfl, fun _ => rfl, fun _ => rfl⟩
  have hday : ∀ L : PowerLayer, L = pl → Spec.LayerDay L s.dateTime ss := by
    rintro L rfl
    exact ⟨sr, by rw [hsr]; exact isNext_self n1.1, by rw [hst]; exact isNext_self n2.1, hlt⟩
  have henv : ∀ (L : EnvLayer) b x, (L.getAction b x).2 = .down → b = .down := by
    intro L b x hb
    unfold EnvLayer.getAction at hb
    simp only at hb
    split_ifs at hb <;> first | exact hb | cases hb
  have halt : ∀ (A : AltState) b x, (altGetAction A b x).2 = .down → b = .down := by
    intro A b x hb
    unfold altGetAction at hb
    simp only at hb
    split_ifs at hb <;> first | exact hb | cases hb
  unfold safetyChain at h
  simp only [hen, if_true, hpl] at h
  split at h
  · obtain ⟨rfl, rfl⟩ := Prod.mk.inj h
    exact ⟨hday _ rfl, q1, q2, fun h => by cases h⟩
  · obtain ⟨rfl, rfl⟩ := Prod.mk.inj h
    refine ⟨hday _ rfl, q1, q2, fun h => ?_⟩
    injection h with h
    exact q3 (henv _ _ _ (halt _ _ _ h))

/-- The clock never runs backwards, and no step takes more than three minutes. -/
theorem step_clock (sun : Sun) (α u v : ℝ) (a : Command) (s : BState) :
    s.dateTime ≤ (simulateStep sun α u v a agentStep defaultStride s).1.dateTime ∧
    (simulateStep sun α u v a agentStep defaultStride s).1.dateTime ≤ s.dateTime + 180 * 1000000 := by
  obtain ⟨pw, ev, al, hch⟩ := safetyChain_state α { s with lastCommand := a } a
  have hd : (safetyChain α { s with lastCommand := a } a).1.dateTime = s.dateTime := by rw [hch]
  rcases simulateStep_cases sun α u v a agentStep defaultStride s with ⟨e, _, h⟩ | ⟨_, _, _, s1, eff, hc, h⟩
  · rcases h with ⟨_, _, h⟩ | ⟨_, h⟩
    · rw [h]; simp only; omega
    · rw [h, hd]; omega
  · rw [h]
    have hn : (Int.fdiv (Int.tdiv agentStep usPerSec) (Int.tdiv defaultStride usPerSec)).toNat = 18 := by decide
    rw [hn]
    rw [hc] at hd
    simp only at hd
    obtain ⟨j, hj, hit, _⟩ := substepLoop_spec (substep sun α u v eff defaultStride) 18 s1
    have := (iter_clock hit).1
    have hs : defaultStride = 10000000 := rfl
    rw [this, hd, hs]
    omega

/-- Daylight on the layer's clock from `t0` on: either the layer is not paused, or the panels have charged ever since. -/
structure DayInv (t0 ss : ℤ) (s : BState) : Prop where
  clock : Spec.LayerDay s.power s.dateTime ss
  later : t0 ≤ s.dateTime
  free : s.power.paused = false ∨
    (s.dateTime < t0 + 2880 * 1000000 ∧ min (0.5961 * (((s.dateTime - t0 : ℤ) : ℝ) / 10000000)) 160 ≤ s.charge)

theorem day_step {cal : Calendar} (hcal : Spec.Gregorian cal) {α : ℝ} (h0 : 0 ≤ α) (h1 : α ≤ 1) {u v : ℝ} (a : Command)
    {t0 t1 ss : ℤ} (s : BState) {B : ℝ} (hB : 0 ≤ B) (hA : AloftInv s) (hs : Charged s B) (hen : s.powerEnabled = true)
    (hnear : s.x ^ 2 + s.y ^ 2 ≤ 350000 ^ 2)
    (hnear' : (simulateStep (realSun cal) α u v a agentStep defaultStride s).1.x ^ 2 +
      (simulateStep (realSun cal) α u v a agentStep defaultStride s).1.y ^ 2 ≤ 350000 ^ 2)
    (hera : s.dateTime + 180 * 1000000 < 4000000000 * 1000000)
    (ht1 : (simulateStep (realSun cal) α u v a agentStep defaultStride s).1.dateTime ≤ t1) (hss : t1 ≤ ss)
    (hhigh : ∀ t, t0 ≤ t → t ≤ t1 → Spec.SunHigh s.center.lng t) (hI : DayInv t0 ss s) :
    DayInv t0 ss (simulateStep (realSun cal) α u v a agentStep defaultStride s).1 := by
  have hcap : 0 < s.cap := by rw [hs.cap]; norm_num
  obtain ⟨ck0, ck1⟩ := step_clock (realSun cal) α u v a s
  obtain ⟨pw, ev, al, hch⟩ := safetyChain_state α { s with lastCommand := a } a
  rcases hcc : safetyChain α { s with lastCommand := a } a with ⟨s1, r⟩
  obtain ⟨d1, d2, d3, d4⟩ := chain_day (s := { s with lastCommand := a }) hen hI.clock hcap hcc
  simp only at d1 d2 d3 d4
  rw [hcc] at hch
  simp only at hch
  have ed : s1.dateTime = s.dateTime := by rw [hch]
  have ech : s1.charge = s.charge := by rw [hch]
  -- after the decision
  have hfree : s1.power.paused = false ∨ (s.dateTime < t0 + 2700 * 1000000 ∧
      min (0.5961 * (((s.dateTime - t0 : ℤ) : ℝ) / 10000000)) 160 ≤ s.charge) := by
    rcases hI.free with f | ⟨f1, f2⟩
    · exact Or.inl (d2 f)
    · by_cases hx : s.dateTime < t0 + 2700 * 1000000
      · exact Or.inr ⟨hx, f2⟩
      · left
        apply d3
        have : ((2700 * 1000000 : ℤ) : ℝ) ≤ ((s.dateTime - t0 : ℤ) : ℝ) := by exact_mod_cast (by omega)
        rw [hs.cap]
        refine le_trans ?_ (le_trans (le_min ?_ (by norm_num : (0.05 * 3058.56 : ℝ) ≤ 160)) f2)
        · norm_num
        · push_cast at *
          norm_num at *
          linarith
  have hI1 : DayInv t0 ss s1 :=
    { clock := by rw [ed]; exact d1, later := by rw [ed]; exact hI.later
      free := hfree.imp id fun ⟨f1, f2⟩ => by rw [ed, ech]; exact ⟨by omega, f2⟩ }
  rcases simulateStep_cases (realSun cal) α u v a agentStep defaultStride s with ⟨e, _, h⟩ | ⟨hok, _, _, s1', eff, hc, h⟩
  · rcases h with ⟨_, _, h⟩ | ⟨_, h⟩
    · rw [h]; exact { clock := hI.clock, later := hI.later, free := hI.free }
    · rw [h, hcc]; exact hI1
  · rw [hcc] at hc
    obtain ⟨rfl, rfl⟩ := Prod.mk.inj hc
    rw [h] at hnear' ht1 ck0 ck1 ⊢
    have hn : (Int.fdiv (Int.tdiv agentStep usPerSec) (Int.tdiv defaultStride usPerSec)).toNat = 18 := by decide
    rw [hn] at hnear' ht1 ck0 ck1 ⊢
    obtain ⟨j, hj, hit, _⟩ := substepLoop_spec (substep (realSun cal) α u v eff defaultStride) 18 s1
    have hpow : (substepLoop (substep (realSun cal) α u v eff defaultStride) 18 s1).1.power = s1.power :=
      hit.invariant (P := fun x => x.power = s1.power) (fun x x' hx hp => by
        obtain ⟨_, _, _, _, _, _, _, _, hs'⟩ := substep_ok hx
        rw [hs']; exact hp) rfl
    refine { clock := ?_, later := hI.later.trans ck0, free := ?_ }
    · rw [hpow]
      obtain ⟨sr, n1, n2, hlt⟩ := d1
      exact ⟨sr, isNext_later n1 ck0 (by omega), isNext_later n2 ck0 (by omega), hlt⟩
    · rw [hpow]
      rcases hfree with f | ⟨f1, f2⟩
      · exact Or.inl f
      by_cases hp : s1.power.paused = false
      · exact Or.inl hp
      right
      have hnd : eff ≠ .down := fun he => hp (d4 (by rw [he]))
      have hC1 : Charged s1 B := by
        rw [hch]
        exact { loads := hs.loads, cap := hs.cap, station := hs.station, era := hs.era, level := hs.level, power := hs.power }
      have hA1 : AloftInv s1 := by
        rw [hch]
        exact { volBase := hA.volBase, dvdp := hA.dvdp, envMass := hA.envMass, payload := hA.payload, molsLift := hA.molsLift
                maxSp := hA.maxSp, ir := hA.ir, air := hA.air, vol := hA.vol, ambient := hA.ambient, gas := hA.gas
                taut := hA.taut, cod := hA.cod, range := hA.range, ended := hA.ended, live := hA.live }
      obtain ⟨k, k0, k1, k2⟩ := gain_loop hcal h0 h1 hnd (t1 := t1) 18 s1 hB (by rw [hch]; exact hok) hA1 hC1
        (by rw [hch]; exact hnear) hnear' (by rw [ed]; norm_num; omega) ht1
        (fun t q1 q2 => by
          have : s1.center = s.center := by rw [hch]
          rw [this]
          have := hI.later
          exact hhigh t (by omega) q2)
      refine ⟨by omega, le_trans ?_ k2⟩
      rw [k1, ed, ech]
      have hk : (0 : ℝ) ≤ k := Nat.cast_nonneg k
      have e : (((s.dateTime + (k : ℤ) * 10000000 - t0 : ℤ) : ℝ) / 10000000) = ((s.dateTime - t0 : ℤ) : ℝ) / 10000000 + k := by
        push_cast; ring
      rw [e]
      generalize ((s.dateTime - t0 : ℤ) : ℝ) / 10000000 = x at *
      refine le_min ?_ ((min_le_right _ _).trans (by norm_num))
      rcases le_total (0.5961 * x) 160 with c | c
      · rw [min_eq_left c] at f2
        exact (min_le_left _ _).trans (by norm_num at *; linarith)
      · rw [min_eq_right c] at f2
        exact (min_le_right _ _).trans (by norm_num at *; nlinarith)

variable {K W Rd : Type}

/-- C142. Reset with any seed and fly any actions, within 350 km of the station. Let it be day by the power layer's clock after
the actions `as`, until `ss` — paused or not, the battery empty or not. Whatever the further actions `bs` are: if at their end
at least 48 minutes have passed, it is not yet `ss`, and the sun was high at the station all the while, then navigation is not
paused by the power layer. -/
theorem C142_pause_ends (c : EnvCfg K W Rd) (hJ : Spec.SaneDraws c.world.J) (two : Bool) (hR : c.world.R = gpr two)
    (cal : Calendar) (hcal : Spec.Gregorian cal) (hE : c.world.sun = realSun cal) (hC : Spec.GoodWind c.world.C)
    (v : Env K W Rd) (seed : Option ℤ) :
    ∃ v0 o i, v.reset c seed = (v0, .ok o) ∧ v0.arena.ball = some i ∧ ∀ as bs : List ℤ, (as ++ bs).length ≤ 14300000 →
      (∀ cs s, cs <+: as ++ bs → s = (Spec.after c cs v0).arena.heap.balls i → Real.sqrt (s.x ^ 2 + s.y ^ 2) ≤ 350000) →
      ∀ s t ss, s = (Spec.after c as v0).arena.heap.balls i → t = (Spec.after c (as ++ bs) v0).arena.heap.balls i →
      Spec.LayerDay s.power s.dateTime ss → t.dateTime ≤ ss → s.dateTime + 48 * 60 * 1000000 ≤ t.dateTime →
      (∀ τ, s.dateTime ≤ τ → τ ≤ t.dateTime → Spec.SunHigh s.center.lng τ) →
      t.power.paused = false := by
  obtain ⟨v0, o, i, hr, hi, hal, hdate, hch⟩ := charged_episode c hJ two hR cal hcal hE hC v seed
  refine ⟨v0, o, i, hr, hi, fun as bs hlen hnear s t ss hs ht hday hss h48 hhigh => ?_⟩
  have h97 : ∀ cs, 0 ≤ ((Spec.after c cs v0).arena.heap.balls i).charge ∧
      ((Spec.after c cs v0).arena.heap.balls i).powerEnabled = true ∧
      ((Spec.after c cs v0).arena.heap.balls i).center = (v0.arena.heap.balls i).center := by
    intro cs
    obtain ⟨j, t', hj, ht', -, -, q1, -, -, -, q2, -, -, -, q3⟩ := C97_from_reset c hJ
      (by rw [hE]; exact C94_real_sun cal hcal.1) v v0 seed o hr cs
    have hij : j = i := by
      have := (hal cs).1.ball
      rw [hj] at this
      injection this
    subst hij
    subst ht'
    exact ⟨q1, q2, q3⟩
  have hsq : ∀ cs, cs <+: as ++ bs → ((Spec.after c cs v0).arena.heap.balls i).x ^ 2 +
      ((Spec.after c cs v0).arena.heap.balls i).y ^ 2 ≤ 350000 ^ 2 := by
    intro cs hcs
    have := hnear cs _ hcs rfl
    rwa [Real.sqrt_le_left (by norm_num)] at this
  have hcen : s.center = (v0.arena.heap.balls i).center := by rw [hs]; exact (h97 as).2.2
  have key : ∀ cs, cs <+: bs → ((Spec.after c (as ++ cs) v0).arena.heap.balls i).dateTime ≤ t.dateTime →
      DayInv s.dateTime ss ((Spec.after c (as ++ cs) v0).arena.heap.balls i) := by
    intro cs
    induction cs using List.reverseRecOn with
    | nil =>
      intro _ _
      rw [List.append_nil, ← hs]
      refine { clock := hday, later := le_refl _, free := Or.inr ⟨by omega, ?_⟩ }
      rw [sub_self, Int.cast_zero, zero_div, mul_zero]
      refine (min_le_left _ _).trans ?_
      rw [hs]; exact (h97 as).1
    | append_singleton cs a ih =>
      intro hpre hle
      have hpre' : cs <+: bs := (List.prefix_append cs [a]).trans hpre
      have hpa : ∀ ds, ds <+: bs → as ++ ds <+: as ++ bs := fun ds h => (List.prefix_append_right_inj as).2 h
      have hl : (as ++ cs).length < 14300000 := by
        have := (hpa _ hpre).length_le
        simp only [List.length_append, List.length_singleton] at this hlen ⊢
        omega
      have hC0 := hch (as ++ cs) hl.le (fun ds s h => hnear ds s (h.trans (hpa _ hpre')))
      obtain ⟨g1, g2⟩ := hal (as ++ cs)
      have n0 := hsq _ (hpa _ hpre')
      have n1 := hsq _ (hpa _ hpre)
      have hd := (hdate (as ++ cs)).2 hl
      obtain ⟨-, b1, b2⟩ := h97 (as ++ cs)
      have ih := ih hpre'
      rw [← List.append_assoc] at n1 hle ⊢
      have hfold : Spec.after c (as ++ cs ++ [a]) v0 = ((Spec.after c (as ++ cs) v0).step c a).1 := by
        unfold Spec.after
        rw [List.foldl_append]
        rfl
      rw [hfold] at n1 hle ⊢
      generalize Spec.after c (as ++ cs) v0 = w at *
      rcases envStep_command c a w with h | ⟨cmd, -, h⟩
      · rw [h] at hle ⊢
        exact ih hle
      · rw [h] at n1 hle ⊢
        rcases arenaStep_ball c.world cmd _ i g1.ball with ⟨e, -, hb⟩ | ⟨wd, -, hb, -⟩
        · rw [hb] at hle ⊢
          exact ih hle
        · rw [hb, Function.update_self, hE] at n1 hle ⊢
          exact day_step hcal g1.blend.1 g1.blend.2 cmd _ (by positivity) g2 hC0 b1 n0 n1 hd hle hss
            (fun τ q1 q2 => by rw [b2, ← hcen]; exact hhigh τ q1 q2) (ih ((step_clock (realSun cal) _ _ _ cmd _).1.trans hle))
  have := key bs (List.prefix_refl bs) (by rw [ht])
  rw [← ht] at this
  rcases this.free with f | ⟨f, -⟩
  · exact f
  · omega

/-- The hypotheses of C142 on clock and sun hold together: a place and an hour of high sun, with a paused layer whose clock
shows day. -/
example : ∃ lng, ∀ τ : ℤ, 1300000000 * 1000000 ≤ τ → τ ≤ 1300003600 * 1000000 → Spec.SunHigh lng τ ∧
    Spec.LayerDay { PowerLayer.new (1300020000 * 1000000) (1300010000 * 1000000) with paused := true } τ
      (1300010000 * 1000000) := by
  refine ⟨Real.pi - sunPhi 0 1300000000, fun τ h0 h1 => ⟨?_, 1300021800 * 1000000, ?_,
    show IsNext (1300010000 * 1000000) τ _ from isNext_self (by omega), by norm_num⟩⟩
  · set lng := Real.pi - sunPhi 0 1300000000 with hl
    have z0 : (1300000000 : ℝ) ≤ ((τ / 1000000 : ℤ) : ℝ) := by exact_mod_cast (by omega : (1300000000 : ℤ) ≤ τ / 1000000)
    have z1 : ((τ / 1000000 : ℤ) : ℝ) ≤ 1300003600 := by exact_mod_cast (by omega : τ / 1000000 ≤ (1300003600 : ℤ))
    unfold Spec.SunHigh
    generalize ((τ / 1000000 : ℤ) : ℝ) = σ at *
    have hpi4 := Real.pi_lt_d4
    have hn := sunPhi_near lng (σ := σ) (τ := 1300000000) ⟨by linarith, by linarith⟩ ⟨by norm_num, by norm_num⟩
      (by rw [abs_le]; constructor <;> linarith)
    have hp : sunPhi lng 1300000000 = Real.pi := by
      rw [hl]; unfold sunPhi; ring
    rw [hp] at hn
    have hx : |sunPhi lng σ - Real.pi| ≤ 0.28 := by
      have r0 : 0 ≤ 2 * Real.pi * ((σ - 1300000000) / 86400) := by
        have := Real.pi_pos
        have : 0 ≤ (σ - 1300000000) / 86400 := by apply div_nonneg <;> linarith
        positivity
      have r1 : 2 * Real.pi * ((σ - 1300000000) / 86400) ≤ 0.27 := by
        have : (σ - 1300000000) / 86400 ≤ 1 / 24 := by rw [div_le_div_iff₀ (by norm_num) (by norm_num)]; linarith
        have := mul_le_mul_of_nonneg_left this (by positivity : 0 ≤ 2 * Real.pi)
        norm_num at *; linarith
      generalize 2 * Real.pi * ((σ - 1300000000) / 86400) = r at *
      rw [abs_le] at hn ⊢
      constructor <;> norm_num at * <;> linarith
    have hc := Real.one_sub_sq_div_two_le_cos (x := sunPhi lng σ - Real.pi)
    rw [Real.cos_sub_pi] at hc
    have : (sunPhi lng σ - Real.pi) ^ 2 ≤ 0.28 ^ 2 := by
      rw [← sq_abs]; exact pow_le_pow_left₀ (abs_nonneg _) hx 2
    norm_num at *; linarith
  · have : ({ PowerLayer.new (1300020000 * 1000000) (1300010000 * 1000000) with paused := true } : PowerLayer).sunriseH =
        1300021800 * 1000000 := by norm_num [PowerLayer.new, powerHysteresis, usPerSec]
    rw [this]
    exact isNext_self (by omega)

/-- In the sunny world, whatever was flown before and whatever is flown then. -/
example (seed : ℤ) (v : Env (List ℕ) Unit Unit) : ∃ v0 o i, v.reset sunnyCfg (some seed) = (v0, .ok o) ∧
    v0.arena.ball = some i ∧ ∀ as bs : List ℤ, (as ++ bs).length ≤ 960 →
      (∀ cs s, cs <+: as ++ bs → s = (Spec.after sunnyCfg cs v0).arena.heap.balls i → Real.sqrt (s.x ^ 2 + s.y ^ 2) ≤ 350000) →
      ∀ s t ss, s = (Spec.after sunnyCfg as v0).arena.heap.balls i → t = (Spec.after sunnyCfg (as ++ bs) v0).arena.heap.balls i →
      Spec.LayerDay s.power s.dateTime ss → t.dateTime ≤ ss → s.dateTime + 48 * 60 * 1000000 ≤ t.dateTime →
      (∀ τ, s.dateTime ≤ τ → τ ≤ t.dateTime → Spec.SunHigh s.center.lng τ) → t.power.paused = false := by
  obtain ⟨v0, o, i, hr, hi, h⟩ := C142_pause_ends sunnyCfg sunnyWorld_draws true rfl gregorian gregorian_ok rfl good_static v
    (some seed)
  exact ⟨v0, o, i, hr, hi, fun as bs hl => h as bs (by omega)⟩

end BLE
