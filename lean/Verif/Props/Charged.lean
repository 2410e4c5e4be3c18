import Verif.Props.Decoupled
import Verif.Props.Safety
import Verif.Props.Balloon

/-!
# C157: more charge at the start never shortens a flight
-/

namespace BLE

/-- The second balloon differs from the first only in its battery, its power layer and its status, has at least as much charge, and
flies if the first does. -/
def Spec.BetterCharged (s s' : BState) : Prop :=
  s' = { s with charge := s'.charge, power := s'.power, status := s'.status } ∧ s.charge ≤ s'.charge ∧
    (s.status = .ok → s'.status = .ok)

/-- Given another battery charge, power layer and status. -/
def Spec.recharged (q : ℝ) (p : PowerLayer) (st : Status) (s : BState) : BState := { s with charge := q, power := p, status := st }

theorem betterCharged_recharged {s s' : BState} (h : Spec.BetterCharged s s') :
    s' = Spec.recharged s'.charge s'.power s'.status s := h.1

theorem substep_recharged (sun : Sun) (α u v : ℝ) (a : Command) (stride : ℤ) (s : BState) (q : ℝ) (p : PowerLayer) (st : Status) :
    substep sun α u v a stride (Spec.recharged q p st s) = (substep sun α u v a stride s).map fun t =>
      Spec.recharged (clip (q + (t.solarCharging - t.powerLoad) * hoursOf stride) 0 s.cap) p
        (newStatus st s.maxSp t.sp (clip (q + (t.solarCharging - t.powerLoad) * hoursOf stride) 0 s.cap)) t := by
  unfold substep
  have e0 : (Spec.recharged q p st s).latlng = s.latlng := rfl
  have e1 : newPressure α (Spec.recharged q p st s) stride = newPressure α s stride := rfl
  have e2 : acsEffect (Spec.recharged q p st s) a = acsEffect s a := by cases a <;> rfl
  rw [e0, e1, e2]
  simp only [bind, Except.bind]
  cases newPressure α s stride with
  | error e => rfl
  | ok p' =>
  simp only
  have e3 : (Spec.recharged q p st s).pressure = s.pressure := rfl
  have e4 : (Spec.recharged q p st s).dateTime = s.dateTime := rfl
  rw [e3, e4]
  cases atPressure α s.pressure with
  | error e => rfl
  | ok amb =>
  simp only
  have e5 : dTempDt (Spec.recharged q p st s).vol (Spec.recharged q p st s).envMass (Spec.recharged q p st s).intT
      (Spec.recharged q p st s).ambT s.pressure (sun s.latlng s.dateTime).el (sun s.latlng s.dateTime).flux
      (Spec.recharged q p st s).upwelling =
      dTempDt s.vol s.envMass s.intT s.ambT s.pressure (sun s.latlng s.dateTime).el (sun s.latlng s.dateTime).flux s.upwelling := rfl
  rw [e5]
  cases dTempDt s.vol s.envMass s.intT s.ambT s.pressure (sun s.latlng s.dateTime).el (sun s.latlng s.dateTime).flux s.upwelling with
  | error e => rfl
  | ok dT =>
  simp only
  split_ifs
  · cases solarPower (sun s.latlng s.dateTime).el s.pressure <;> rfl
  · rfl

theorem clip_gap (q q' x lo hi : ℝ) (h : q ≤ q') : clip (q + x) lo hi ≤ clip (q' + x) lo hi ∧
    clip (q' + x) lo hi - clip (q + x) lo hi ≤ q' - q := by
  unfold clip
  constructor
  · gcongr
  · rcases max_cases (q' + x) lo with ⟨e, _⟩ | ⟨e, _⟩ <;> rcases max_cases (q + x) lo with ⟨f, _⟩ | ⟨f, _⟩ <;> rw [e, f] <;>
      rcases min_cases (q + x) hi with ⟨g, _⟩ | ⟨g, _⟩ <;> rcases min_cases (q' + x) hi with ⟨k, _⟩ | ⟨k, _⟩ <;>
      rcases min_cases lo hi with ⟨m, _⟩ | ⟨m, _⟩ <;> simp only [g, k, m] <;> linarith

theorem newStatus_flying {old old' : Status} {m sp c c' : ℝ} (h : newStatus old m sp c = .ok) (ho : old = .ok → old' = .ok)
    (hc : c ≤ c') : newStatus old' m sp c' = .ok := by
  unfold newStatus at h ⊢
  simp only at h ⊢
  split_ifs at h with h1 h2 h3
  have h1' : ¬ c' ≤ 0 := by linarith
  simp only [if_neg h1', if_neg h2, if_neg h3]
  exact ho h

theorem substep_betterCharged (sun : Sun) (α u v : ℝ) (a : Command) (stride : ℤ) {s s' : BState} (h : Spec.BetterCharged s s') :
    (∀ e, substep sun α u v a stride s = .error e → substep sun α u v a stride s' = .error e) ∧
    ∀ t, substep sun α u v a stride s = .ok t → ∃ t', substep sun α u v a stride s' = .ok t' ∧ Spec.BetterCharged t t' ∧
      t'.charge - t.charge ≤ s'.charge - s.charge := by
  have hs := betterCharged_recharged h
  obtain ⟨_, h2, h3⟩ := h
  generalize s'.charge = q at *
  generalize s'.power = p at *
  generalize s'.status = st at *
  subst hs
  rw [substep_recharged]
  constructor
  · intro e he; rw [he]; rfl
  · intro t ht
    refine ⟨_, by rw [ht]; rfl, ?_⟩
    obtain ⟨_, _, _, _, _, _, _, _, e⟩ := substep_ok ht
    have hc : t.charge = clip (s.charge + (t.solarCharging - t.powerLoad) * hoursOf stride) 0 s.cap := by rw [e]
    have hst : t.status = newStatus s.status s.maxSp t.sp t.charge := by rw [e]
    obtain ⟨g1, g2⟩ := clip_gap s.charge q ((t.solarCharging - t.powerLoad) * hoursOf stride) 0 s.cap h2
    rw [← hc] at g1 g2
    refine ⟨⟨rfl, g1, fun ho => ?_⟩, g2⟩
    rw [hst] at ho
    exact newStatus_flying ho h3 g1

theorem substepLoop_betterCharged (sun : Sun) (α u v : ℝ) (a : Command) (stride : ℤ) (n : ℕ) {s s' : BState}
    (h : Spec.BetterCharged s s') (hok : (substepLoop (substep sun α u v a stride) n s).1.status = .ok) :
    Spec.BetterCharged (substepLoop (substep sun α u v a stride) n s).1 (substepLoop (substep sun α u v a stride) n s').1 ∧
    (substepLoop (substep sun α u v a stride) n s').1.charge - (substepLoop (substep sun α u v a stride) n s).1.charge ≤
      s'.charge - s.charge ∧
    (substepLoop (substep sun α u v a stride) n s').2 = (substepLoop (substep sun α u v a stride) n s).2 := by
  induction n generalizing s s' with
  | zero => exact ⟨h, le_refl _, rfl⟩
  | succ n ih =>
    obtain ⟨k1, k2⟩ := substep_betterCharged sun α u v a stride h
    unfold substepLoop at hok ⊢
    cases e : substep sun α u v a stride s with
    | error er => rw [k1 er e]; exact ⟨h, le_refl _, rfl⟩
    | ok t =>
      obtain ⟨t', e', ht, hg⟩ := k2 t e
      rw [e] at hok
      rw [e']
      simp only at hok ⊢
      by_cases hst : t.status = .ok
      · have hst' := ht.2.2 hst
        simp only [hst, hst', ne_eq, not_true_eq_false, if_false] at hok ⊢
        obtain ⟨i1, i2, i3⟩ := ih ht hok
        exact ⟨i1, by linarith, i3⟩
      · simp only [ne_eq, hst, not_false_eq_true, if_true] at hok

/-- The power layer does not change a command other than a descent. -/
theorem power_harmless (L : PowerLayer) (a : Command) (now : ℤ) (night charge cap : ℝ) (hcap : cap ≠ 0) (ha : a ≠ .down) :
    (L.getAction a now night charge cap).2 = .ok a := by
  obtain ⟨h1, h2⟩ := C04_power_only_weakens L a now night charge cap
  cases e : (L.getAction a now night charge cap).2 with
  | error er => exact absurd (h2 er e).1 hcap
  | ok b => rw [h1 b e, if_neg (by rintro ⟨-, h⟩; exact ha h)]

theorem safetyChain_recharged (α : ℝ) (s : BState) (a : Command) (hcap : s.cap ≠ 0) (ha : a ≠ .down ∨ s.powerEnabled = false)
    (q : ℝ) (p : PowerLayer) (st : Status) : ∃ p', safetyChain α (Spec.recharged q p st s) a =
      (Spec.recharged q p' st (safetyChain α s a).1, (safetyChain α s a).2) ∧
      (safetyChain α s a).1.charge = s.charge ∧ (safetyChain α s a).1.status = s.status := by
  unfold safetyChain
  have e : (Spec.recharged q p st s).powerEnabled = s.powerEnabled := rfl
  by_cases hpe : s.powerEnabled = true
  · have ha' : a ≠ .down := by
      rcases ha with h | h
      · exact h
      · rw [hpe] at h; cases h
    simp only [e, hpe, if_true]
    simp only [Spec.recharged]
    have k1 := power_harmless s.power a s.dateTime s.nightLoad s.charge s.cap hcap ha'
    have k2 := power_harmless p a s.dateTime s.nightLoad q s.cap hcap ha'
    generalize s.power.getAction a s.dateTime s.nightLoad s.charge s.cap = pr at k1
    generalize p.getAction a s.dateTime s.nightLoad q s.cap = pr' at k2
    rcases pr with ⟨pw, r⟩
    rcases pr' with ⟨pw', r'⟩
    simp only at k1 k2
    subst k1 k2
    refine ⟨pw', ?_⟩
    simp only
    cases atPressure α s.pressure <;> exact ⟨rfl, rfl, rfl⟩
  · have hpe : s.powerEnabled = false := by simpa using hpe
    simp only [e, hpe, Bool.false_eq_true, if_false]
    simp only [Spec.recharged]
    refine ⟨p, ?_⟩
    cases atPressure α s.pressure <;> exact ⟨rfl, rfl, rfl⟩

theorem simulateStep_betterCharged (sun : Sun) (α u v : ℝ) (a : Command) (td stride : ℤ) {s s' : BState}
    (h : Spec.BetterCharged s s') (hcap : s.cap ≠ 0) (ha : a ≠ .down ∨ s.powerEnabled = false)
    (hok : (simulateStep sun α u v a td stride s).1.status = .ok) :
    s.status = .ok ∧
    Spec.BetterCharged (simulateStep sun α u v a td stride s).1 (simulateStep sun α u v a td stride s').1 ∧
    (simulateStep sun α u v a td stride s').1.charge - (simulateStep sun α u v a td stride s).1.charge ≤ s'.charge - s.charge ∧
    (simulateStep sun α u v a td stride s').2 = (simulateStep sun α u v a td stride s).2 := by
  have hs : s.status = .ok := by
    by_contra hn
    unfold simulateStep at hok
    simp only [ne_eq, hn, not_false_eq_true, if_true] at hok
  refine ⟨hs, ?_⟩
  have hs' := h.2.2 hs
  have er := betterCharged_recharged h
  unfold simulateStep at hok ⊢
  have n1 : ¬ s.status ≠ .ok := not_not.2 hs
  have n2 : ¬ s'.status ≠ .ok := not_not.2 hs'
  simp only [if_neg n1] at hok
  simp only [if_neg n1, if_neg n2]
  have e1 : ({ s' with lastCommand := a } : BState) = Spec.recharged s'.charge s'.power s'.status { s with lastCommand := a } := by
    conv_lhs => rw [er]
    rfl
  obtain ⟨p', k1, k2, k3⟩ := safetyChain_recharged α { s with lastCommand := a } a hcap ha s'.charge s'.power s'.status
  rw [e1, k1]
  have hb : Spec.BetterCharged (safetyChain α { s with lastCommand := a } a).1
      (Spec.recharged s'.charge p' s'.status (safetyChain α { s with lastCommand := a } a).1) :=
    ⟨rfl, by rw [k2]; exact h.2.1, fun _ => hs'⟩
  have hg : (Spec.recharged s'.charge p' s'.status (safetyChain α { s with lastCommand := a } a).1).charge -
      (safetyChain α { s with lastCommand := a } a).1.charge ≤ s'.charge - s.charge := by rw [k2]; exact le_refl _
  generalize safetyChain α { s with lastCommand := a } a = sc at *
  rcases sc with ⟨s1, e | eff⟩
  · exact ⟨hb, hg, rfl⟩
  · simp only at *
    split_ifs at hok ⊢
    · exact ⟨hb, hg, rfl⟩
    · exact ⟨hb, hg, rfl⟩
    · obtain ⟨i1, i2, i3⟩ := substepLoop_betterCharged sun α u v eff stride _ hb hok
      exact ⟨i1, by linarith, i3⟩

theorem simulateStep_keeps_battery (sun : Sun) (α u v : ℝ) (a : Command) (td stride : ℤ) (s : BState) :
    (simulateStep sun α u v a td stride s).1.cap = s.cap ∧ (simulateStep sun α u v a td stride s).1.powerEnabled = s.powerEnabled := by
  have hl : ∀ (eff : Command) (n : ℕ) (s : BState), (substepLoop (substep sun α u v eff stride) n s).1.cap = s.cap ∧
      (substepLoop (substep sun α u v eff stride) n s).1.powerEnabled = s.powerEnabled := by
    intro eff n
    induction n with
    | zero => intro s; exact ⟨rfl, rfl⟩
    | succ n ih =>
      intro s
      unfold substepLoop
      cases e : substep sun α u v eff stride s with
      | error er => exact ⟨rfl, rfl⟩
      | ok t =>
        obtain ⟨_, _, _, _, _, _, _, _, et⟩ := substep_ok e
        have h1 : t.cap = s.cap ∧ t.powerEnabled = s.powerEnabled := by rw [et]; exact ⟨rfl, rfl⟩
        simp only
        split_ifs
        · exact h1
        · exact ⟨(ih t).1.trans h1.1, (ih t).2.trans h1.2⟩
  have hsc : (safetyChain α { s with lastCommand := a } a).1.cap = s.cap ∧
      (safetyChain α { s with lastCommand := a } a).1.powerEnabled = s.powerEnabled := by
    unfold safetyChain
    simp only
    generalize (if s.powerEnabled = true then s.power.getAction a s.dateTime s.nightLoad s.charge s.cap
      else (s.power, .ok a)) = pr
    rcases pr with ⟨pw, e | a1⟩
    · exact ⟨rfl, rfl⟩
    · simp only
      cases atPressure α s.pressure <;> exact ⟨rfl, rfl⟩
  unfold simulateStep
  simp only
  by_cases h : s.status ≠ .ok
  · simp only [if_pos h]; exact ⟨trivial, trivial⟩
  · simp only [if_neg h]
    generalize safetyChain α { s with lastCommand := a } a = sc at *
    rcases sc with ⟨s1, e | eff⟩
    · exact hsc
    · simp only
      split_ifs
      · exact hsc
      · exact hsc
      · exact ⟨(hl eff _ s1).1.trans hsc.1, (hl eff _ s1).2.trans hsc.2⟩

/-- C157. Of two balloons alike except that the second starts with more charge (and whatever its power layer remembers), sent through
the same calls, none of which asks to descend unless the power layer is off: as long as the first flies the second flies too, in the same
place, at the same pressure and temperature, with no less charge, and the lead in charge never grows. -/
theorem C157_more_charge (sun : Sun) (α : ℝ) (s s' : BState) (h : Spec.BetterCharged s s') (hcap : s.cap ≠ 0) (calls : List StepCall)
    (hc : (∀ c ∈ calls, c.action ≠ .down) ∨ s.powerEnabled = false) (hok : (simulateMany sun α s calls).status = .ok) :
    Spec.BetterCharged (simulateMany sun α s calls) (simulateMany sun α s' calls) ∧
      (simulateMany sun α s' calls).status = .ok ∧
      (simulateMany sun α s' calls).charge - (simulateMany sun α s calls).charge ≤ s'.charge - s.charge := by
  have stuck : ∀ (calls : List StepCall) (s : BState), (simulateMany sun α s calls).status = .ok → s.status = .ok := by
    intro calls
    induction calls with
    | nil => intro s h; exact h
    | cons c calls ih =>
      intro s h
      have h1 := ih _ h
      simp only at h1
      by_contra hn
      unfold simulateStep at h1
      simp only [ne_eq, hn, not_false_eq_true, if_true] at h1
  have main : Spec.BetterCharged (simulateMany sun α s calls) (simulateMany sun α s' calls) ∧
      (simulateMany sun α s' calls).charge - (simulateMany sun α s calls).charge ≤ s'.charge - s.charge := by
    induction calls generalizing s s' with
    | nil => exact ⟨h, le_refl _⟩
    | cons c calls ih =>
      have h1 := stuck calls _ hok
      have ha : c.action ≠ .down ∨ s.powerEnabled = false := hc.imp_left fun h => h c List.mem_cons_self
      obtain ⟨-, i1, i2, -⟩ := simulateStep_betterCharged sun α c.u c.v c.action c.timeDelta c.stride h hcap ha h1
      obtain ⟨b1, b2⟩ := simulateStep_keeps_battery sun α c.u c.v c.action c.timeDelta c.stride s
      obtain ⟨j1, j2⟩ := ih _ _ i1 (by rw [b1]; exact hcap)
        (by rw [b2]; exact hc.imp_left fun h c' hc' => h c' (List.mem_cons_of_mem _ hc')) hok
      exact ⟨j1, le_trans j2 i2⟩
  exact ⟨main.1, main.1.2.2 hok, main.2⟩

/-- The demonstration balloon flies on after a night step; so does one with 100 Wh more, which is at most 100 Wh ahead afterwards. -/
example : (simulateMany nightSun 0 { demo with charge := demo.charge + 100 } [⟨3, 4, .up, 10 * usPerSec, 10 * usPerSec⟩]).status = .ok ∧
    (simulateMany nightSun 0 { demo with charge := demo.charge + 100 } [⟨3, 4, .up, 10 * usPerSec, 10 * usPerSec⟩]).charge -
      (simulateMany nightSun 0 demo [⟨3, 4, .up, 10 * usPerSec, 10 * usPerSec⟩]).charge ≤ 100 := by
  obtain ⟨t, e, h⟩ := demo_step .up
  have hok : (simulateMany nightSun 0 demo [⟨3, 4, .up, 10 * usPerSec, 10 * usPerSec⟩]).status = .ok := by
    show (simulateStep nightSun 0 3 4 .up (10 * usPerSec) (10 * usPerSec) demo).1.status = .ok
    rw [e]; simp_all
  have h := C157_more_charge nightSun 0 demo { demo with charge := demo.charge + 100 } ⟨rfl, by simp, fun h => h⟩
    (by norm_num [demo]) [⟨3, 4, .up, 10 * usPerSec, 10 * usPerSec⟩] (.inl (by simp)) hok
  refine ⟨h.2.1, h.2.2.trans ?_⟩
  simp

theorem demo_descent (q : ℝ) (hq : 1000 ≤ q) (hq' : q ≤ 2000) : ∃ t w,
    simulateStep nightSun 0 3 4 .down (10 * usPerSec) (10 * usPerSec) { demo with charge := q } = (t, .ok ()) ∧ t.status = .ok ∧
    t.charge = q - (183.7 + w) / 360 ∧ (q < 1270.514 → w = 0) ∧ (1270.514 ≤ q → 100 ≤ w) := by
  obtain ⟨v, hv⟩ := atPressure_in (α := 0) (p := demo.pressure) (by norm_num) (by norm_num)
    (by norm_num [demo]) (by norm_num [demo])
  have hh := high_above_restart (α := 0) (by norm_num) (by norm_num) hv (by norm_num [demo])
  have hc : catchUp 0 (6 * 3600 * usPerSec + powerHysteresis) = 6 * 3600 * usPerSec + powerHysteresis := by
    rw [catchUp, if_neg (by decide)]
  have hc2 : catchUp 0 (18 * 3600 * usPerSec) = 18 * 3600 * usPerSec := by
    rw [catchUp, if_neg (by decide)]
  have hpl : ∃ pl a, demo.power.getAction .down 0 demo.nightLoad q demo.cap = (pl, .ok a) ∧ (q < 1270.514 → a = .stay) ∧
      (1270.514 ≤ q → a = .down) := by
    unfold PowerLayer.getAction
    simp only [demo, PowerLayer.new, hc, hc2]
    rw [if_neg (by decide), if_neg (by decide), pyDiv_ok (by norm_num)]
    simp only
    have hiff : (q - 183.7 * hoursOf (6 * 3600 * usPerSec + powerHysteresis - 0)) / 3058.56 < 0.025 ↔ q < 1270.514 := by
      rw [div_lt_iff₀ (by norm_num)]
      have : hoursOf (6 * 3600 * usPerSec + powerHysteresis - 0) = 6.5 := by norm_num [hoursOf, totalSeconds, usPerSec, powerHysteresis]
      rw [this]
      constructor <;> intro h <;> linarith
    by_cases h : q < 1270.514
    · rw [if_pos (hiff.2 h)]
      exact ⟨_, .stay, rfl, fun _ => rfl, fun h' => absurd h (not_lt.2 h')⟩
    · rw [if_neg (fun h' => h (hiff.1 h'))]
      exact ⟨_, .down, rfl, fun h' => absurd h' h, fun _ => rfl⟩
  obtain ⟨pl, a, hpl, ha1, ha2⟩ := hpl
  have hsp : spTrigger demo.env.maxSp demo.sp = .nominal := by
    norm_num [spTrigger, demo, EnvLayer.new]
  have halt : altTrigger v.height = .nominal := by
    unfold altTrigger
    rw [if_neg, if_neg, if_neg] <;> rw [not_lt] <;> norm_num [minAltitude, altBuffer, altHysteresis] <;>
      norm_num at hh <;> linarith
  have henv : (demo.env.getAction a demo.sp).2 = a := by
    unfold EnvLayer.getAction
    rw [hsp]
    have hes : demo.env.state = .nominal := rfl
    rw [hes]
    simp [spTransition]
  have halt' : (altGetAction demo.alt a v.height).2 = a := by
    unfold altGetAction
    rw [halt]
    have hes : demo.alt = .nominal := rfl
    rw [hes]
    simp [altTransition]
  have hchain : ∃ p e l, safetyChain 0 { demo with charge := q, lastCommand := .down } .down =
      ({ demo with charge := q, lastCommand := .down, power := p, env := e, alt := l }, .ok a) := by
    unfold safetyChain
    have hpe : demo.powerEnabled = true := rfl
    have hd : demo.dateTime = 0 := rfl
    simp only [hpe, if_true, hd, hpl, hv, henv, halt']
    exact ⟨_, _, _, rfl⟩
  obtain ⟨p, e, l, hchain⟩ := hchain
  obtain ⟨t, ht⟩ := substep_no_error (s := { demo with charge := q, lastCommand := .down, power := p, env := e, alt := l })
    (sun := nightSun) (α := 0) (by norm_num) (by norm_num) 3 4 a (10 * usPerSec) (by norm_num [demo]) (by norm_num [demo])
    (by norm_num [demo]) (by norm_num [demo]) (by norm_num [demo]) (by norm_num [demo])
    (by norm_num [demo]) (by norm_num [demo]) (by norm_num [demo]) (by norm_num [demo]) nightSun_el
  obtain ⟨p', amb, dT, solar, _, _, _, hsol, et⟩ := substep_ok ht
  have hnight : ∀ l t, ¬ (nightSun l t).el > minSolarEl := by
    intro l t; norm_num [nightSun, minSolarEl]
  rw [if_neg (hnight _ _)] at hsol
  simp only [if_neg (hnight _ _), hsol] at et
  obtain ⟨w, hw⟩ : ∃ w, w = (acsEffect { demo with charge := q, lastCommand := .down, power := p, env := e, alt := l } a).1 := ⟨_, rfl⟩
  have hw1 : a = .stay → w = 0 := by rintro rfl; rw [hw]; rfl
  have hwd : a = .down → 100 ≤ w ∧ w ≤ 400 := by
    rintro rfl; rw [hw]; exact mostEfficientPower_bounds _
  have hw2 : 0 ≤ w ∧ w ≤ 400 := by
    by_cases h : q < 1270.514
    · rw [hw1 (ha1 h)]; norm_num
    · have := hwd (ha2 (not_lt.1 h)); exact ⟨by linarith, this.2⟩
  have hh' : hoursOf (10 * usPerSec) = 1 / 360 := by norm_num [hoursOf, totalSeconds, usPerSec]
  have hcl : clip (q + (0 - (183.7 + w)) * hoursOf (10 * usPerSec)) 0 3058.56 = q - (183.7 + w) / 360 := by
    unfold clip
    rw [hh', max_eq_left (by linarith), min_eq_left (by linarith)]
    ring
  have hch : t.charge = q - (183.7 + w) / 360 := by
    rw [et]
    simp only
    rw [← hw]
    exact hcl
  refine ⟨t, w, ?_, ?_, hch, fun h => hw1 (ha1 h), fun h => (hwd (ha2 h)).1⟩
  · rw [simulateStep_unfold rfl]
    simp only
    rw [hchain]
    have e2 : Int.tdiv (10 * usPerSec) usPerSec = 10 := by decide
    simp only [e2]
    rw [if_neg (by decide), if_neg (by decide)]
    have e3 : (Int.fdiv 10 10).toNat = 1 := by decide
    rw [e3]
    unfold substepLoop
    rw [ht]
    simp only
    split_ifs <;> rfl
  · have hst : t.status = newStatus .ok 2380 (superpressureAndVolume demo.molsLift demo.molsAir demo.intT demo.pressure demo.volBase
        demo.dvdp).2 t.charge := by rw [et]; rfl
    obtain ⟨_, h2, h3⟩ := sp_range (nL := demo.molsLift) (nA := demo.molsAir) (t := demo.intT)
      (p := demo.pressure) (v0 := demo.volBase) (dv := demo.dvdp) (by norm_num [demo]) (by norm_num [demo])
      (by norm_num [demo]) (by norm_num [demo]) (by norm_num [demo]) (by norm_num [demo])
    have h4 : (superpressureAndVolume demo.molsLift demo.molsAir demo.intT demo.pressure demo.volBase
        demo.dvdp).2 < 2380 := lt_of_le_of_lt h2 (by norm_num [demo])
    rw [hst]
    unfold newStatus
    simp only
    rw [if_neg, if_neg (not_le.2 h3), if_neg (not_lt.2 h4.le)]
    rw [hch, not_le]
    linarith [hw2.2]

/-- C157. The restriction on descents cannot be dropped: with the power layer on there are two balloons alike except that the second has
more charge, both of which fly on after a step in which descending is requested, the second then with less charge than the first. -/
theorem C157_descents : ∃ (sun : Sun) (s s' : BState) (c : StepCall), Spec.BetterCharged s s' ∧ s.charge < s'.charge ∧ s.cap ≠ 0 ∧
    (simulateMany sun 0 s [c]).status = .ok ∧ (simulateMany sun 0 s' [c]).status = .ok ∧
    (simulateMany sun 0 s' [c]).charge < (simulateMany sun 0 s [c]).charge := by
  obtain ⟨t, w, e1, e2, e3, e4, -⟩ := demo_descent 1270.51 (by norm_num) (by norm_num)
  obtain ⟨t', w', f1, f2, f3, -, f5⟩ := demo_descent 1270.52 (by norm_num) (by norm_num)
  have hw := e4 (by norm_num)
  have hw' := f5 (by norm_num)
  refine ⟨nightSun, { demo with charge := 1270.51 }, { demo with charge := 1270.52 }, ⟨3, 4, .down, 10 * usPerSec, 10 * usPerSec⟩,
    ⟨rfl, by norm_num, fun h => h⟩, by norm_num, by norm_num [demo], ?_, ?_, ?_⟩
  · show (simulateStep nightSun 0 3 4 .down (10 * usPerSec) (10 * usPerSec) { demo with charge := 1270.51 }).1.status = .ok
    rw [e1]; exact e2
  · show (simulateStep nightSun 0 3 4 .down (10 * usPerSec) (10 * usPerSec) { demo with charge := 1270.52 }).1.status = .ok
    rw [f1]; exact f2
  · show (simulateStep nightSun 0 3 4 .down (10 * usPerSec) (10 * usPerSec) { demo with charge := 1270.52 }).1.charge <
      (simulateStep nightSun 0 3 4 .down (10 * usPerSec) (10 * usPerSec) { demo with charge := 1270.51 }).1.charge
    rw [e1, f1]
    simp only
    rw [e3, f3, hw]
    linarith

end BLE
