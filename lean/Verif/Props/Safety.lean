import Verif.Lemmas.Safety

/-!
# C01–C06: the safety layers, for every history of calls
-/

namespace BLE
open Spec

/-! ## C01 — critical superpressure forces an ascent -/

/-- C01. After any history of calls, a reading below 150 Pa or within 150 Pa of the maximum (or
above it) makes the layer answer UP, whatever was requested (envelopes rated for at least 450 Pa). -/
theorem C01_critical_forces_up (maxSp : ℝ) (hm : 450 ≤ maxSp) (calls : List (Command × ℝ))
    (a : Command) (sp : ℝ) (h : sp < 150 ∨ maxSp - 150 ≤ sp) :
    ((EnvLayer.run maxSp calls).getAction a sp).2 = .up := by
  unfold EnvLayer.getAction
  rw [EnvLayer.run_maxSp]
  have ht : spTrigger maxSp sp = .lowCritical ∨ spTrigger maxSp sp = .highCritical := by
    unfold spTrigger
    rcases h with h | h
    · left; rw [if_pos h]
    · right
      rw [if_neg, if_neg, if_neg, if_neg, if_neg, if_neg] <;> linarith
  rcases ht with ht | ht <;> simp [ht, spTransition]

example : ((EnvLayer.run 2380 [(.down, 100), (.down, 1000), (.down, 2300)]).getAction .down 2230).2 = .up :=
  C01_critical_forces_up 2380 (by norm_num) _ _ _ (by norm_num)

/-- C01, both directions: from any reachable state the layer turns a request that is not UP into UP
exactly at the critical readings. -/
theorem C01_up_only_when_critical (maxSp : ℝ) (hm : 450 ≤ maxSp) (calls : List (Command × ℝ))
    (a : Command) (ha : a ≠ .up) (sp : ℝ) :
    ((EnvLayer.run maxSp calls).getAction a sp).2 = .up ↔ (sp < 150 ∨ maxSp - 150 ≤ sp) := by
  refine ⟨fun h => ?_, C01_critical_forces_up maxSp hm calls a sp⟩
  by_contra hn
  push Not at hn
  unfold EnvLayer.getAction at h
  rw [EnvLayer.run_maxSp] at h
  generalize (EnvLayer.run maxSp calls).state = s at h
  have ht : spTrigger maxSp sp ≠ .lowCritical ∧ spTrigger maxSp sp ≠ .highCritical := by
    unfold spTrigger
    constructor <;> (split_ifs <;> first | (intro hh; cases hh; done) | linarith | skip)
  revert h ht
  generalize spTrigger maxSp sp = t
  cases t <;> cases s <;> cases a <;> simp [spTransition] at *

example : ((EnvLayer.run 2380 [(.down, 100), (.down, 1000)]).getAction .stay 500).2 ≠ .up := by
  rw [Ne, C01_up_only_when_critical 2380 (by norm_num) _ _ (by decide)]; norm_num

/-- The 450 Pa hypothesis is needed: for a weaker envelope the guards overlap and the low-side test
wins, so a reading above the maximum may only block descent. -/
theorem C01_needs_strong_envelope :
    ¬ ∀ (maxSp : ℝ) (calls : List (Command × ℝ)) (a : Command) (sp : ℝ),
      (sp < 150 ∨ maxSp - 150 ≤ sp) → ((EnvLayer.run maxSp calls).getAction a sp).2 = .up := by
  intro h
  have := h 100 [] .down 200 (by norm_num)
  norm_num [EnvLayer.run, EnvLayer.new, EnvLayer.getAction, spTrigger, spTransition] at this
  simp at this

/-! ## C02 — envelope hysteresis -/

/-- C02 (pause). Navigation is reported paused exactly when the history of readings is unsafe. -/
theorem C02_paused_iff_unsafe (maxSp : ℝ) (hm : 600 ≤ maxSp) (calls : List (Command × ℝ)) :
    (EnvLayer.run maxSp calls).paused = true ↔ EnvelopeUnsafe maxSp (calls.map Prod.snd) := by
  obtain ⟨hl, hh⟩ := env_state_history maxSp hm calls
  unfold EnvelopeUnsafe
  rw [← hl, ← hh]
  unfold EnvLayer.paused
  cases (EnvLayer.run maxSp calls).state <;> simp

/-- C02 (effect). After the call, while unsafe the answer is never DOWN (UP at critical readings,
otherwise DOWN weakened to STAY), and while safe the request passes through unchanged. -/
theorem C02_effect (maxSp : ℝ) (hm : 600 ≤ maxSp) (calls : List (Command × ℝ)) (a : Command) (sp : ℝ) :
    let out := ((EnvLayer.run maxSp calls).getAction a sp).2
    let readings := calls.map Prod.snd ++ [sp]
    (¬ EnvelopeUnsafe maxSp readings → out = a) ∧
    (EnvelopeUnsafe maxSp readings → sp < 150 ∨ maxSp - 150 ≤ sp → out = .up) ∧
    (EnvelopeUnsafe maxSp readings → ¬ (sp < 150 ∨ maxSp - 150 ≤ sp) →
      out = if a = .down then .stay else a) := by
  intro out readings
  have hp := C02_paused_iff_unsafe maxSp hm (calls ++ [(a, sp)])
  have hr : (calls ++ [(a, sp)]).map Prod.snd = readings := by simp [readings]
  rw [hr] at hp
  rw [← hp]
  refine ⟨?_, ?_, ?_⟩
  · intro hn
    rw [EnvLayer.run_snoc] at hn
    simp only [EnvLayer.paused, EnvLayer.getAction_state, decide_eq_true_eq, ne_eq, not_not] at hn
    simp only [out, EnvLayer.getAction, hn]
    simp
  · intro _ hc
    exact C01_critical_forces_up maxSp (by linarith) calls a sp hc
  · intro hpd hc
    have hnu := mt (C01_up_only_when_critical maxSp (by linarith) calls .stay (by decide) sp).1 hc
    rw [EnvLayer.run_snoc] at hpd
    simp only [EnvLayer.paused, EnvLayer.getAction_state, decide_eq_true_eq, ne_eq] at hpd
    simp only [EnvLayer.getAction] at hnu
    simp only [out, EnvLayer.getAction]
    generalize spTransition (spTrigger (EnvLayer.run maxSp calls).maxSp sp)
      (EnvLayer.run maxSp calls).state = s at *
    cases s <;> cases a <;> simp_all

/-- Immediate consequence: a reading below 250 Pa or at/above `max - 250` blocks descent now. -/
theorem C02_no_descent_near_limits (maxSp : ℝ) (hm : 600 ≤ maxSp) (calls : List (Command × ℝ))
    (a : Command) (sp : ℝ) (h : sp < 250 ∨ maxSp - 250 ≤ sp) :
    ((EnvLayer.run maxSp calls).getAction a sp).2 ≠ .down := by
  have hu : EnvelopeUnsafe maxSp (calls.map Prod.snd ++ [sp]) := by
    rcases h with h | h
    · exact Or.inl ⟨sp, (mro_snoc_out (by rintro ⟨h1, _⟩; linarith)).2 rfl, h⟩
    · exact Or.inr ⟨sp, (mro_snoc_out (by rintro ⟨_, h1⟩; linarith)).2 rfl, h⟩
  obtain ⟨_, h2, h3⟩ := C02_effect maxSp hm calls a sp
  by_cases hc : sp < 150 ∨ maxSp - 150 ≤ sp
  · rw [h2 hu hc]; decide
  · rw [h3 hu hc]; cases a <;> decide

/-- Non-vacuity: 240 then 260 (inside the band) is still paused; 240 then 310 is not. -/
example : (EnvLayer.run 2380 [(.down, 240), (.down, 260)]).paused = true ∧
    (EnvLayer.run 2380 [(.down, 240), (.down, 310), (.down, 260)]).paused = false := by
  constructor
  · rw [C02_paused_iff_unsafe _ (by norm_num)]
    exact Or.inl ⟨240, ⟨[], [260], by simp, by norm_num, by norm_num⟩, by norm_num⟩
  · rw [← Bool.not_eq_true, C02_paused_iff_unsafe _ (by norm_num)]
    simp only [EnvelopeUnsafe, List.map]
    push Not
    simp only [show [(240 : ℝ), 310, 260] = [240, 310] ++ [260] from rfl, show [(240:ℝ), 310] = [240] ++ [310] from rfl]
    constructor
    · intro x hx
      rw [mro_snoc_in (by norm_num), mro_snoc_out (by norm_num)] at hx
      rw [hx]; norm_num
    · intro x hx
      rw [mro_snoc_out (by norm_num)] at hx
      rw [hx]; norm_num

/-! ## C03 — altitude floor -/

/-- C03 (pause). -/
theorem C03_paused_iff_too_low (calls : List (Command × ℝ)) :
    (AltState.run calls).paused = true ↔ TooLow (calls.map Prod.snd) := by
  unfold TooLow
  rw [← alt_state_history]
  simp [AltState.paused]

/-- C03 (effect). Below 50,000 ft the answer is UP; above, while too low DOWN is weakened to STAY;
otherwise the request passes through. -/
theorem C03_effect (calls : List (Command × ℝ)) (a : Command) (alt : ℝ) :
    let out := (altGetAction (AltState.run calls) a alt).2
    let alts := calls.map Prod.snd ++ [alt]
    (alt < 50000 * 0.3048 → out = .up) ∧
    (¬ alt < 50000 * 0.3048 → TooLow alts → out = if a = .down then .stay else a) ∧
    (¬ TooLow alts → out = a) := by
  intro out alts
  have hp := C03_paused_iff_too_low (calls ++ [(a, alt)])
  have hr : (calls ++ [(a, alt)]).map Prod.snd = alts := by simp [alts]
  rw [hr, AltState.run_snoc] at hp
  simp only [AltState.paused, altGetAction_state, decide_eq_true_eq, ne_eq] at hp
  have hv : altTrigger alt = .veryLow ↔ alt < 50000 * 0.3048 := by
    unfold altTrigger
    rw [minAltitude_eq, altBuffer_eq, altHysteresis_eq]
    split_ifs <;> simp <;> linarith
  rw [← hp, ← hv]
  simp only [out, altGetAction]
  generalize AltState.run calls = s
  generalize altTrigger alt = t
  cases t <;> cases s <;> cases a <;> simp [altTransition]

/-- C03: never DOWN below 50,500 ft, for every history. -/
theorem C03_no_descent_below_buffer (calls : List (Command × ℝ)) (a : Command) (alt : ℝ)
    (h : alt < 50500 * 0.3048) : (altGetAction (AltState.run calls) a alt).2 ≠ .down := by
  have hu : TooLow (calls.map Prod.snd ++ [alt]) :=
    ⟨alt, (mro_snoc_out (by rintro ⟨h1, _⟩; linarith)).2 rfl, h⟩
  obtain ⟨h1, h2, _⟩ := C03_effect calls a alt
  by_cases hc : alt < 50000 * 0.3048
  · rw [h1 hc]; decide
  · rw [h2 hc hu]; cases a <;> decide

/-- Non-vacuity: after dipping to 15,300 m the layer still blocks at 15,450 m but not at 15,600 m. -/
example : (altGetAction (AltState.run [(.down, 15300)]) .down 15450).2 = .stay ∧
    (altGetAction (AltState.run [(.down, 15300)]) .down 15600).2 = .down ∧
    (altGetAction (AltState.run [(.down, 15800)]) .down 15450).2 = .down := by
  have h1 : altTrigger 15300 = .low := by norm_num [altTrigger, minAltitude, altBuffer, altHysteresis]
  have h2 : altTrigger 15450 = .lowNominal := by
    norm_num [altTrigger, minAltitude, altBuffer, altHysteresis]
  have h3 : altTrigger 15600 = .nominal := by norm_num [altTrigger, minAltitude, altBuffer, altHysteresis]
  have h4 : altTrigger 15800 = .nominal := by norm_num [altTrigger, minAltitude, altBuffer, altHysteresis]
  simp [AltState.run, altGetAction, h1, h2, h3, h4, altTransition]

/-! ## C04 — the power layer only weakens DOWN to STAY -/

/-- C04. From any layer state, a successful call returns the request or STAY for DOWN, and it
replaces DOWN exactly when the layer is paused afterwards. It fails only for a zero capacity. -/
theorem C04_power_only_weakens (L : PowerLayer) (a : Command) (now : ℤ) (night charge cap : ℝ) :
    let r := L.getAction a now night charge cap
    (∀ b, r.2 = .ok b → b = if r.1.paused = true ∧ a = .down then .stay else a) ∧
    (∀ e, r.2 = .error e → cap = 0 ∧ e = .zeroDivision) := by
  intro r
  simp only [r, PowerLayer.getAction, pyDiv]
  constructor
  · intro b
    split_ifs <;> simp_all [pausedAction] <;> (try split_ifs) <;> simp_all
  · intro e
    split_ifs <;> simp_all <;> (split_ifs <;> simp)

example : ((PowerLayer.new 1000 500).getAction .down 0 183.7 10 3000).2 = .ok .down ∧
    ((PowerLayer.new 1000 (10^10)).getAction .down 0 183.7 10 3000).2 = .ok .stay := by
  constructor
  · simp only [PowerLayer.getAction, PowerLayer.new]
    unfold catchUp
    norm_num [powerHysteresis, usPerSec, pyDiv]
  · simp only [PowerLayer.getAction, PowerLayer.new]
    unfold catchUp
    norm_num [powerHysteresis, usPerSec, pyDiv, hoursOf, totalSeconds, pausedAction]

/-! ## C06 — the sunrise/sunset clock -/

/-- C06. For any sequence of calls with non-decreasing times, whatever their other arguments, the
stored sunrise (plus 30 minutes) and sunset after the last call are the earliest whole-day
translates of the original ones that are not before the time of the last call — so they do not
depend on which intermediate times were queried. (Termination of the `while` loops is the
acceptance of the well-founded recursion `catchUp`.) -/
theorem C06_clock (sunrise sunset : ℤ) (calls : List PowerCall) (c : PowerCall)
    (hmono : (calls ++ [c]).Pairwise (fun a b => a.now ≤ b.now)) :
    let L := (PowerLayer.new sunrise sunset).run (calls ++ [c])
    IsNext (sunrise + 30 * 60 * 1000000) c.now L.sunriseH ∧ IsNext sunset c.now L.sunset := by
  intro L
  obtain ⟨h1, h2⟩ := PowerLayer.run_clock (PowerLayer.new sunrise sunset) calls c hmono
  simp only [L]
  rw [h1, h2]
  exact ⟨isNext_catchUp _ _, isNext_catchUp _ _⟩

/-- The earliest such instant is unique, and less than a day ahead unless the base itself is. -/
theorem C06_next_unique (base now t t' : ℤ) (h : IsNext base now t) (h' : IsNext base now t') :
    t = t' ∧ (base ≤ now → t < now + day) := by
  refine ⟨isNext_unique h h', fun hb => ?_⟩
  obtain ⟨h1, ⟨k, rfl⟩, h3⟩ := h
  rcases k with _ | k
  · simp [day]; omega
  · by_contra hlt
    have := h3 k (by push_cast at hlt h1 ⊢; simp only [day] at *; omega)
    push_cast at this; simp only [day] at *; omega

example : ([⟨.down, 0, 183.7, 10, 3000⟩, ⟨.up, 3 * usPerDay, 183.7, 10, 3000⟩] : List PowerCall).Pairwise
    (fun a b => a.now ≤ b.now) := by simp [usPerDay, usPerSec]

/-! ## C05 — the pause latch -/

/-- A night call whose remaining charge at sunrise (plus 30 minutes) would be below 2.5 %. `sr0`,
`ss0` are the sunrise and sunset given to the layer at construction. -/
def Drains (sr0 ss0 : ℤ) (c : PowerCall) : Prop :=
  ∃ sr ss, IsNext (sr0 + 30 * 60 * 1000000) c.now sr ∧ IsNext ss0 c.now ss ∧ sr ≤ ss ∧
    (c.charge - c.night * (((sr - c.now : ℤ) : ℝ) / 1000000 / 3600)) / c.cap < 0.025

/-- A daytime call with at least 5 % charge. -/
def Recovers (sr0 ss0 : ℤ) (c : PowerCall) : Prop :=
  ∃ sr ss, IsNext (sr0 + 30 * 60 * 1000000) c.now sr ∧ IsNext ss0 c.now ss ∧ ss < sr ∧
    0.05 ≤ c.charge / c.cap

/-- C05. After any sequence of calls in time order (non-zero capacity) the layer is paused exactly
when some night call saw too little charge to reach sunrise and no later call happened in daytime
with at least 5 % charge. In particular a pause persists until such a daytime call, and no pause
starts in daytime. -/
theorem C05_pause_latch (sunrise sunset : ℤ) (calls : List PowerCall)
    (hmono : calls.Pairwise (fun a b => a.now ≤ b.now)) (hcap : ∀ c ∈ calls, c.cap ≠ 0) :
    ((PowerLayer.new sunrise sunset).run calls).paused = true ↔
      ∃ pre c post, calls = pre ++ c :: post ∧ Drains sunrise sunset c ∧
        ∀ d ∈ post, ¬ Recovers sunrise sunset d := by
  induction calls using List.reverseRecOn with
  | nil => simp [PowerLayer.run, PowerLayer.new]
  | append_singleton l c ih =>
    have ih' := ih (List.pairwise_append.1 hmono).1 (fun d hd => hcap d (by simp [hd]))
    obtain ⟨hsr, hss⟩ := PowerLayer.run_clock_next (PowerLayer.new sunrise sunset) l c hmono
    have hc0 : c.cap ≠ 0 := hcap c (by simp)
    have nsr := isNext_catchUp c.now (PowerLayer.new sunrise sunset).sunriseH
    have nss := isNext_catchUp c.now (PowerLayer.new sunrise sunset).sunset
    have hD : Drains sunrise sunset c ↔
        catchUp c.now (PowerLayer.new sunrise sunset).sunriseH ≤
          catchUp c.now (PowerLayer.new sunrise sunset).sunset ∧
        (c.charge - c.night * hoursOf (catchUp c.now (PowerLayer.new sunrise sunset).sunriseH - c.now))
          / c.cap < 0.025 := by
      constructor
      · rintro ⟨sr, ss, h1, h2, h3, h4⟩
        rw [isNext_unique nsr h1, isNext_unique nss h2]
        exact ⟨h3, h4⟩
      · rintro ⟨h3, h4⟩
        exact ⟨_, _, nsr, nss, h3, h4⟩
    have hR : Recovers sunrise sunset c ↔
        catchUp c.now (PowerLayer.new sunrise sunset).sunset <
          catchUp c.now (PowerLayer.new sunrise sunset).sunriseH ∧ 0.05 ≤ c.charge / c.cap := by
      constructor
      · rintro ⟨sr, ss, h1, h2, h3, h4⟩
        rw [isNext_unique nsr h1, isNext_unique nss h2]
        exact ⟨h3, h4⟩
      · rintro ⟨h3, h4⟩
        exact ⟨_, _, nsr, nss, h3, h4⟩
    -- the right-hand side, one call longer
    have hrhs : (∃ pre d post, l ++ [c] = pre ++ d :: post ∧ Drains sunrise sunset d ∧
        ∀ e ∈ post, ¬ Recovers sunrise sunset e) ↔
        Drains sunrise sunset c ∨
        (¬ Recovers sunrise sunset c ∧
          ((PowerLayer.new sunrise sunset).run l).paused = true) := by
      rw [ih']
      constructor
      · rintro ⟨pre, d, post, e, hd, hp⟩
        rcases List.eq_nil_or_concat post with rfl | ⟨post', y, rfl⟩
        · have := List.append_inj_right' e (by simp)
          have hcd : c = d := by simpa using this
          exact Or.inl (hcd ▸ hd)
        · have e' : l ++ [c] = (pre ++ d :: post') ++ [y] := by simpa using e
          have h1 := List.append_inj_right' e' (by simp)
          have h2 := List.append_inj_left' e' (by simp)
          have hcy : c = y := by simpa using h1
          exact Or.inr ⟨hcy ▸ hp y (by simp), pre, d, post', h2, hd, fun z hz => hp z (by simp [hz])⟩
      · rintro (h | ⟨hr, pre, d, post, e, hd, hp⟩)
        · exact ⟨l, c, [], by simp, h, by simp⟩
        · refine ⟨pre, d, post ++ [c], by simp [e], hd, ?_⟩
          intro z hz
          rcases List.mem_append.1 hz with hz | hz
          · exact hp z hz
          · simp at hz; exact hz ▸ hr
    rw [hrhs, hD, hR, PowerLayer.run_snoc]
    unfold PowerLayer.getAction
    dsimp only
    rw [hsr, hss]
    generalize catchUp c.now (PowerLayer.new sunrise sunset).sunriseH = sr
    generalize catchUp c.now (PowerLayer.new sunrise sunset).sunset = ss
    generalize ((PowerLayer.new sunrise sunset).run l).paused = p
    simp only [pyDiv, if_neg hc0]
    by_cases hday : ss < sr
    · simp only [hday, not_le.2 hday, false_and, false_or, true_and, not_le]
      by_cases hs : c.charge / c.cap < 0.05 <;> cases p <;> simp [hs]
    · simp only [hday, not_lt.1 hday, false_and, true_and, not_false_eq_true]
      cases p
      · simp only [Bool.false_eq_true, if_false, or_false]
        split_ifs with h <;> simp [h]
      · simp

/-- Non-vacuity: a night call with little charge pauses the layer. -/
example : Drains 0 (10^10) ⟨.down, 0, 183.7, 10, 3000⟩ :=
  ⟨1800000000, 10^10, ⟨by norm_num, ⟨0, by norm_num⟩, by intro k; simp [day]⟩,
    ⟨by norm_num, ⟨0, by norm_num⟩, by intro k; simp [day]⟩, by norm_num, by norm_num⟩

end BLE
