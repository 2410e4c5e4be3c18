import Verif.Model.Safety
import Verif.Spec.History
import Mathlib.Tactic.Linarith
import Mathlib.Tactic.NormNum
import Mathlib.Tactic.SplitIfs
import Mathlib.Tactic.Ring
import Mathlib.Data.List.Induction

namespace BLE
open Spec

theorem mro_snoc_out {band : ℝ → Prop} {h : List ℝ} {x r : ℝ} (hx : ¬ band x) :
    MostRecentOutside band (h ++ [x]) r ↔ r = x := by
  constructor
  · rintro ⟨pre, post, e, _, hp⟩
    rcases List.eq_nil_or_concat post with rfl | ⟨post', y, rfl⟩
    · have := List.append_inj_right' e (by simp)
      simpa using this.symm
    · have e' : h ++ [x] = (pre ++ r :: post') ++ [y] := by simpa using e
      have := List.append_inj_right' e' (by simp)
      have hxy : x = y := by simpa using this
      exact absurd (hp y (by simp)) (hxy ▸ hx)
  · rintro rfl
    exact ⟨h, [], by simp, hx, by simp⟩

theorem mro_snoc_in {band : ℝ → Prop} {h : List ℝ} {x r : ℝ} (hx : band x) :
    MostRecentOutside band (h ++ [x]) r ↔ MostRecentOutside band h r := by
  constructor
  · rintro ⟨pre, post, e, hr, hp⟩
    rcases List.eq_nil_or_concat post with rfl | ⟨post', y, rfl⟩
    · have := List.append_inj_right' e (by simp)
      have hxr : x = r := by simpa using this
      exact absurd hx (hxr ▸ hr)
    · have e' : h ++ [x] = (pre ++ r :: post') ++ [y] := by simpa using e
      have := List.append_inj_left' e' (by simp)
      exact ⟨pre, post', this, hr, fun z hz => hp z (by simp [hz])⟩
  · rintro ⟨pre, post, e, hr, hp⟩
    refine ⟨pre, post ++ [x], by simp [e], hr, ?_⟩
    intro z hz
    rcases List.mem_append.1 hz with hz | hz
    · exact hp z hz
    · simp at hz; exact hz ▸ hx

/-! ### Envelope -/

theorem EnvLayer.getAction_maxSp (L : EnvLayer) (a : Command) (sp : ℝ) :
    (L.getAction a sp).1.maxSp = L.maxSp := by
  unfold EnvLayer.getAction; dsimp only; split_ifs <;> rfl

theorem EnvLayer.getAction_state (L : EnvLayer) (a : Command) (sp : ℝ) :
    (L.getAction a sp).1.state = spTransition (spTrigger L.maxSp sp) L.state := by
  unfold EnvLayer.getAction; dsimp only; split_ifs <;> rfl

theorem EnvLayer.run_maxSp (maxSp : ℝ) (calls : List (Command × ℝ)) :
    (EnvLayer.run maxSp calls).maxSp = maxSp := by
  unfold EnvLayer.run
  induction calls using List.reverseRecOn with
  | nil => rfl
  | append_singleton l c ih => simp [List.foldl_append, EnvLayer.getAction_maxSp, ih]

theorem EnvLayer.run_snoc (maxSp : ℝ) (calls : List (Command × ℝ)) (c : Command × ℝ) :
    EnvLayer.run maxSp (calls ++ [c]) = ((EnvLayer.run maxSp calls).getAction c.1 c.2).1 := by
  simp [EnvLayer.run, List.foldl_append]

/-- The hidden state of the envelope automaton as a function of the history of readings. -/
theorem env_state_history (maxSp : ℝ) (hm : 600 ≤ maxSp) (calls : List (Command × ℝ)) :
    (((EnvLayer.run maxSp calls).state = .low ∨ (EnvLayer.run maxSp calls).state = .lowCritical) ↔
      ∃ r, MostRecentOutside (fun x => 250 ≤ x ∧ x < 300) (calls.map Prod.snd) r ∧ r < 250) ∧
    (((EnvLayer.run maxSp calls).state = .high ∨ (EnvLayer.run maxSp calls).state = .highCritical) ↔
      ∃ r, MostRecentOutside (fun x => maxSp - 300 ≤ x ∧ x < maxSp - 250) (calls.map Prod.snd) r
        ∧ maxSp - 250 ≤ r) := by
  induction calls using List.reverseRecOn with
  | nil => simp [EnvLayer.run, EnvLayer.new, MostRecentOutside]
  | append_singleton l c ih =>
    obtain ⟨a, x⟩ := c
    rw [EnvLayer.run_snoc, EnvLayer.getAction_state, EnvLayer.run_maxSp]
    simp only [List.map_append, List.map_cons, List.map_nil]
    obtain ⟨ihl, ihh⟩ := ih
    generalize (EnvLayer.run maxSp l).state = s at ihl ihh ⊢
    by_cases hl : 250 ≤ x ∧ x < 300
    · have hh : ¬ (maxSp - 300 ≤ x ∧ x < maxSp - 250) := by rintro ⟨h1, _⟩; linarith [hl.2]
      have ht : spTrigger maxSp x = .lowNominal := by
        unfold spTrigger
        rw [if_neg (by linarith [hl.1]), if_neg (by linarith [hl.1]), if_pos (by linarith [hl.2])]
      simp only [mro_snoc_in (band := fun x => 250 ≤ x ∧ x < 300) hl,
        mro_snoc_out (band := fun x => maxSp - 300 ≤ x ∧ x < maxSp - 250) hh, ht]
      rw [← ihl]
      have : ¬ maxSp - 250 ≤ x := by linarith [hl.2]
      cases s <;> simp [spTransition, this]
    · by_cases hh : maxSp - 300 ≤ x ∧ x < maxSp - 250
      · have ht : spTrigger maxSp x = .highNominal := by
          unfold spTrigger
          rw [if_neg (by linarith [hh.1]), if_neg (by linarith [hh.1]), if_neg (by linarith [hh.1]),
            if_neg (by linarith [hh.1]), if_pos (by linarith [hh.2])]
        simp only [mro_snoc_in (band := fun x => maxSp - 300 ≤ x ∧ x < maxSp - 250) hh,
          mro_snoc_out (band := fun x => 250 ≤ x ∧ x < 300) hl, ht]
        rw [← ihh]
        have : ¬ x < 250 := by linarith [hh.1]
        cases s <;> simp [spTransition, this]
      · simp only [mro_snoc_out (band := fun x => 250 ≤ x ∧ x < 300) hl,
          mro_snoc_out (band := fun x => maxSp - 300 ≤ x ∧ x < maxSp - 250) hh]
        simp only [exists_eq_left]
        unfold spTrigger
        split_ifs with h1 h2 h3 h4 h5 h6
        · have : ¬ maxSp - 250 ≤ x := by linarith
          have : x < 250 := by linarith
          simp [spTransition, *]
        · have : ¬ maxSp - 250 ≤ x := by linarith
          simp [spTransition, *]
        · exact absurd ⟨by linarith, by linarith⟩ hl
        · have : ¬ maxSp - 250 ≤ x := by linarith
          simp [spTransition, *]
        · exact absurd ⟨by linarith, by linarith⟩ hh
        · have : maxSp - 250 ≤ x := by linarith
          simp [spTransition, *]
        · have : maxSp - 250 ≤ x := by linarith
          simp [spTransition, *]

/-! ### Altitude -/

theorem altGetAction_state (s : AltState) (a : Command) (alt : ℝ) :
    (altGetAction s a alt).1 = altTransition (altTrigger alt) s := by
  unfold altGetAction; dsimp only; split_ifs <;> rfl

theorem AltState.run_snoc (calls : List (Command × ℝ)) (c : Command × ℝ) :
    AltState.run (calls ++ [c]) = (altGetAction (AltState.run calls) c.1 c.2).1 := by
  simp [AltState.run, List.foldl_append]

theorem minAltitude_eq : minAltitude = 15240 := by norm_num [minAltitude]
theorem altBuffer_eq : altBuffer = 152.4 := by norm_num [altBuffer]
theorem altHysteresis_eq : altHysteresis = 152.4 := by norm_num [altHysteresis]

theorem alt_state_history (calls : List (Command × ℝ)) :
    (AltState.run calls ≠ .nominal ↔
      ∃ r, MostRecentOutside (fun x => 50500 * 0.3048 ≤ x ∧ x < 51000 * 0.3048)
        (calls.map Prod.snd) r ∧ r < 50500 * 0.3048) := by
  induction calls using List.reverseRecOn with
  | nil => simp [AltState.run, MostRecentOutside]
  | append_singleton l c ih =>
    obtain ⟨a, x⟩ := c
    rw [AltState.run_snoc, altGetAction_state]
    simp only [List.map_append, List.map_cons, List.map_nil]
    generalize AltState.run l = s at ih ⊢
    by_cases hl : 50500 * 0.3048 ≤ x ∧ x < 51000 * 0.3048
    · have ht : altTrigger x = .lowNominal := by
        unfold altTrigger
        rw [minAltitude_eq, altBuffer_eq, altHysteresis_eq, if_neg, if_neg, if_pos] <;> linarith [hl.1, hl.2]
      simp only [mro_snoc_in (band := fun x => 50500 * 0.3048 ≤ x ∧ x < 51000 * 0.3048) hl, ht]
      rw [← ih]
      cases s <;> simp [altTransition]
    · simp only [mro_snoc_out (band := fun x => 50500 * 0.3048 ≤ x ∧ x < 51000 * 0.3048) hl, exists_eq_left]
      unfold altTrigger
      rw [minAltitude_eq, altBuffer_eq, altHysteresis_eq]
      split_ifs with h1 h2 h3
      · have : x < 50500 * 0.3048 := by linarith
        simp only [this, altTransition]; simp
      · have : x < 50500 * 0.3048 := by linarith
        simp only [this, altTransition]; simp
      · exact absurd ⟨by linarith, by linarith⟩ hl
      · have : ¬ x < 50500 * 0.3048 := by linarith
        simp only [this, altTransition]; simp

/-! ### Power -/

theorem catchUp_spec (now t : ℤ) :
    ∃ k : ℕ, catchUp now t = t + k * usPerDay ∧ now ≤ catchUp now t ∧
      (k = 0 ∨ catchUp now t - usPerDay < now) := by
  fun_induction catchUp now t with
  | case1 t h ih =>
    obtain ⟨k, e, h1, h2⟩ := ih
    refine ⟨k + 1, by rw [e]; push_cast; ring, h1, Or.inr ?_⟩
    rcases h2 with rfl | h2
    · rw [e]; simp; omega
    · exact h2
  | case2 t h => exact ⟨0, by simp, by omega, Or.inl rfl⟩

theorem isNext_catchUp (now t : ℤ) : IsNext t now (catchUp now t) := by
  obtain ⟨k, e, h1, h2⟩ := catchUp_spec now t
  refine ⟨h1, ⟨k, by rw [e]; rfl⟩, ?_⟩
  intro j hj
  rcases h2 with rfl | h2
  · rw [e]; simp only [day]; push_cast; nlinarith [Int.natCast_nonneg j]
  · by_contra hlt
    rw [e] at h2 hlt
    simp only [usPerDay, usPerSec, day] at *
    have : (k : ℤ) ≤ j := by omega
    omega

theorem isNext_unique {base now t t' : ℤ} (h : IsNext base now t) (h' : IsNext base now t') : t = t' := by
  obtain ⟨h1, ⟨k, hk⟩, h3⟩ := h
  obtain ⟨h1', ⟨k', hk'⟩, h3'⟩ := h'
  have a := h3 k' (hk' ▸ h1')
  have b := h3' k (hk ▸ h1)
  omega

/-- Catching up in two stages is the same as catching up once. -/
theorem catchUp_catchUp {n1 n2 : ℤ} (h : n1 ≤ n2) (t : ℤ) :
    catchUp n2 (catchUp n1 t) = catchUp n2 t := by
  apply isNext_unique (base := t) (now := n2) _ (isNext_catchUp n2 t)
  obtain ⟨k1, e1, l1, m1⟩ := catchUp_spec n1 t
  obtain ⟨h1, ⟨k, hk⟩, h3⟩ := isNext_catchUp n2 (catchUp n1 t)
  refine ⟨h1, ⟨k1 + k, by rw [hk, e1]; simp only [usPerDay, usPerSec, day]; push_cast; ring⟩, ?_⟩
  intro j hj
  by_cases hjk : k1 ≤ j
  · obtain ⟨i, rfl⟩ := Nat.exists_eq_add_of_le hjk
    have := h3 i (by rw [e1]; simp only [usPerDay, usPerSec, day] at *; push_cast at hj ⊢; linarith)
    rw [e1] at this ⊢
    simp only [usPerDay, usPerSec, day] at *; push_cast at this ⊢; linarith
  · rcases m1 with rfl | m1
    · omega
    · rw [e1] at m1
      simp only [usPerDay, usPerSec, day] at *
      omega

theorem PowerLayer.getAction_clock (L : PowerLayer) (c : PowerCall) :
    (L.getAction c.action c.now c.night c.charge c.cap).1.sunriseH = catchUp c.now L.sunriseH ∧
    (L.getAction c.action c.now c.night c.charge c.cap).1.sunset = catchUp c.now L.sunset := by
  unfold PowerLayer.getAction; dsimp only
  constructor <;> (split_ifs <;> (try split) <;> (try split_ifs) <;> rfl)

theorem PowerLayer.run_snoc (L : PowerLayer) (calls : List PowerCall) (c : PowerCall) :
    L.run (calls ++ [c]) = ((L.run calls).getAction c.action c.now c.night c.charge c.cap).1 := by
  simp [PowerLayer.run, List.foldl_append]

theorem PowerLayer.run_clock (L : PowerLayer) (calls : List PowerCall) (c : PowerCall)
    (hmono : (calls ++ [c]).Pairwise (fun a b => a.now ≤ b.now)) :
    (L.run (calls ++ [c])).sunriseH = catchUp c.now L.sunriseH ∧
    (L.run (calls ++ [c])).sunset = catchUp c.now L.sunset := by
  induction calls using List.reverseRecOn generalizing c with
  | nil => simpa [PowerLayer.run] using PowerLayer.getAction_clock L c
  | append_singleton l d ih =>
    rw [PowerLayer.run_snoc]
    have hd := ih d (List.pairwise_append.1 hmono).1
    have hle : d.now ≤ c.now :=
      (List.pairwise_append.1 hmono).2.2 d (by simp) c (by simp)
    have hc := PowerLayer.getAction_clock (L.run (l ++ [d])) c
    rw [hc.1, hc.2, hd.1, hd.2, catchUp_catchUp hle, catchUp_catchUp hle]
    exact ⟨rfl, rfl⟩

theorem PowerLayer.run_clock_next (L : PowerLayer) (calls : List PowerCall) (c : PowerCall)
    (hmono : (calls ++ [c]).Pairwise (fun a b => a.now ≤ b.now)) :
    catchUp c.now (L.run calls).sunriseH = catchUp c.now L.sunriseH ∧
    catchUp c.now (L.run calls).sunset = catchUp c.now L.sunset := by
  have h := PowerLayer.run_clock L calls c hmono
  rw [PowerLayer.run_snoc] at h
  have hc := PowerLayer.getAction_clock (L.run calls) c
  exact ⟨hc.1 ▸ h.1, hc.2 ▸ h.2⟩

end BLE
