import Verif.Props.Balloon
import Verif.Props.Envelope
import Verif.Props.StableInit
import Verif.Props.Flight

/-!
# C106: the altitude control acts in the intended direction
-/

namespace BLE

/-- Net lift [kg] of a balloon at rest in still air: displaced air minus everything carried. `nL`, `nA` mols of lift gas
and ballast air, `t` gas temperature, `p`, `ta` pressure and temperature outside, `vol` the volume, `m` the dry mass. -/
noncomputable def Spec.netLift (nL nA p ta vol m : ℝ) : ℝ :=
  p * 0.02896492248116 / (8.3144621 * ta) * vol - (0.004002602 * nL + 0.02896492248116 * nA + m)

/-- C106, at rest. Pumping air into a taut envelope makes the balloon heavier: if the gas fills the envelope, then adding
`d` mols of air changes the net lift by a negative amount, at most the weight of that air. The gas may be warmer than the
surrounding air by any factor below `1 + v0 / (dv p)` (which is about 10 for the stock balloon). -/
theorem C106_heavier (nL nA d t p ta v0 dv m : ℝ) (hn : 0 < nL + nA) (hd : 0 < d) (ht : 0 < t) (hp : 0 < p)
    (hta : 0 < ta) (hv0 : 0 < v0) (hdv : 0 ≤ dv) (htaut : p * v0 ≤ (nL + nA) * 8.3144621 * t)
    (hwarm : t * (dv * p) < ta * (v0 + dv * p)) :
    let lift := fun n => Spec.netLift nL n p ta (superpressureAndVolume nL n t p v0 dv).1 m
    lift (nA + d) < lift nA ∧ lift nA - 0.02896492248116 * d ≤ lift (nA + d) := by
  intro lift
  have hn' : 0 < nL + (nA + d) := by linarith
  obtain ⟨a1, a2⟩ := C14_solves nL nA t p v0 dv hn ht hp hv0 hdv
  obtain ⟨-, b2⟩ := C14_solves nL (nA + d) t p v0 dv hn' ht hp hv0 hdv
  have hmono := (C15_monotone_lipschitz nL nA t nL (nA + d) t p v0 dv hn ht hn' ht hp hv0 hdv (by nlinarith)).1
  obtain ⟨s1', e1', e2'⟩ := b2 (by nlinarith)
  -- the volume at `nA` satisfies the same equations, with superpressure possibly zero
  have hA : ∃ s, 0 ≤ s ∧ (superpressureAndVolume nL nA t p v0 dv).1 = v0 + dv * s ∧
      (p + s) * (superpressureAndVolume nL nA t p v0 dv).1 = (nL + nA) * 8.3144621 * t := by
    rcases htaut.eq_or_lt with h | h
    · obtain ⟨c1, c2⟩ := a1 h.ge
      refine ⟨0, le_refl _, ?_, by linarith⟩
      have : (superpressureAndVolume nL nA t p v0 dv).1 * p = v0 * p := by rw [c2, ← h]; ring
      have := mul_right_cancel₀ hp.ne' this
      linarith
    · obtain ⟨c1, c2, c3⟩ := a2 h
      exact ⟨_, c1.le, c2, c3⟩
  obtain ⟨s, hs0, e1, e2⟩ := hA
  simp only [lift, Spec.netLift]
  generalize (superpressureAndVolume nL nA t p v0 dv).1 = V at *
  generalize (superpressureAndVolume nL (nA + d) t p v0 dv).1 = V' at *
  generalize (superpressureAndVolume nL (nA + d) t p v0 dv).2 = s' at *
  have hV : v0 ≤ V := by rw [e1]; nlinarith
  -- (V' - V) (v0 + dv p) ≤ dv R d t
  have hdiff : (V' - V) * (V' + V - v0 + dv * p) = dv * (d * 8.3144621 * t) := by
    have h1 : V' * V' - (v0 - dv * p) * V' = dv * ((nL + (nA + d)) * 8.3144621 * t) := by
      rw [← e2']; linear_combination V' * e1'
    have h2 : V * V - (v0 - dv * p) * V = dv * ((nL + nA) * 8.3144621 * t) := by
      rw [← e2]; linear_combination V * e1
    linear_combination h1 - h2
  have hbound : (V' - V) * (v0 + dv * p) ≤ dv * (d * 8.3144621 * t) := by
    rw [← hdiff]
    apply mul_le_mul_of_nonneg_left _ (by linarith)
    linarith
  have hq : 0 < v0 + dv * p := by positivity
  have key : p / (8.3144621 * ta) * (V' - V) < d := by
    rw [div_mul_eq_mul_div, div_lt_iff₀ (by positivity)]
    have h3 : p * (V' - V) * (v0 + dv * p) < d * (8.3144621 * ta) * (v0 + dv * p) := by
      have h4 : p * ((V' - V) * (v0 + dv * p)) ≤ p * (dv * (d * 8.3144621 * t)) :=
        mul_le_mul_of_nonneg_left hbound hp.le
      have h5 : (d * 8.3144621) * (t * (dv * p)) < (d * 8.3144621) * (ta * (v0 + dv * p)) :=
        mul_lt_mul_of_pos_left hwarm (by positivity)
      nlinarith
    exact lt_of_mul_lt_mul_right h3 hq.le
  have hpos : 0 ≤ p / (8.3144621 * ta) * (V' - V) := mul_nonneg (by positivity) (by linarith)
  have hfac : ∀ v, p * 0.02896492248116 / (8.3144621 * ta) * v = 0.02896492248116 * (p / (8.3144621 * ta) * v) := by
    intro v; ring
  rw [hfac, hfac]
  have hsub : p / (8.3144621 * ta) * (V' - V) = p / (8.3144621 * ta) * V' - p / (8.3144621 * ta) * V := by ring
  constructor
  · nlinarith
  · nlinarith

/-- The stock balloon at 8 kPa and 210 K with 2000 mols of air, its gas 20 K warmer than the surroundings. -/
example : (8000 : ℝ) * 1804 ≤ (6830 + 2000) * 8.3144621 * 230 ∧
    (230 : ℝ) * (0.0199 * 8000) < 210 * (1804 + 0.0199 * 8000) := by norm_num

/-- C106, the limit of the claim. In a slack envelope air that is pumped in expands freely, so it makes the balloon
heavier only if the gas is colder than the surroundings, and lifts it if the gas is warmer. -/
theorem C106_slack (nL nA d t p ta v0 dv m : ℝ) (hn : 0 < nL + nA) (hd : 0 < d) (ht : 0 < t) (hp : 0 < p)
    (hta : 0 < ta) (hv0 : 0 < v0) (hdv : 0 ≤ dv) (hslack : (nL + (nA + d)) * 8.3144621 * t ≤ p * v0) :
    let lift := fun n => Spec.netLift nL n p ta (superpressureAndVolume nL n t p v0 dv).1 m
    lift (nA + d) - lift nA = 0.02896492248116 * d * (t / ta - 1) ∧ (t < ta ↔ lift (nA + d) < lift nA) := by
  intro lift
  have hn' : 0 < nL + (nA + d) := by linarith
  obtain ⟨-, a2⟩ := (C14_solves nL nA t p v0 dv hn ht hp hv0 hdv).1 (by nlinarith)
  obtain ⟨-, b2⟩ := (C14_solves nL (nA + d) t p v0 dv hn' ht hp hv0 hdv).1 hslack
  have h1 : lift (nA + d) - lift nA = 0.02896492248116 * d * (t / ta - 1) := by
    simp only [lift, Spec.netLift]
    generalize (superpressureAndVolume nL nA t p v0 dv).1 = V at *
    generalize (superpressureAndVolume nL (nA + d) t p v0 dv).1 = V' at *
    have hdiff : (V' - V) * p = d * 8.3144621 * t := by linear_combination b2 - a2
    have : p * 0.02896492248116 / (8.3144621 * ta) * V' - p * 0.02896492248116 / (8.3144621 * ta) * V =
        0.02896492248116 / (8.3144621 * ta) * ((V' - V) * p) := by ring
    rw [hdiff] at this
    have h2 : 0.02896492248116 / (8.3144621 * ta) * (d * 8.3144621 * t) = 0.02896492248116 * d * (t / ta) := by
      field_simp
    linarith
  refine ⟨h1, ?_⟩
  have hk : 0 < 0.02896492248116 * d := by positivity
  constructor
  · intro h
    have : t / ta < 1 := (div_lt_one hta).2 h
    nlinarith
  · intro h
    have : t / ta < 1 := by
      by_contra hc
      have := mul_nonneg hk.le (sub_nonneg.2 (not_lt.1 hc))
      linarith
    exact (div_lt_one hta).1 this

example : ((6830 : ℝ) + (0 + 100)) * 8.3144621 * 200 ≤ 14000 * 1804 := by norm_num

/-- With everything else equal, the heavier balloon ends the sub-step lower. -/
theorem newPressure_mono {α : ℝ} (h0 : 0 ≤ α) (h1 : α ≤ 1) {stride : ℤ} (hst : 0 < stride) {s t : BState} {ps pt : ℝ}
    (hs : newPressure α s stride = .ok ps) (ht : newPressure α t stride = .ok pt) (ep : t.pressure = s.pressure)
    (ea : t.ambT = s.ambT) (ev : t.vol = s.vol) (ec : t.cod = s.cod) (hp : 0 < s.pressure) (hT : 0 < s.ambT)
    (hv : 0 < s.vol) (hc : 0 < s.cod) :
    (s.systemMass ≤ t.systemMass → ps ≤ pt) ∧ (s.systemMass < t.systemMass → ps < pt) := by
  obtain ⟨a0, a1, -, hden, ha0, ha1, -, rfl⟩ := newPressure_ok hs
  obtain ⟨b0, b1, -, -, hb0, hb1, -, rfl⟩ := newPressure_ok ht
  have hrho : t.rhoAir = s.rhoAir := by simp only [BState.rhoAir, ep, ea]
  rw [hrho, ev, ec, ep]
  rw [hrho, ev, ep] at hb1
  rw [ep] at hb0
  have : a0 = b0 := by rw [ha0] at hb0; exact Except.ok.inj hb0
  subst this
  have hr : 0 < s.rhoAir := by
    unfold BState.rhoAir
    have := show (0:ℝ) < airM by norm_num [airM]
    have := show (0:ℝ) < gasR by norm_num [gasR]
    positivity
  have hD : 0 < s.rhoAir * (s.cod * s.vol ^ (2.0 / 3.0 : ℝ)) := by positivity
  have hsec : 0 < totalSeconds stride := by
    unfold totalSeconds; have : (0 : ℝ) < stride := by exact_mod_cast hst
    positivity
  generalize s.rhoAir * (s.cod * s.vol ^ (2.0 / 3.0 : ℝ)) = D at *
  generalize s.rhoAir * s.vol = B at *
  generalize s.systemMass = ms at *
  generalize t.systemMass = mt at *
  generalize totalSeconds stride = τ at *
  -- rates of change of pressure per metre in both directions
  have up : ∀ a1 : AtmVals, atPressure α (s.pressure + 1 * 1.0) = .ok a1 → 1 * 1.0 / (a1.height - a0.height) < 0 := by
    intro a1 h
    have hlt := (C44_pressure_direction α h0 h1 _ _ _ _ ha0 h (by norm_num)).1
    exact div_neg_of_pos_of_neg (by norm_num) (by linarith)
  have dn : ∀ a1 : AtmVals, atPressure α (s.pressure + -1 * 1.0) = .ok a1 → -1 * 1.0 / (a1.height - a0.height) < 0 := by
    intro a1 h
    have hlt := (C44_pressure_direction α h0 h1 _ _ _ _ h ha0 (by norm_num)).1
    exact div_neg_of_neg_of_pos (by norm_num) (by linarith)
  have hq : ∀ m, |2 * (B - m) * gravity / D| = |B - m| * (2 * gravity / D) := by
    intro m
    rw [show 2 * (B - m) * gravity / D = (B - m) * (2 * gravity / D) by ring, abs_mul,
      abs_of_pos (a := 2 * gravity / D) (by have := gravity_pos; positivity)]
  have hk : 0 < 2 * gravity / D := by have := gravity_pos; positivity
  rw [hq, hq]
  generalize 2 * gravity / D = k at *
  by_cases c1 : B ≥ ms
  · rw [if_pos c1] at *
    have hn := up _ ha1
    by_cases c2 : B ≥ mt
    · rw [if_pos c2] at *
      have : a1 = b1 := by rw [ha1] at hb1; exact Except.ok.inj hb1
      subst this
      generalize 1 * 1.0 / (a1.height - a0.height) = g at *
      rw [abs_of_nonneg (by linarith), abs_of_nonneg (by linarith)]
      constructor
      · intro hm
        have hle : Real.sqrt ((B - mt) * k) ≤ Real.sqrt ((B - ms) * k) := Real.sqrt_le_sqrt (by nlinarith)
        have : 0 ≤ (-g) * (Real.sqrt ((B - ms) * k) - Real.sqrt ((B - mt) * k)) * τ :=
          mul_nonneg (mul_nonneg (by linarith) (by linarith)) hsec.le
        nlinarith
      · intro hm
        have hlt : Real.sqrt ((B - mt) * k) < Real.sqrt ((B - ms) * k) :=
          Real.sqrt_lt_sqrt (mul_nonneg (by linarith) hk.le) (by nlinarith)
        have : 0 < (-g) * (Real.sqrt ((B - ms) * k) - Real.sqrt ((B - mt) * k)) * τ :=
          mul_pos (mul_pos (by linarith) (by linarith)) hsec
        nlinarith
    · rw [if_neg c2] at *
      have hn' := dn _ hb1
      have c2' := not_le.1 c2
      generalize 1 * 1.0 / (a1.height - a0.height) = g at *
      generalize -1 * 1.0 / (b1.height - a0.height) = g' at *
      have q1 := Real.sqrt_nonneg (|B - ms| * k)
      have q2 : 0 < Real.sqrt (|B - mt| * k) := Real.sqrt_pos.2 (mul_pos (abs_pos.2 (by linarith)) hk)
      have r1 : 0 ≤ (-g) * Real.sqrt (|B - ms| * k) * τ := mul_nonneg (mul_nonneg (by linarith) q1) hsec.le
      have r2 : 0 < (-g') * Real.sqrt (|B - mt| * k) * τ := mul_pos (mul_pos (by linarith) q2) hsec
      have : s.pressure + g * (1 * Real.sqrt (|B - ms| * k)) * τ < s.pressure + g' * (-1 * Real.sqrt (|B - mt| * k)) * τ := by
        nlinarith
      exact ⟨fun _ => this.le, fun _ => this⟩
  · rw [if_neg c1] at *
    have c1' := not_le.1 c1
    have hn := dn _ ha1
    by_cases c2 : B ≥ mt
    · exact ⟨fun hm => by linarith, fun hm => by linarith⟩
    · rw [if_neg c2] at *
      have c2' := not_le.1 c2
      have : a1 = b1 := by rw [ha1] at hb1; exact Except.ok.inj hb1
      subst this
      generalize -1 * 1.0 / (a1.height - a0.height) = g at *
      rw [abs_of_neg (by linarith), abs_of_neg (by linarith)]
      constructor
      · intro hm
        have hle : Real.sqrt (-(B - ms) * k) ≤ Real.sqrt (-(B - mt) * k) := Real.sqrt_le_sqrt (by nlinarith)
        have : 0 ≤ (-g) * (Real.sqrt (-(B - mt) * k) - Real.sqrt (-(B - ms) * k)) * τ :=
          mul_nonneg (mul_nonneg (by linarith) (by linarith)) hsec.le
        nlinarith
      · intro hm
        have hlt : Real.sqrt (-(B - ms) * k) < Real.sqrt (-(B - mt) * k) :=
          Real.sqrt_lt_sqrt (mul_nonneg (by linarith) hk.le) (by nlinarith)
        have : 0 < (-g) * (Real.sqrt (-(B - mt) * k) - Real.sqrt (-(B - ms) * k)) * τ :=
          mul_pos (mul_pos (by linarith) (by linarith)) hsec
        nlinarith

/-- A physically meaningful balloon state. -/
def Spec.Physical (s : BState) : Prop :=
  0 < s.molsLift ∧ 0 ≤ s.molsAir ∧ 0 < s.intT ∧ 0 < s.volBase ∧ 0 ≤ s.dvdp ∧ 0 < s.cod ∧ 0 ≤ s.sp

/-- C106, in flight. From the same state fly one sub-step with command `a` and one with the higher command `b`
(DOWN < STAY < UP), in the same wind; then fly one more sub-step each, whatever the commands. After the first sub-step the
two balloons are at the same place and height and have the same envelope, only the amount of air inside (and what concerns
power) may differ; after the second one the balloon that flew the lower command is not higher. It is strictly lower, and
strictly heavier, if the commands differ — provided, if one of them was UP, that there was something to vent (superpressure,
air and a valve). -/
theorem C106_ordered (sun : Sun) (α : ℝ) (h0 : 0 ≤ α) (h1 : α ≤ 1) (u v : ℝ) (a b c c' : Command) (stride : ℤ)
    (hst : 0 < stride) (s sa sb ta tb : BState) (hs : Spec.Physical s) (hab : a.toInt ≤ b.toInt)
    (ha : substep sun α u v a stride s = .ok sa) (hb : substep sun α u v b stride s = .ok sb)
    (ha' : substep sun α u v c stride sa = .ok ta) (hb' : substep sun α u v c' stride sb = .ok tb) :
    sa.pressure = sb.pressure ∧ sa.vol = sb.vol ∧ sa.sp = sb.sp ∧ sa.intT = sb.intT ∧ sa.x = sb.x ∧ sa.y = sb.y ∧
    sb.molsAir ≤ sa.molsAir ∧ tb.pressure ≤ ta.pressure ∧
    (a ≠ b → (b = .up → 0 < s.sp ∧ 0 < s.molsAir ∧ s.valveDiam ≠ 0) →
      sb.molsAir < sa.molsAir ∧ tb.pressure < ta.pressure) := by
  obtain ⟨p1, p2, p3, p4, p5, p6, p7⟩ := hs
  obtain ⟨q0, am, dT, so, n1, n2, n3, n4, e⟩ := substep_ok ha
  obtain ⟨q0', am', dT', so', n1', n2', n3', n4', e'⟩ := substep_ok hb
  obtain ⟨r0, _, _, _, m1, m2, _, _, f⟩ := substep_ok ha'
  obtain ⟨r0', _, _, _, m1', _, _, _, f'⟩ := substep_ok hb'
  have i1 : q0 = q0' := by rw [n1] at n1'; exact Except.ok.inj n1'
  have i2 : am = am' := by rw [n2] at n2'; exact Except.ok.inj n2'
  have i3 : dT = dT' := by rw [n3] at n3'; exact Except.ok.inj n3'
  subst i1 i2 i3
  have pos : ∀ {p : ℝ} {w : AtmVals}, atPressure α p = .ok w → 0 < p ∧ 0 < w.temperature := by
    intro p w hw
    obtain ⟨z1, z2⟩ := C43_pressure_roundtrip α h0 h1 p w hw
    obtain ⟨z3, -, z4, -⟩ := C44_positive α h0 h1 _ w z2
    exact ⟨by rw [← z1]; exact z4, by linarith⟩
  obtain ⟨hp, hamb⟩ := pos n2
  have hvol := (volume_pos s.molsLift s.molsAir s.intT s.pressure s.volBase s.dvdp (by linarith) p3 hp p4 p5).1
  obtain ⟨-, dU, dS, dD⟩ := C10_direction sun α u v a stride s sa ha hst p2 p3 hp p7
  obtain ⟨-, dU', dS', dD'⟩ := C10_direction sun α u v b stride s sb hb hst p2 p3 hp p7
  have hpump : 0 < 13 / 3600 / 0.02896492248116 * ((stride : ℝ) / 1000000) := by
    have : (0 : ℝ) < stride := by exact_mod_cast hst
    positivity
  have hair : sb.molsAir ≤ sa.molsAir := by
    cases a <;> cases b <;> simp only [Command.toInt] at hab <;> try (exact absurd hab (by decide))
    · have : sa = sb := by rw [ha] at hb; exact Except.ok.inj hb
      rw [this]
    · have := dD rfl; have := dS' rfl; linarith
    · have := dD rfl; have := (dU' rfl).1; linarith
    · have := dS rfl; have := dS' rfl; linarith
    · have := dS rfl; have := (dU' rfl).1; linarith
    · have : sa = sb := by rw [ha] at hb; exact Except.ok.inj hb
      rw [this]
  have hair' : a ≠ b → (b = .up → 0 < s.sp ∧ 0 < s.molsAir ∧ s.valveDiam ≠ 0) → sb.molsAir < sa.molsAir := by
    intro hne hup
    cases a <;> cases b <;> simp only [Command.toInt] at hab <;> try (exact absurd hab (by decide))
    · exact absurd rfl hne
    · have := dD rfl; have := dS' rfl; linarith
    · have := dD rfl; have := (dU' rfl).1; linarith
    · exact absurd rfl hne
    · obtain ⟨u1, u2, u3⟩ := hup rfl
      have := dS rfl; have := (dU' rfl).2 u1 u2 u3; linarith
    · exact absurd rfl hne
  have hpa : 0 < sa.pressure := by
    have := (pos m2).1
    exact this
  have hmass : sa.systemMass - sb.systemMass = airM * (sa.molsAir - sb.molsAir) := by
    simp only [BState.systemMass]
    have z1 : sa.molsLift = sb.molsLift := by rw [e, e']
    have z2 : sa.envMass = sb.envMass := by rw [e, e']
    have z3 : sa.payload = sb.payload := by rw [e, e']
    rw [z1, z2, z3]; ring
  have hM : 0 < airM := by norm_num [airM]
  have key := newPressure_mono h0 h1 hst m1' m1 (by rw [e, e']) (by rw [e, e']) (by rw [e, e']) (by rw [e, e'])
    (by rw [show sb.pressure = sa.pressure by rw [e, e']]; exact hpa) (by rw [e']; exact hamb) (by rw [e']; exact hvol)
    (by rw [e']; exact p6)
  have gta : ta.pressure = r0 := by rw [f]
  have gtb : tb.pressure = r0' := by rw [f']
  refine ⟨by rw [e, e'], by rw [e, e'], by rw [e, e'], by rw [e, e'], by rw [e, e'], by rw [e, e'], hair, ?_, ?_⟩
  · rw [gta, gtb]
    exact key.1 (by nlinarith [mul_nonneg hM.le (sub_nonneg.2 hair)])
  · intro hne hup
    have hlt := hair' hne hup
    exact ⟨hlt, by rw [gta, gtb]; exact key.2 (by nlinarith [mul_pos hM (sub_pos.2 hlt)])⟩

/-- The demo balloon trimmed to float where it is. -/
noncomputable def demoFloat : BState :=
  { demo with payload := demo.rhoAir * demo.vol - (heM * demo.molsLift + airM * demo.molsAir + demo.envMass) }

/-- There is a sun under which the trimmed balloon neither rises nor warms up in the first sub-step, so that a second
sub-step is possible with every pair of commands; after it, the one that flew DOWN first is below the one that flew UP. -/
example : ∃ (sun : Sun) (sa sb ta tb : BState), Spec.Physical demoFloat ∧
    substep sun 0 3 4 .down (10 * usPerSec) demoFloat = .ok sa ∧ substep sun 0 3 4 .up (10 * usPerSec) demoFloat = .ok sb ∧
    substep sun 0 3 4 .stay (10 * usPerSec) sa = .ok ta ∧ substep sun 0 3 4 .stay (10 * usPerSec) sb = .ok tb ∧
    tb.pressure < ta.pressure := by
  have hphys : Spec.Physical demoFloat := by
    unfold Spec.Physical demoFloat
    norm_num [demo]
  obtain ⟨K, hK, hb⟩ := dTempDt_affine demoFloat.vol demoFloat.envMass demoFloat.ambT demoFloat.pressure
    demoFloat.upwelling (by norm_num [demoFloat, demo]) (by norm_num [demoFloat, demo]) (by norm_num [demoFloat, demo])
    (by norm_num [demoFloat, demo]) (by norm_num [demoFloat, demo]) (by norm_num [demoFloat, demo])
  obtain ⟨b, hb⟩ := hb demoFloat.intT (by norm_num [demoFloat, demo]) (by norm_num [demoFloat, demo])
  have hel : ∀ l t, -90 ≤ ((fun _ _ => ⟨90, -b / K⟩ : Sun) l t).el ∧ ((fun _ _ => ⟨90, -b / K⟩ : Sun) l t).el ≤ 90 := by
    intro l t; norm_num
  have first : ∀ a, ∃ sa, substep (fun _ _ => ⟨90, -b / K⟩) 0 3 4 a (10 * usPerSec) demoFloat = .ok sa ∧
      ∃ ta, substep (fun _ _ => ⟨90, -b / K⟩) 0 3 4 .stay (10 * usPerSec) sa = .ok ta := by
    intro a
    obtain ⟨sa, hsa⟩ := substep_no_error (s := demoFloat) (sun := fun _ _ => ⟨90, -b / K⟩) (α := 0) (by norm_num)
      (by norm_num) 3 4 a (10 * usPerSec) (by norm_num [demoFloat, demo]) (by norm_num [demoFloat, demo])
      (by norm_num [demoFloat, demo]) (by norm_num [demoFloat, demo]) (by norm_num [demoFloat, demo])
      (by norm_num [demoFloat, demo]) (by norm_num [demoFloat, demo]) (by norm_num [demoFloat, demo])
      (by norm_num [demoFloat, demo]) (by norm_num [demoFloat, demo]) hel
    refine ⟨sa, hsa, ?_⟩
    obtain ⟨p', amb, dT, so, n1, n2, n3, n4, e⟩ := substep_ok hsa
    have hdT : dT = 0 := by
      rw [hb] at n3
      have := Except.ok.inj n3
      rw [← this]; field_simp; ring
    have hp' : p' = 6000 := by
      obtain ⟨a0, a1, -, -, -, -, -, q⟩ := newPressure_ok n1
      have hz : demoFloat.rhoAir * demoFloat.vol - demoFloat.systemMass = 0 := by
        simp only [BState.systemMass, demoFloat, BState.rhoAir]; ring
      rw [hz] at q
      simp at q
      rw [q]; rfl
    obtain ⟨t1, t2⟩ := atPressure_temp (by norm_num) (by norm_num) n2
    have hvol := (volume_pos demoFloat.molsLift demoFloat.molsAir demoFloat.intT demoFloat.pressure demoFloat.volBase
      demoFloat.dvdp (by norm_num [demoFloat, demo]) (by norm_num [demoFloat, demo]) t2 (by norm_num [demoFloat, demo])
      (by norm_num [demoFloat, demo])).1
    have z1 : sa.pressure = 6000 := by rw [e]; exact hp'
    have z2 : sa.intT = 206 := by rw [e, hdT]; norm_num [demoFloat, demo]
    have z3 : 0 < sa.ambT := by rw [e]; simp only; linarith
    have z4 : 0 < sa.vol := by rw [e]; exact hvol
    have z5 : sa.cod = 0.25 := by rw [e]; rfl
    have z6 : sa.envMass = 68.5 := by rw [e]; rfl
    have z7 : sa.upwelling = 250 := by rw [e]; rfl
    exact substep_no_error (by norm_num) (by norm_num) 3 4 .stay (10 * usPerSec) (by rw [z1]; norm_num)
      (by rw [z1]; norm_num) z3 z4 (by rw [z5]; norm_num) (by rw [z6]; norm_num) (by rw [z2]; norm_num)
      (by rw [z2]; norm_num) (by rw [z7]; norm_num) (by rw [z7]; norm_num) hel
  obtain ⟨sa, ha, ta, ha'⟩ := first .down
  obtain ⟨sb, hb1, tb, hb'⟩ := first .up
  refine ⟨_, sa, sb, ta, tb, hphys, ha, hb1, ha', hb', ?_⟩
  exact (((C106_ordered _ 0 (by norm_num) (by norm_num) 3 4 .down .up .stay .stay _ (by decide) _ _ _ _ _ hphys (by decide)
    ha hb1 ha' hb').2.2.2.2.2.2.2.2) (by decide) (fun _ => by norm_num [demoFloat, demo])).2

end BLE
