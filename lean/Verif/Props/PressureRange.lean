import Verif.Model.PressureRange
import Verif.Props.Atmosphere
import Verif.Props.Wind

/-!
# C47, C48: reachable pressures
-/

namespace BLE

/-- C47. With `x1 < x2`, `y1 ≠ y2` and the threshold between `y1` and `y2`, the crossing exists, lies between
the abscissae and is on the line through the points; every other input raises `ValueError`. -/
theorem C47_crossing (x1 y1 x2 y2 ys : ℝ) :
    (x1 < x2 → y1 ≠ y2 → min y1 y2 ≤ ys → ys ≤ max y1 y2 →
      ∃ x, xCrossing x1 y1 x2 y2 ys = .ok x ∧ x1 ≤ x ∧ x ≤ x2 ∧ (x - x1) * (y2 - y1) = (ys - y1) * (x2 - x1)) ∧
    (¬ (x1 < x2 ∧ y1 ≠ y2 ∧ min y1 y2 ≤ ys ∧ ys ≤ max y1 y2) → xCrossing x1 y1 x2 y2 ys = .error .value) := by
  constructor
  · intro hx hy h1 h2
    have hd : y2 - y1 ≠ 0 := sub_ne_zero.2 (Ne.symm hy)
    have ha : 0 ≤ (ys - y1) / (y2 - y1) ∧ (ys - y1) / (y2 - y1) ≤ 1 := by
      rcases lt_or_gt_of_ne hy with h | h
      · rw [min_eq_left h.le] at h1; rw [max_eq_right h.le] at h2
        have : 0 < y2 - y1 := by linarith
        exact ⟨div_nonneg (by linarith) this.le, (div_le_one this).2 (by linarith)⟩
      · rw [min_eq_right h.le] at h1; rw [max_eq_left h.le] at h2
        have : y2 - y1 < 0 := by linarith
        exact ⟨div_nonneg_of_nonpos (by linarith) this.le, by rw [div_le_one_of_neg this]; linarith⟩
    refine ⟨(ys - y1) / (y2 - y1) * (x2 - x1) + x1, ?_, ?_, ?_, ?_⟩
    · unfold xCrossing
      rw [if_neg (by push Not; exact ⟨h1, h2⟩), if_neg (not_le.2 hx), if_neg hy, abs_of_nonneg ha.1]
    · have : 0 ≤ (ys - y1) / (y2 - y1) * (x2 - x1) := mul_nonneg ha.1 (by linarith)
      linarith
    · have : (ys - y1) / (y2 - y1) * (x2 - x1) ≤ 1 * (x2 - x1) := mul_le_mul_of_nonneg_right ha.2 (by linarith)
      linarith
    · field_simp; ring
  · intro h
    unfold xCrossing
    split_ifs with c1 c2 c3
    · rfl
    · rfl
    · rfl
    · push Not at c1 c2
      exact absurd ⟨c2, c3, c1⟩ h

example : xCrossing 1 10 3 20 15 = .ok 2 := by
  unfold xCrossing; norm_num

/-! ## The search -/

/-- A pressure is safe: the floating balloon's superpressure is within the limits. -/
def Spec.Safe (sp : ℝ → Except Err ℝ) (lo hi p : ℝ) : Prop := ∃ s, sp p = .ok s ∧ lo ≤ s ∧ s ≤ hi

theorem safeCrossing_spec {p1 s1 p2 s2 lo hi : ℝ} (hp : p1 < p2)
    (h : ((s1 < lo ∨ s1 > hi) ∧ lo ≤ s2 ∧ s2 ≤ hi) ∨ ((s2 < lo ∨ s2 > hi) ∧ lo ≤ s1 ∧ s1 ≤ hi)) :
    ∃ r, safeCrossing p1 s1 p2 s2 lo hi = .ok r ∧ p1 ≤ r ∧ r ≤ p2 := by
  have hne : s1 ≠ s2 := by
    rintro rfl
    rcases h with ⟨h1 | h1, h2, h3⟩ | ⟨h1 | h1, h2, h3⟩ <;> linarith
  unfold safeCrossing
  rw [if_neg (not_le.2 hp), if_neg hne]
  have fin : ∀ y, min s1 s2 ≤ y → y ≤ max s1 s2 → ∃ r, xCrossing p1 s1 p2 s2 y = .ok r ∧ p1 ≤ r ∧ r ≤ p2 := by
    intro y h1 h2
    obtain ⟨x, e, a, b, _⟩ := (C47_crossing p1 s1 p2 s2 y).1 hp hne h1 h2
    exact ⟨x, e, a, b⟩
  split_ifs with c1 c2
  · rcases c1 with ⟨a, b⟩ | ⟨a, b⟩
    · exact fin _ ((min_le_left _ _).trans a.le) (le_trans b (le_max_right _ _))
    · exact fin _ ((min_le_right _ _).trans b.le) (le_trans a (le_max_left _ _))
  · rcases c2 with ⟨a, b⟩ | ⟨a, b⟩
    · exact fin _ ((min_le_right _ _).trans b) (le_trans a.le (le_max_left _ _))
    · exact fin _ ((min_le_left _ _).trans a) (le_trans b.le (le_max_right _ _))
  · exfalso
    push Not at c1 c2
    rcases h with ⟨h1 | h1, h2, h3⟩ | ⟨h1 | h1, h2, h3⟩
    · exact absurd h2 (not_le.2 (c1.1 h1))
    · exact absurd h3 (not_le.2 (c2.1 h1))
    · exact absurd h1 (not_lt.2 (c1.2 h2))
    · exact absurd (c2.2 h3) (not_le.2 h1)

theorem loop_max (sp : ℝ → Except Err ℝ) (sig lo hi : ℝ) (col : List ℝ) (last : ℝ × ℝ)
    (hl : last.2 < lo ∨ last.2 > hi) (hsig : sig ≤ last.1) (hcol : col.Pairwise (· < ·))
    (hlast : ∀ p ∈ col, sig ≤ p → last.1 < p ∨ sp p = .ok last.2) :
    (∀ r, searchLoop sp sig lo hi .max col last = .ok r →
      sig ≤ r ∧ ∀ q ∈ col, sig ≤ q → Spec.Safe sp lo hi q → r ≤ q) ∧
    ((∃ q ∈ col, sig ≤ q ∧ Spec.Safe sp lo hi q) → (∀ p ∈ col, ∃ s, sp p = .ok s) →
      ∃ r, searchLoop sp sig lo hi .max col last = .ok r) := by
  induction col generalizing last with
  | nil => exact ⟨fun r h => by simp [searchLoop] at h, by simp⟩
  | cons p ps ih =>
    rw [List.pairwise_cons] at hcol
    unfold searchLoop
    by_cases hskip : p < sig
    · rw [if_pos (show skipLevel .max p sig from hskip)]
      have := ih last hl hsig hcol.2 (fun q hq h => hlast q (List.mem_cons_of_mem _ hq) h)
      refine ⟨fun r hr => ⟨(this.1 r hr).1, fun q hq hs => ?_⟩, ?_⟩
      · rcases List.mem_cons.1 hq with rfl | hq
        · exact absurd hs (not_le.2 hskip)
        · exact (this.1 r hr).2 q hq hs
      · rintro ⟨q, hq, hs, hsafe⟩ hall
        refine this.2 ⟨q, ?_, hs, hsafe⟩ (fun p hp => hall p (List.mem_cons_of_mem _ hp))
        rcases List.mem_cons.1 hq with rfl | hq
        · exact absurd hs (not_le.2 hskip)
        · exact hq
    · rw [if_neg (show ¬ skipLevel .max p sig from hskip)]
      have hps : sig ≤ p := not_lt.1 hskip
      cases hsp : sp p with
      | error e =>
        refine ⟨fun r h => by simp at h, fun _ hall => ?_⟩
        obtain ⟨s, hs⟩ := hall p List.mem_cons_self
        rw [hsp] at hs; cases hs
      | ok s =>
        simp only
        by_cases hun : s > hi ∨ s < lo
        · rw [if_pos hun]
          have := ih (p, s) (by rcases hun with h | h; exacts [.inr h, .inl h]) hps hcol.2
            (fun q hq _ => .inl (hcol.1 q hq))
          refine ⟨fun r hr => ⟨(this.1 r hr).1, fun q hq hs hsafe => ?_⟩, ?_⟩
          · rcases List.mem_cons.1 hq with rfl | hq
            · obtain ⟨s', e, a, b⟩ := hsafe
              rw [hsp] at e; cases e
              rcases hun with h | h <;> linarith
            · exact (this.1 r hr).2 q hq hs hsafe
          · rintro ⟨q, hq, hs, hsafe⟩ hall
            refine this.2 ⟨q, ?_, hs, hsafe⟩ (fun p hp => hall p (List.mem_cons_of_mem _ hp))
            rcases List.mem_cons.1 hq with rfl | hq
            · obtain ⟨s', e, a, b⟩ := hsafe
              rw [hsp] at e; cases e
              rcases hun with h | h <;> linarith
            · exact hq
        · rw [if_neg hun]
          push Not at hun
          have hlt : last.1 < p := by
            rcases hlast p List.mem_cons_self hps with h | h
            · exact h
            · rw [hsp] at h; cases h
              rcases hl with h | h <;> linarith
          obtain ⟨r, e, a, b⟩ := safeCrossing_spec (lo := lo) (hi := hi) hlt (.inl ⟨hl, hun.2, hun.1⟩)
          rw [e]
          refine ⟨fun r' hr' => ?_, fun _ _ => ⟨_, rfl⟩⟩
          cases hr'
          refine ⟨hsig.trans a, fun q hq _ _ => ?_⟩
          rcases List.mem_cons.1 hq with rfl | hq
          · exact b
          · exact b.trans (hcol.1 q hq).le

theorem loop_min (sp : ℝ → Except Err ℝ) (sig lo hi : ℝ) (col : List ℝ) (last : ℝ × ℝ)
    (hl : last.2 < lo ∨ last.2 > hi) (hsig : last.1 ≤ sig) (hcol : col.Pairwise (· > ·))
    (hlast : ∀ p ∈ col, p ≤ sig → p < last.1 ∨ sp p = .ok last.2) :
    (∀ r, searchLoop sp sig lo hi .min col last = .ok r →
      r ≤ sig ∧ ∀ q ∈ col, q ≤ sig → Spec.Safe sp lo hi q → q ≤ r) ∧
    ((∃ q ∈ col, q ≤ sig ∧ Spec.Safe sp lo hi q) → (∀ p ∈ col, ∃ s, sp p = .ok s) →
      ∃ r, searchLoop sp sig lo hi .min col last = .ok r) := by
  induction col generalizing last with
  | nil => exact ⟨fun r h => by simp [searchLoop] at h, by simp⟩
  | cons p ps ih =>
    rw [List.pairwise_cons] at hcol
    unfold searchLoop
    by_cases hskip : p > sig
    · rw [if_pos (show skipLevel .min p sig from hskip)]
      have := ih last hl hsig hcol.2 (fun q hq h => hlast q (List.mem_cons_of_mem _ hq) h)
      refine ⟨fun r hr => ⟨(this.1 r hr).1, fun q hq hs => ?_⟩, ?_⟩
      · rcases List.mem_cons.1 hq with rfl | hq
        · exact absurd hs (not_le.2 hskip)
        · exact (this.1 r hr).2 q hq hs
      · rintro ⟨q, hq, hs, hsafe⟩ hall
        refine this.2 ⟨q, ?_, hs, hsafe⟩ (fun p hp => hall p (List.mem_cons_of_mem _ hp))
        rcases List.mem_cons.1 hq with rfl | hq
        · exact absurd hs (not_le.2 hskip)
        · exact hq
    · rw [if_neg (show ¬ skipLevel .min p sig from hskip)]
      have hps : p ≤ sig := not_lt.1 hskip
      cases hsp : sp p with
      | error e =>
        refine ⟨fun r h => by simp at h, fun _ hall => ?_⟩
        obtain ⟨s, hs⟩ := hall p List.mem_cons_self
        rw [hsp] at hs; cases hs
      | ok s =>
        simp only
        by_cases hun : s > hi ∨ s < lo
        · rw [if_pos hun]
          have := ih (p, s) (by rcases hun with h | h; exacts [.inr h, .inl h]) hps hcol.2
            (fun q hq _ => .inl (hcol.1 q hq))
          refine ⟨fun r hr => ⟨(this.1 r hr).1, fun q hq hs hsafe => ?_⟩, ?_⟩
          · rcases List.mem_cons.1 hq with rfl | hq
            · obtain ⟨s', e, a, b⟩ := hsafe
              rw [hsp] at e; cases e
              rcases hun with h | h <;> linarith
            · exact (this.1 r hr).2 q hq hs hsafe
          · rintro ⟨q, hq, hs, hsafe⟩ hall
            refine this.2 ⟨q, ?_, hs, hsafe⟩ (fun p hp => hall p (List.mem_cons_of_mem _ hp))
            rcases List.mem_cons.1 hq with rfl | hq
            · obtain ⟨s', e, a, b⟩ := hsafe
              rw [hsp] at e; cases e
              rcases hun with h | h <;> linarith
            · exact hq
        · rw [if_neg hun]
          push Not at hun
          have hlt : p < last.1 := by
            rcases hlast p List.mem_cons_self hps with h | h
            · exact h
            · rw [hsp] at h; cases h
              rcases hl with h | h <;> linarith
          obtain ⟨r, e, a, b⟩ := safeCrossing_spec (lo := lo) (hi := hi) hlt (.inr ⟨hl, hun.2, hun.1⟩)
          rw [e]
          refine ⟨fun r' hr' => ?_, fun _ _ => ⟨_, rfl⟩⟩
          cases hr'
          refine ⟨b.trans hsig, fun q hq _ _ => ?_⟩
          rcases List.mem_cons.1 hq with rfl | hq
          · exact a
          · exact (hcol.1 q hq).le.trans a

theorem search_max (sp : ℝ → Except Err ℝ) (sig lo hi : ℝ) (col : List ℝ) (hcol : col.Pairwise (· < ·)) :
    (∀ r, searchSafe sp col sig lo hi .max = .ok r → sig ≤ r ∧
      ∀ q ∈ col, sig ≤ q → Spec.Safe sp lo hi q → r ≤ q) ∧
    ((∃ q ∈ col, sig ≤ q ∧ Spec.Safe sp lo hi q) → (∀ p ∈ sig :: col, ∃ s, sp p = .ok s) →
      ∃ r, searchSafe sp col sig lo hi .max = .ok r) := by
  unfold searchSafe
  cases hs : sp sig with
  | error e =>
    refine ⟨fun r h => by simp at h, fun _ hall => ?_⟩
    obtain ⟨s, h⟩ := hall sig List.mem_cons_self
    rw [hs] at h; cases h
  | ok s =>
    simp only
    by_cases hsafe : lo ≤ s ∧ s ≤ hi
    · rw [if_pos hsafe]
      refine ⟨fun r hr => ?_, fun _ _ => ⟨_, rfl⟩⟩
      cases hr
      exact ⟨le_rfl, fun q _ h _ => h⟩
    · rw [if_neg hsafe]
      have hun : s < lo ∨ s > hi := by
        by_contra hc
        push Not at hc
        exact hsafe hc
      have := loop_max sp sig lo hi col (sig, s) hun le_rfl hcol (fun p _ hp => by
        rcases hp.lt_or_eq with h | h
        · exact .inl h
        · rw [← h]; exact .inr hs)
      exact ⟨this.1, fun h1 h2 => this.2 h1 fun p hp => h2 p (List.mem_cons_of_mem _ hp)⟩

theorem search_min (sp : ℝ → Except Err ℝ) (sig lo hi : ℝ) (col : List ℝ) (hcol : col.Pairwise (· < ·)) :
    (∀ r, searchSafe sp col sig lo hi .min = .ok r → r ≤ sig ∧
      ∀ q ∈ col, q ≤ sig → Spec.Safe sp lo hi q → q ≤ r) ∧
    ((∃ q ∈ col, q ≤ sig ∧ Spec.Safe sp lo hi q) → (∀ p ∈ sig :: col, ∃ s, sp p = .ok s) →
      ∃ r, searchSafe sp col sig lo hi .min = .ok r) := by
  unfold searchSafe
  cases hs : sp sig with
  | error e =>
    refine ⟨fun r h => by simp at h, fun _ hall => ?_⟩
    obtain ⟨s, h⟩ := hall sig List.mem_cons_self
    rw [hs] at h; cases h
  | ok s =>
    simp only
    by_cases hsafe : lo ≤ s ∧ s ≤ hi
    · rw [if_pos hsafe]
      refine ⟨fun r hr => ?_, fun _ _ => ⟨_, rfl⟩⟩
      cases hr
      exact ⟨le_rfl, fun q _ h _ => h⟩
    · rw [if_neg hsafe]
      have hun : s < lo ∨ s > hi := by
        by_contra hc
        push Not at hc
        exact hsafe hc
      have := loop_min sp sig lo hi col.reverse (sig, s) hun le_rfl (by rwa [List.pairwise_reverse])
        (fun p _ hp => by
          rcases hp.lt_or_eq with h | h
          · exact .inl h
          · rw [h]; exact .inr hs)
      simp only [List.mem_reverse] at this
      exact ⟨this.1, fun h1 h2 => this.2 h1 fun p hp => h2 p (List.mem_cons_of_mem _ hp)⟩

/-- A concrete search: superpressure `p / 10` at pressure `p`, safe between 250 and 600, from 1000 upwards. -/
example : searchSafe (fun p => .ok (p / 10)) [1000, 2000, 3000, 4000] 1000 250 600 .max = .ok 2500 := by
  norm_num [searchSafe, searchLoop, skipLevel, safeCrossing, xCrossing]

/-! ## C48 -/

/-- Pressure at the altitude floor (50,000 ft) of an atmosphere. -/
def Spec.FloorPressure (α top : ℝ) : Prop := ∃ v, atHeight α minAltitude = .ok v ∧ v.pressure = top

/-- The twenty searched levels: evenly spaced from 1000 Pa to the floor. -/
def Spec.SearchedLevel (top p : ℝ) : Prop := ∃ i : ℕ, i < 20 ∧ p = 1000 + i * (top - 1000) / 19

theorem floor_exists (α : ℝ) (h0 : 0 ≤ α) (h1 : α ≤ 1) :
    ∃ v, atHeight α minAltitude = .ok v ∧ 11400 < v.pressure ∧ v.pressure ≤ 108870.8213 := by
  have hm : minAltitude = 15240 := by norm_num [minAltitude]
  have hat := atHeight_eq (α := α) (h := 15240) (i := 0) (by norm_num) (by norm_num [hTrans]) (by norm_num [hTrans])
  refine ⟨_, by rw [hm]; exact hat, floor_pressure h0 h1, ?_⟩
  exact ((C45_pressure_domain α h0 h1 _).2.2 (by have := floor_pressure h0 h1; linarith)).1
    ⟨_, (C43_height_roundtrip α h0 h1 _ _ hat).2⟩

theorem levels_pairwise (top : ℝ) (ht : 1000 < top) : ((List.range 20).map (searchLevels top)).Pairwise (· < ·) := by
  rw [List.pairwise_map]
  exact List.pairwise_lt_range.imp fun {a b} h => linspace_strict 1000 top 20 (by norm_num) ht a b h

theorem levels_mem (top p : ℝ) : p ∈ (List.range 20).map (searchLevels top) ↔ Spec.SearchedLevel top p := by
  unfold Spec.SearchedLevel
  simp only [List.mem_map, List.mem_range]
  have e : ∀ i : ℕ, searchLevels top i = 1000 + i * (top - 1000) / 19 := by
    intro i; unfold searchLevels linspace; norm_num
  constructor
  · rintro ⟨i, hi, rfl⟩; exact ⟨i, hi, e i⟩
  · rintro ⟨i, hi, rfl⟩; exact ⟨i, hi, e i⟩

theorem levels_range (top : ℝ) (ht : 1000 < top) (i : ℕ) (hi : i < 20) :
    1000 ≤ searchLevels top i ∧ searchLevels top i ≤ top := by
  have h0 : searchLevels top 0 = 1000 := linspace_first _ _ _
  have h1 : searchLevels top 19 = top := linspace_last _ _ 20 (by norm_num)
  constructor
  · rcases Nat.eq_zero_or_pos i with h | h
    · rw [h, h0]
    · rw [← h0]; exact (linspace_strict 1000 top 20 (by norm_num) ht 0 i h).le
  · rcases Nat.lt_or_ge i 19 with h | h
    · conv_rhs => rw [← h1]
      exact (linspace_strict 1000 top 20 (by norm_num) ht i 19 h).le
    · rw [show i = 19 by omega, h1]

/-- `P/T` of the atmosphere at the `i`-th searched level. -/
noncomputable def Spec.levelPoverT (α top : ℝ) (i : ℕ) : ℝ :=
  match atPressure α (1000 + i * (top - 1000) / 19) with
  | .ok v => v.pressure / v.temperature
  | .error _ => 0

/-- Smallest pressure at which the balloon floats with empty ballonet, as estimated by the code from the P/T
table of the atmosphere. -/
noncomputable def Spec.minFloatPressure (α top : ℝ) (s : BState) : ℝ :=
  interpExtrapolate (Spec.levelPoverT α top) (searchLevels top) 20 (emptyPoverT s)

/-- The preliminaries of `get_pressure_range` never fail: the altitude floor, the twenty atmosphere samples and
the monotonicity assertion. -/
theorem pressureRange_eq (sun : Sun) (α : ℝ) (h0 : 0 ≤ α) (h1 : α ≤ 1) (s : BState) (hsp : 250 < s.maxSp) (v : AtmVals)
    (hv : atHeight α minAltitude = .ok v) :
    pressureRange sun α s =
      match searchSafe (floatSp sun α s) ((List.range 20).map (searchLevels v.pressure))
          (Spec.minFloatPressure α v.pressure s) 250 (s.maxSp - 250) .max with
      | .error e => .error e
      | .ok lo =>
        match searchSafe (floatSp sun α s) ((List.range 20).map (searchLevels v.pressure)) v.pressure 250
          (s.maxSp - 250) .min with
        | .error e => .error e
        | .ok hi => .ok { lo := lo, hi := hi } := by
  obtain ⟨v', hv', hf1, hf2⟩ := floor_exists α h0 h1
  have : v' = v := by rw [hv] at hv'; injection hv' with h; exact h.symm
  subst this
  have htop : 1000 < v'.pressure := by linarith
  -- the samples
  have hsample : ∀ i < 20, ∃ w, atPressure α (searchLevels v'.pressure i) = .ok w := by
    intro i hi
    have := levels_range v'.pressure htop i hi
    exact ((C45_pressure_domain α h0 h1 _).2.2 (by linarith)).2 (by linarith)
  haveI : Nonempty AtmVals := ⟨v'⟩
  choose! w hw using hsample
  have hmap : ((List.range 20).mapM fun i => atPressure α (searchLevels v'.pressure i)) =
      .ok ((List.range 20).map w) := by
    rw [mapM_ok_iff, List.forall₂_map_right_iff, List.forall₂_same]
    intro i hi
    exact hw i (List.mem_range.1 hi)
  have hget : ∀ i < 20, ((List.range 20).map w)[i]? = some (w i) := by
    intro i hi
    rw [List.getElem?_map, List.getElem?_range hi]; rfl
  have hmono : monotonic (poverT ((List.range 20).map w)) 20 := by
    intro i hi
    unfold poverT
    simp only [hget i (by omega), hget (i + 1) hi]
    have hd := (C44_pressure_direction α h0 h1 _ _ _ _ (hw i (by omega)) (hw (i + 1) hi)
      (linspace_strict 1000 v'.pressure 20 (by norm_num) htop i (i + 1) (by omega))).2
    obtain ⟨a, ha, -, -, ea⟩ := atPressure_ok (hw i (by omega))
    obtain ⟨b, hb, -, -, eb⟩ := atPressure_ok (hw (i + 1) hi)
    have da : (w i).density = (w i).pressure / (airRs * (w i).temperature) := by rw [ea]
    have db : (w (i + 1)).density = (w (i + 1)).pressure / (airRs * (w (i + 1)).temperature) := by rw [eb]
    rw [da, db, mul_comm airRs, mul_comm airRs, ← div_div, ← div_div] at hd
    exact (div_lt_div_iff_of_pos_right airRs_pos).1 hd
  have hpm : interpExtrapolate (poverT ((List.range 20).map w)) (searchLevels v'.pressure) 20 (emptyPoverT s) =
      Spec.minFloatPressure α v'.pressure s := by
    unfold Spec.minFloatPressure
    have e' : ∀ i < 20, poverT ((List.range 20).map w) i = Spec.levelPoverT α v'.pressure i := by
      intro i hi
      have hl : (1000 + i * (v'.pressure - 1000) / 19 : ℝ) = searchLevels v'.pressure i := by
        unfold searchLevels linspace; norm_num
      unfold poverT Spec.levelPoverT
      rw [hget i hi, hl, hw i hi]
    generalize poverT ((List.range 20).map w) = f at e'
    generalize Spec.levelPoverT α v'.pressure = g at e'
    unfold interpExtrapolate
    have ek : (List.range 20).filter (fun i => decide (f i < emptyPoverT s)) =
        (List.range 20).filter (fun i => decide (g i < emptyPoverT s)) := by
      apply List.filter_congr
      intro i hi
      rw [e' i (List.mem_range.1 hi)]
    simp only
    rw [ek]
    generalize ((List.range 20).filter (fun i => decide (g i < emptyPoverT s))).length = k
    have hk : Nat.min (Nat.max k 1) (20 - 1) < 20 := lt_of_le_of_lt (Nat.min_le_right _ _) (by norm_num)
    rw [e' _ hk, e' _ (by omega)]
  unfold pressureRange
  simp only
  rw [if_neg (by push Not; linarith), hv]
  simp only
  rw [hmap]
  simp only
  rw [if_neg (not_not.2 hmono), hpm]
  rfl

/-- C48. Whenever a range is reported, it lies between the smallest float pressure and the pressure of the
altitude floor; every safe searched level not below the smallest float pressure is inside it, so if there is one
the range is not empty (`lo ≤ hi`). -/
theorem C48_consistent (sun : Sun) (α : ℝ) (h0 : 0 ≤ α) (h1 : α ≤ 1) (s : BState) (r : PressureRange) (top : ℝ)
    (ht : Spec.FloorPressure α top) (h : pressureRange sun α s = .ok r) :
    Spec.minFloatPressure α top s ≤ r.lo ∧ r.hi ≤ top ∧
    ∀ q, Spec.SearchedLevel top q → Spec.minFloatPressure α top s ≤ q →
      Spec.Safe (floatSp sun α s) 250 (s.maxSp - 250) q → r.lo ≤ q ∧ q ≤ r.hi ∧ r.lo ≤ r.hi := by
  obtain ⟨v, hv, rfl⟩ := ht
  have hsp : 250 < s.maxSp := by
    by_contra hc
    unfold pressureRange at h
    simp only at h
    rw [if_pos (by push Not; linarith)] at h
    cases h
  obtain ⟨v', hv', hf1, hf2⟩ := floor_exists α h0 h1
  have : v' = v := by rw [hv] at hv'; injection hv' with h; exact h.symm
  subst this
  have htop : 1000 < v'.pressure := by linarith
  rw [pressureRange_eq sun α h0 h1 s hsp v' hv] at h
  have pw := levels_pairwise v'.pressure htop
  split at h
  · cases h
  · rename_i lo hlo
    split at h
    · cases h
    · rename_i hi hhi
      cases h
      obtain ⟨a1, a2⟩ := (search_max _ _ _ _ _ pw).1 _ hlo
      obtain ⟨b1, b2⟩ := (search_min _ _ _ _ _ pw).1 _ hhi
      refine ⟨a1, b1, fun q hq hq2 hq3 => ?_⟩
      have hm := (levels_mem _ _).2 hq
      have hqt : q ≤ v'.pressure := by
        obtain ⟨i, hi, rfl⟩ := List.mem_map.1 hm
        exact (levels_range _ htop i (List.mem_range.1 hi)).2
      have c1 := a2 q hm hq2 hq3
      have c2 := b2 q hm hqt hq3
      exact ⟨c1, c2, c1.trans c2⟩

/-- A range is reported whenever some searched level not below the smallest float pressure is safe and the thermal
equilibrium can be computed at the candidate pressures; in particular none of the assertions and none of the
crossing computations can fail. -/
theorem C48_total (sun : Sun) (α : ℝ) (h0 : 0 ≤ α) (h1 : α ≤ 1) (s : BState) (hsp : 250 < s.maxSp) (top : ℝ)
    (ht : Spec.FloorPressure α top)
    (hdef : ∀ q, (Spec.SearchedLevel top q ∨ q = Spec.minFloatPressure α top s) → ∃ x, floatSp sun α s q = .ok x)
    (q : ℝ) (hq : Spec.SearchedLevel top q) (hq2 : Spec.minFloatPressure α top s ≤ q)
    (hq3 : Spec.Safe (floatSp sun α s) 250 (s.maxSp - 250) q) :
    ∃ r, pressureRange sun α s = .ok r := by
  obtain ⟨v, hv, rfl⟩ := ht
  obtain ⟨v', hv', hf1, hf2⟩ := floor_exists α h0 h1
  have : v' = v := by rw [hv] at hv'; injection hv' with h; exact h.symm
  subst this
  have htop : 1000 < v'.pressure := by linarith
  have pw := levels_pairwise v'.pressure htop
  have hm := (levels_mem _ _).2 hq
  have hqt : q ≤ v'.pressure := by
    obtain ⟨i, hi, rfl⟩ := List.mem_map.1 hm
    exact (levels_range _ htop i (List.mem_range.1 hi)).2
  obtain ⟨lo, hlo⟩ := (search_max (floatSp sun α s) (Spec.minFloatPressure α v'.pressure s) 250 (s.maxSp - 250) _ pw).2
    ⟨q, hm, hq2, hq3⟩ (by
      intro p hp
      rcases List.mem_cons.1 hp with rfl | hp
      · exact hdef _ (.inr rfl)
      · exact hdef _ (.inl ((levels_mem _ _).1 hp)))
  have htopl : Spec.SearchedLevel v'.pressure v'.pressure := ⟨19, by norm_num, by push_cast; ring⟩
  obtain ⟨hi, hhi⟩ := (search_min (floatSp sun α s) v'.pressure 250 (s.maxSp - 250) _ pw).2
    ⟨q, hm, hqt, hq3⟩ (by
      intro p hp
      rcases List.mem_cons.1 hp with rfl | hp
      · exact hdef _ (.inl htopl)
      · exact hdef _ (.inl ((levels_mem _ _).1 hp)))
  rw [pressureRange_eq sun α h0 h1 s hsp v' hv, hlo]
  simp only
  rw [hhi]
  exact ⟨_, rfl⟩

end BLE
