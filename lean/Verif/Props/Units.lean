import Verif.Model.Units
import Mathlib.Analysis.Real.Pi.Bounds
import Mathlib.Tactic.Linarith
import Mathlib.Tactic.FieldSimp
import Mathlib.Tactic.Ring
import Mathlib.Tactic.NormNum
import Mathlib.Tactic.Positivity

/-!
# C54–C57, C83: units and transforms
-/

namespace BLE

/-! ## C54 — unit conversions -/

/-- Reading a distance in any unit and building a distance from that reading gives the distance
back, whichever keyword is used; and the units have the right size. -/
theorem C54_distance_round_trip (d : ℝ) :
    ∃ m km ft : ℝ, (PyVal.dist d).get .m = .ok m ∧ (PyVal.dist d).get .meters = .ok m ∧
      (PyVal.dist d).get .km = .ok km ∧ (PyVal.dist d).get .kilometers = .ok km ∧
      (PyVal.dist d).get .feet = .ok ft ∧
      mkDistance m 0 0 0 0 = .dist d ∧ mkDistance 0 m 0 0 0 = .dist d ∧
      mkDistance 0 0 km 0 0 = .dist d ∧ mkDistance 0 0 0 km 0 = .dist d ∧
      mkDistance 0 0 0 0 ft = .dist d ∧ m = 1000 * km ∧ m = 0.3048 * ft := by
  refine ⟨d, d / 1000, d / metersPerFoot, rfl, rfl, rfl, rfl, rfl, ?_, ?_, ?_, ?_, ?_, by ring, ?_⟩ <;>
    (try simp only [mkDistance, PyVal.dist.injEq]) <;> norm_num [metersPerFoot] <;> ring

/-- The same for velocities; 1 m/s is 3.6 km/h. -/
theorem C54_velocity_round_trip (v : ℝ) :
    ∃ a b : ℝ, (PyVal.vel v).get .mps = .ok a ∧ (PyVal.vel v).get .metersPerSecond = .ok a ∧
      (PyVal.vel v).get .kmph = .ok b ∧ (PyVal.vel v).get .kilometersPerHour = .ok b ∧
      mkVelocity a 0 0 0 = .vel v ∧ mkVelocity 0 a 0 0 = .vel v ∧ mkVelocity 0 0 b 0 = .vel v ∧
      mkVelocity 0 0 0 b = .vel v ∧ b = 3.6 * a := by
  refine ⟨v, v * 3600 / 1000, rfl, rfl, rfl, rfl, ?_, ?_, ?_, ?_, by norm_num; ring⟩ <;>
    simp only [mkVelocity, PyVal.vel.injEq] <;> ring

/-- Velocity × time / time is the velocity again (either operand order), for every non-zero time;
distance / time × time is the distance again; both raise for zero time. -/
theorem C54_velocity_time (v d : ℝ) (t : ℤ) (ht : t ≠ 0) :
    (∃ x, (PyVal.vel v).mul (.td t) = .ok x ∧ (PyVal.td t).mul (.vel v) = .ok x ∧
      x.div (.td t) = .ok (.vel v)) ∧
    (∃ x, (PyVal.dist d).div (.td t) = .ok x ∧ x.mul (.td t) = .ok (.dist d)) ∧
    (PyVal.dist d).div (.td 0) = .error .zeroDivision := by
  have h : totalSeconds t ≠ 0 := by
    unfold totalSeconds
    exact div_ne_zero (by exact_mod_cast ht) (by norm_num)
  refine ⟨⟨mkDistance (v * totalSeconds t) 0 0 0 0, rfl, rfl, ?_⟩,
    ⟨mkVelocity (d / totalSeconds t) 0 0 0, ?_, ?_⟩, ?_⟩
  · simp only [mkDistance, PyVal.div, pyDiv]
    norm_num [h, Except.map, mkVelocity]
  · simp [PyVal.div, pyDiv, h, Except.map]
  · simp only [mkVelocity, PyVal.mul, PyVal.mulMethod, mkDistance]
    norm_num [h]
  · simp [PyVal.div, pyDiv, totalSeconds, Except.map]

/-- A power over a time is an energy: `w` watts over one hour are `w` Wh, energies of adjacent
intervals add up, and scaling the power scales the energy; both operand orders agree. -/
theorem C54_power_time (w k : ℝ) (t t' : ℤ) :
    (PyVal.power w).mul (.td 3600000000) = .ok (.energy w) ∧
    (PyVal.power w).mul (.td t) = (PyVal.td t).mul (.power w) ∧
    (∃ e e' e'', (PyVal.power w).mul (.td t) = .ok e ∧ (PyVal.power w).mul (.td t') = .ok e' ∧
      e.add e' = .ok e'' ∧ (PyVal.power w).mul (.td (t + t')) = .ok e'') ∧
    (∃ e e', (PyVal.power w).mul (.td t) = .ok e ∧ e.mul (.num k) = .ok e' ∧
      (PyVal.power (w * k)).mul (.td t) = .ok e') := by
  refine ⟨?_, rfl, ⟨_, _, _, rfl, rfl, rfl, ?_⟩, ⟨_, _, rfl, rfl, ?_⟩⟩
  · simp [PyVal.mul, PyVal.mulMethod, mkEnergy, hoursOf, totalSeconds]; norm_num
  · simp only [PyVal.mul, PyVal.mulMethod, mkEnergy, hoursOf, totalSeconds, Int.cast_add, Except.ok.injEq,
      PyVal.energy.injEq]
    ring
  · simp only [PyVal.mul, PyVal.mulMethod, mkEnergy, Except.ok.injEq, PyVal.energy.injEq]
    ring

/-- Addition and subtraction are those of the stored numbers and undo each other. -/
theorem C54_add_sub (a b : ℝ) :
    (∃ s, (PyVal.dist a).add (.dist b) = .ok s ∧ s.get .m = .ok (a + b) ∧ s.sub (.dist b) = .ok (.dist a)) ∧
    (∃ s, (PyVal.vel a).add (.vel b) = .ok s ∧ s.get .mps = .ok (a + b) ∧ s.sub (.vel b) = .ok (.vel a)) ∧
    (∃ s, (PyVal.energy a).add (.energy b) = .ok s ∧ s.get .wattHours = .ok (a + b) ∧
      s.sub (.energy b) = .ok (.energy a)) ∧
    (∃ s, (PyVal.power a).add (.power b) = .ok s ∧ s.get .watts = .ok (a + b) ∧
      s.sub (.power b) = .ok (.power a)) := by
  refine ⟨⟨_, rfl, ?_, ?_⟩, ⟨_, rfl, ?_, ?_⟩, ⟨_, rfl, ?_, ?_⟩, ⟨_, rfl, ?_, ?_⟩⟩ <;>
    simp [PyVal.get, PyVal.sub, mkDistance, mkVelocity, mkEnergy, mkPower]

/-- Whenever comparing two quantities of the same kind yields a boolean, that boolean is the
comparison of the stored numbers; it always does for distances and energies, and for `<`, `>` of
powers. -/
theorem C54_comparisons (a b : ℝ) (c : Cmp) :
    (∃ r : Bool, (PyVal.dist a).cmp c (.dist b) = .ok (.bool r) ∧ (r = true ↔ c.holds a b)) ∧
    (∃ r : Bool, (PyVal.energy a).cmp c (.energy b) = .ok (.bool r) ∧ (r = true ↔ c.holds a b)) ∧
    ((c = .lt ∨ c = .gt) →
      ∃ r : Bool, (PyVal.power a).cmp c (.power b) = .ok (.bool r) ∧ (r = true ↔ c.holds a b)) ∧
    (∀ r : Bool, (PyVal.power a).cmp c (.power b) = .ok (.bool r) → (r = true ↔ c.holds a b)) := by
  refine ⟨⟨@decide (c.holds a b) (Classical.propDecidable _), rfl, by simp⟩, ?_⟩
  cases c <;>
    simp [PyVal.cmp, PyVal.cmpMethod, Cmp.swap, Cmp.holds] <;> intro r h <;> rw [← h] <;> simp

/-- The norm of an offset: non-negative, symmetric, zero exactly at the target, and the triangle
inequality along an axis. -/
theorem C54_relative_distance (a b : ℝ) :
    ∃ r : ℝ, relDistance (.dist a) (.dist b) = .ok (.dist r) ∧ relDistance (.dist b) (.dist a) = .ok (.dist r) ∧
      0 ≤ r ∧ r ^ 2 = a ^ 2 + b ^ 2 ∧ (r = 0 ↔ a = 0 ∧ b = 0) := by
  have h0 : 0 ≤ a ^ 2 + b ^ 2 := by positivity
  refine ⟨Real.sqrt (a ^ 2 + b ^ 2), ?_, ?_, Real.sqrt_nonneg _, Real.sq_sqrt h0, ?_⟩
  · simp [relDistance, PyVal.get, bind, Except.bind, pure, Except.pure, mkDistance]
  · simp [relDistance, PyVal.get, bind, Except.bind, pure, Except.pure, mkDistance, add_comm]
  · rw [Real.sqrt_eq_zero h0]
    constructor
    · intro h
      constructor <;> nlinarith [sq_nonneg a, sq_nonneg b]
    · rintro ⟨rfl, rfl⟩; simp

/-- Non-trivial instances: 10 ft, 36 km/h over 90 minutes, 120 W over 3 minutes. -/
example : (mkDistance 0 0 0 0 10).get .m = .ok 3.048 := by
  simp [mkDistance, PyVal.get, metersPerFoot]; norm_num
example : (mkVelocity 0 0 36 0).mul (.td 5400000000) = .ok (.dist 54000) := by
  simp [mkVelocity, PyVal.mul, PyVal.mulMethod, totalSeconds, mkDistance]; norm_num
example : (mkPower 120).mul (.td 180000000) = .ok (.energy 6) := by
  simp [mkPower, PyVal.mul, PyVal.mulMethod, hoursOf, totalSeconds, mkEnergy]; norm_num
example : relDistance (.dist 3000) (.dist (-4000)) = .ok (.dist 5000) := by
  have : Real.sqrt (25000000 : ℝ) = 5000 := by
    rw [show (25000000 : ℝ) = 5000 ^ 2 by norm_num]; exact Real.sqrt_sq (by norm_num)
  simp [relDistance, PyVal.get, bind, Except.bind, pure, Except.pure, mkDistance]
  norm_num [this]

/-! ## C55 — equality of quantities

False for distances and velocities: equality has a tolerance of 1e-9. What holds, and the refutation. -/

/-- Equality of the Boolean answer of `==` on two values. -/
def Spec.saysEqual (a b : PyVal) : Prop := a.eq b = .ok (.bool true)

/-- What an equality consistent with `<` should satisfy on a set of values. -/
structure Spec.GoodEquality (S : PyVal → Prop) : Prop where
  refl : ∀ a, S a → Spec.saysEqual a a
  symm : ∀ a b, S a → S b → Spec.saysEqual a b → Spec.saysEqual b a
  trans : ∀ a b c, S a → S b → S c → Spec.saysEqual a b → Spec.saysEqual b c → Spec.saysEqual a c
  notLess : ∀ a b, S a → S b → Spec.saysEqual a b → a.cmp .lt b ≠ .ok (.bool true)

/-- Energies and powers have such an equality. -/
theorem C55_energy_power :
    Spec.GoodEquality (fun v => ∃ x, v = .energy x) ∧ Spec.GoodEquality (fun v => ∃ x, v = .power x) := by
  constructor <;> constructor <;>
    simp +contextual [Spec.saysEqual, PyVal.eq, PyVal.cmp, PyVal.cmpMethod, Cmp.swap]

theorem dist_lt_iff (a b : ℝ) : (PyVal.dist a).cmp .lt (.dist b) = .ok (.bool true) ↔ a < b := by
  simp only [PyVal.cmp, PyVal.cmpMethod, Except.ok.injEq, PyVal.bool.injEq, decide_eq_true_eq]
  rfl

/-- For distances and velocities, equality is reflexive and symmetric, implied by sameness, and never
confuses values 1e-9 or more apart; and of two distances exactly one of "less", "same number",
"greater" holds. Transitivity and consistency with `<` are missing: they fail, see
`C55_not_transitive`. -/
theorem C55_tolerance_partial (a b : ℝ) :
    Spec.saysEqual (.dist a) (.dist a) ∧ Spec.saysEqual (.vel a) (.vel a) ∧
    (Spec.saysEqual (.dist a) (.dist b) ↔ Spec.saysEqual (.dist b) (.dist a)) ∧
    (Spec.saysEqual (.vel a) (.vel b) ↔ Spec.saysEqual (.vel b) (.vel a)) ∧
    (1e-9 ≤ |a - b| → ¬ Spec.saysEqual (.dist a) (.dist b) ∧ ¬ Spec.saysEqual (.vel a) (.vel b)) ∧
    (¬ Spec.saysEqual (.dist a) (.dist b) →
      ((PyVal.dist a).cmp .lt (.dist b) = .ok (.bool true) ↔
        ¬ (PyVal.dist b).cmp .lt (.dist a) = .ok (.bool true))) := by
  refine ⟨?_, ?_, ?_, ?_, ?_, ?_⟩
  · simp [Spec.saysEqual, PyVal.eq]; norm_num
  · simp [Spec.saysEqual, PyVal.eq]; norm_num
  · simp [Spec.saysEqual, PyVal.eq, abs_sub_comm]
  · simp [Spec.saysEqual, PyVal.eq, abs_sub_comm]
  · intro h
    simp only [Spec.saysEqual, PyVal.eq, Except.ok.injEq, PyVal.bool.injEq, decide_eq_true_eq, not_lt]
    exact ⟨h, h⟩
  · intro h
    simp only [Spec.saysEqual, PyVal.eq, Except.ok.injEq, PyVal.bool.injEq, decide_eq_true_eq, not_lt] at h
    rw [dist_lt_iff, dist_lt_iff, not_lt]
    constructor
    · exact fun h => h.le
    · intro h'
      rcases h'.lt_or_eq with h2 | h2
      · exact h2
      · subst h2; norm_num at h

/-- The property fails for distances (not transitive, and equal distances can compare as less) and
for velocities (not transitive). -/
theorem C55_not_transitive :
    ¬ Spec.GoodEquality (fun v => ∃ x, v = .dist x) ∧
    (∃ a b, Spec.saysEqual (.dist a) (.dist b) ∧ (PyVal.dist a).cmp .lt (.dist b) = .ok (.bool true)) ∧
    ¬ (∀ a b c, Spec.saysEqual (.vel a) (.vel b) → Spec.saysEqual (.vel b) (.vel c) →
      Spec.saysEqual (.vel a) (.vel c)) := by
  refine ⟨?_, ⟨0, 5e-10, ?_, ?_⟩, ?_⟩
  · intro h
    have := h.trans (.dist 0) (.dist 6e-10) (.dist 12e-10) ⟨_, rfl⟩ ⟨_, rfl⟩ ⟨_, rfl⟩
    simp only [Spec.saysEqual, PyVal.eq, Except.ok.injEq, PyVal.bool.injEq, decide_eq_true_eq] at this
    norm_num [abs_lt] at this
  · simp only [Spec.saysEqual, PyVal.eq, Except.ok.injEq, PyVal.bool.injEq, decide_eq_true_eq]
    norm_num [abs_lt]
  · rw [dist_lt_iff]; norm_num
  · intro h
    have := h 0 6e-10 12e-10
    simp only [Spec.saysEqual, PyVal.eq, Except.ok.injEq, PyVal.bool.injEq, decide_eq_true_eq] at this
    norm_num [abs_lt] at this

/-! ## C83 — mixing kinds -/

/-- The kind of a value. -/
def Spec.kind : PyVal → ℕ
  | .num _ => 0 | .dist _ => 1 | .vel _ => 2 | .energy _ => 3 | .power _ => 4 | .td _ => 5 | .bool _ => 6
  | .excObj => 7

/-- The four quantity kinds. -/
def Spec.isQuantity (v : PyVal) : Prop := 1 ≤ Spec.kind v ∧ Spec.kind v ≤ 4

/-- Adding or subtracting a quantity and anything of another kind raises, on either side; so does
equality, and so does every ordering comparison except `>=` with an energy on the left or `<=` with
an energy on the right (and nothing else orderable on the other side): those are the ones in
`C83_energy_ge`. -/
theorem C83_mixed_kinds_raise_partial (a b : PyVal) (hk : Spec.kind a ≠ Spec.kind b)
    (hq : Spec.isQuantity a ∨ Spec.isQuantity b) :
    (∃ e, a.add b = .error e) ∧ (∃ e, a.sub b = .error e) ∧
    (Spec.isQuantity a → ∃ e, a.eq b = .error e) ∧
    (∀ c : Cmp, (∃ e, a.cmp c b = .error e) ∨
      (c = .ge ∧ Spec.kind a = 3) ∨ (c = .le ∧ Spec.kind b = 3 )) := by
  cases a <;> cases b <;> simp [Spec.kind, Spec.isQuantity] at hk hq <;>
    refine ⟨⟨_, rfl⟩, ⟨_, rfl⟩, ?_, ?_⟩ <;>
    first
      | (intro _; exact ⟨_, rfl⟩)
      | (intro c; cases c <;> simp [PyVal.cmp, PyVal.cmpMethod, Cmp.swap, Spec.kind])

/-- The exception: comparing an energy with `>=` against any non-energy does not raise, and the
result counts as true in an `if`, whatever the numbers. -/
theorem C83_energy_ge (x : ℝ) (b : PyVal) (hb : Spec.kind b ≠ 3) :
    ∃ r, (PyVal.energy x).cmp .ge b = .ok r ∧ r.truthy := by
  cases b <;> simp [Spec.kind] at hb <;> exact ⟨.excObj, rfl, trivial⟩

/-- E.g. `Energy(watt_hours=-5) >= 1000000.0` counts as true. -/
example : ∃ r, (PyVal.energy (-5)).cmp .ge (.num 1000000) = .ok r ∧ r.truthy :=
  C83_energy_ge (-5) (.num 1000000) (by simp [Spec.kind])

/-- Products and quotients of incompatible kinds raise: a distance can only be scaled by a number, a
velocity or power only by a time; distances divide by numbers, times, distances. -/
theorem C83_products (a b r : PyVal) :
    (a.mul b = .ok r → (Spec.kind a, Spec.kind b, Spec.kind r) ∈
      ([(1,0,1), (1,6,1), (0,1,1), (6,1,1), (2,5,1), (5,2,1), (3,0,3), (3,6,3), (0,3,3), (6,3,3), (4,5,3),
        (5,4,3)] : List (ℕ × ℕ × ℕ))) ∧
    (a.div b = .ok r → (Spec.kind a, Spec.kind b, Spec.kind r) ∈
      ([(1,0,1), (1,6,1), (1,5,2), (1,1,0), (2,0,2), (2,6,2), (3,3,0)] : List (ℕ × ℕ × ℕ))) := by
  constructor
  · cases a <;> cases b <;> simp [PyVal.mul, PyVal.mulMethod] <;> rintro rfl <;>
      simp [Spec.kind, mkDistance, mkEnergy]
  · cases a <;> cases b <;> simp only [PyVal.div, reduceCtorEq, false_implies] <;>
      generalize pyDiv _ _ = q <;> cases q <;>
      simp only [Except.map, reduceCtorEq, false_implies, Except.ok.injEq] <;> rintro rfl <;>
      simp [Spec.kind, mkDistance, mkVelocity]

/-! ## C56 — rescaling and squashing -/

/-- Rescaling maps the interval onto [0,1] and is undone exactly; invalid intervals raise. -/
theorem C56_rescale (x vmin vmax : ℝ) :
    (vmax ≤ vmin → rescale x vmin vmax = .error .value ∧ undoRescale x vmin vmax = .error .value ∧
      rescaleSat x vmin vmax = .error .value) ∧
    (vmin < vmax →
      (∃ y, rescale x vmin vmax = .ok y ∧ undoRescale y vmin vmax = .ok x ∧
        (0 ≤ y ↔ vmin ≤ x) ∧ (y ≤ 1 ↔ x ≤ vmax)) ∧
      (∃ y, undoRescale x vmin vmax = .ok y ∧ rescale y vmin vmax = .ok x)) := by
  constructor
  · intro h; simp [rescale, undoRescale, rescaleSat, h, Except.map]
  · intro h
    have hp : 0 < vmax - vmin := by linarith
    have hn : ¬ vmax ≤ vmin := by linarith
    refine ⟨⟨(x - vmin) / (vmax - vmin), by simp [rescale, hn], ?_, ?_, ?_⟩,
      ⟨vmin + x * (vmax - vmin), by simp [undoRescale, hn], ?_⟩⟩
    · simp only [undoRescale, hn, if_false, Except.ok.injEq]; field_simp; ring
    · rw [le_div_iff₀ hp]; simp
    · rw [div_le_one hp]; constructor <;> intro <;> linarith
    · simp only [rescale, hn, if_false, Except.ok.injEq]; field_simp; ring

/-- Saturation: always in [0,1]; equals the extrapolated value inside the interval, 0 below and 1
above. -/
theorem C56_saturation (x vmin vmax : ℝ) (h : vmin < vmax) :
    ∃ y, rescaleSat x vmin vmax = .ok y ∧ 0 ≤ y ∧ y ≤ 1 ∧
      (x ≤ vmin → y = 0) ∧ (vmax ≤ x → y = 1) ∧
      (vmin ≤ x → x ≤ vmax → rescale x vmin vmax = .ok y) := by
  have hp : 0 < vmax - vmin := by linarith
  have hn : ¬ vmax ≤ vmin := by linarith
  refine ⟨clip ((x - vmin) / (vmax - vmin)) 0 1, by simp [rescaleSat, rescale, hn, Except.map], ?_, ?_, ?_, ?_, ?_⟩
  · exact le_min (le_max_right _ _) zero_le_one
  · exact min_le_right _ _
  · intro hx
    have : (x - vmin) / (vmax - vmin) ≤ 0 := div_nonpos_of_nonpos_of_nonneg (by linarith) hp.le
    simp [clip, this]
  · intro hx
    have : 1 ≤ (x - vmin) / (vmax - vmin) := by rw [le_div_iff₀ hp]; linarith
    unfold clip
    rw [max_eq_left (by linarith), min_eq_right this]
  · intro h1 h2
    have h3 : 0 ≤ (x - vmin) / (vmax - vmin) := div_nonneg (by linarith) hp.le
    have h4 : (x - vmin) / (vmax - vmin) ≤ 1 := by rw [div_le_one hp]; linarith
    simp only [rescale, hn, if_false, clip, max_eq_left h3, min_eq_left h4]

/-- Squashing: raises for a non-positive constant or a negative input; otherwise lands in [0,1), is
strictly increasing, sends the constant to one half, and is undone exactly. -/
theorem C56_squash (x c : ℝ) :
    (c ≤ 0 → squash x c = .error .value ∧ undoSquash x c = .error .value) ∧
    (x < 0 → squash x c = .error .value) ∧
    (0 < c → 0 ≤ x → ∃ y, squash x c = .ok y ∧ 0 ≤ y ∧ y < 1 ∧ undoSquash y c = .ok x ∧
      (x = c → y = 1 / 2) ∧ ∀ x' y', x < x' → squash x' c = .ok y' → y < y') := by
  refine ⟨fun h => by simp [squash, undoSquash, h], fun h => by simp [squash, h], ?_⟩
  intro hc hx
  have hs : 0 < x + c := by linarith
  refine ⟨x / (x + c), by simp [squash, not_le.2 hc, not_lt.2 hx], div_nonneg hx hs.le,
    by rw [div_lt_one hs]; linarith, ?_, ?_, ?_⟩
  · have h1 : x / (x + c) < 1 := by rw [div_lt_one hs]; linarith
    have h0 : 0 ≤ x / (x + c) := div_nonneg hx hs.le
    have hne : (1 : ℝ) - x / (x + c) ≠ 0 := by linarith
    unfold undoSquash
    rw [if_neg (by linarith), if_neg (by intro h; linarith [h.1]), pyDiv, if_neg hne]
    congr 1
    rw [div_eq_iff hne]; field_simp; ring
  · rintro rfl; field_simp; ring
  · intro x' y' hxx hy
    simp only [squash, not_le.2 hc, if_false, not_lt.2 (hx.trans hxx.le), Except.ok.injEq] at hy
    rw [← hy, div_lt_div_iff₀ hs (by linarith)]
    nlinarith

/-- Arrays: squashed entrywise, or rejected as a whole when any entry is negative. -/
theorem C56_squash_array (xs : List ℝ) (c : ℝ) (hc : 0 < c) :
    ((∃ x ∈ xs, x < 0) → squashArray xs c = .error .value) ∧
    ((∀ x ∈ xs, 0 ≤ x) → ∃ ys, squashArray xs c = .ok ys ∧ ys.length = xs.length ∧
      ∀ i (h : i < xs.length) (h' : i < ys.length), squash xs[i] c = .ok ys[i]) := by
  constructor
  · rintro ⟨x, hx, h⟩
    have : (xs.any fun x => decide (x < 0)) = true := List.any_eq_true.2 ⟨x, hx, by simpa using h⟩
    simp [squashArray, this]
  · intro h
    have : (xs.any fun x => decide (x < 0)) = false := by
      rw [List.any_eq_false]; intro x hx; simpa using h x hx
    refine ⟨xs.map fun x => x / (x + c), by simp [squashArray, this, not_le.2 hc], by simp, ?_⟩
    intro i hi hi'
    simp [squash, not_le.2 hc, not_lt.2 (h _ (List.getElem_mem hi))]

/-- Instances: 9500 Pa in [5000, 14000], a superpressure ratio, a squash of 40 by 40 km. -/
example : rescale 9500 5000 14000 = .ok 0.5 := by norm_num [rescale]
example : rescaleSat 350 100 300 = .ok 1 := by norm_num [rescaleSat, rescale, Except.map, clip]
example : squash 60 20 = .ok 0.75 ∧ undoSquash 0.75 20 = .ok 60 := by
  constructor <;> norm_num [squash, undoSquash, pyDiv]

/-! ## C57 — the guard of `undo_squash_to_unit_interval` -/

/-- What does hold: for a positive constant, exactly `x = 1` fails (by division by zero, not by the
guard). Missing: rejection of the other values outside [0,1); it fails, see `C57_not_rejected`. -/
theorem C57_guard_partial (x c : ℝ) (hc : 0 < c) :
    ((∃ e, undoSquash x c = .error e) ↔ x = 1) ∧ undoSquash 1 c = .error .zeroDivision := by
  constructor
  · unfold undoSquash
    rw [if_neg (by linarith), if_neg (by intro h; linarith [h.1, h.2]), pyDiv]
    split_ifs with h
    · exact ⟨fun _ => by linarith, fun _ => ⟨_, rfl⟩⟩
    · exact ⟨fun ⟨e, he⟩ => (by cases he), fun hx => absurd (by linarith) h⟩
  · unfold undoSquash
    rw [if_neg (by linarith), if_neg (by norm_num), pyDiv, if_pos (by norm_num)]

/-- The documented rejection never happens: the `ValueError` of the guard is raised for no `x` at all
(with a valid constant), and every `x` outside [0,1) other than 1 gives a number. -/
theorem C57_not_rejected (x c : ℝ) (hc : 0 < c) :
    undoSquash x c ≠ .error .value ∧ (x < 0 ∨ 1 < x → ∃ y, undoSquash x c = .ok y ∧ y < 0) := by
  constructor
  · intro h
    have h1 := (C57_guard_partial x c hc).1.1 ⟨_, h⟩
    rw [h1, (C57_guard_partial x c hc).2] at h
    cases h
  · intro h
    have hne : (1 : ℝ) - x ≠ 0 := by rcases h with h | h <;> intro h' <;> linarith
    refine ⟨x * c / (1 - x), ?_, ?_⟩
    · unfold undoSquash
      rw [if_neg (by linarith), if_neg (by intro h; linarith [h.1, h.2]), pyDiv, if_neg hne]
    · rcases h with h | h
      · exact div_neg_of_neg_of_pos (mul_neg_of_neg_of_pos h hc) (by linarith)
      · exact div_neg_of_pos_of_neg (mul_pos (by linarith) hc) (by linarith)

example : undoSquash 1.5 20 = .ok (-60) := by norm_num [undoSquash, pyDiv]

/-- C54. Distances convert to degrees of arc in proportion, a degree being 111 km; the degree of the mean Earth sphere
comes out within two parts in a thousand. Only distances convert. -/
theorem C54_degrees (d : ℝ) :
    (∃ g, distanceToDegrees (.dist d) = .ok g ∧ d = 111000 * g) ∧
    (∃ g, distanceToDegrees (.dist (2 * Real.pi * 6371000 / 360)) = .ok g ∧ 1 ≤ g ∧ g ≤ 1.002) ∧
    (∀ v, (∀ x, v ≠ .dist x) → ∃ e, distanceToDegrees v = .error e) := by
  refine ⟨⟨_, rfl, by ring⟩, ⟨_, rfl, ?_, ?_⟩, ?_⟩
  · have := Real.pi_gt_d4
    rw [le_div_iff₀ (by norm_num), le_div_iff₀ (by norm_num), le_div_iff₀ (by norm_num)]
    norm_num at *; linarith
  · have := Real.pi_lt_d4
    rw [div_le_iff₀ (by norm_num), div_le_iff₀ (by norm_num), div_le_iff₀ (by norm_num)]
    norm_num at *; linarith
  · intro v hv
    cases v <;> first | exact absurd rfl (hv _) | exact ⟨_, rfl⟩

end BLE
