import Verif.Model.WindAnim
import Verif.Props.Wind

/-!
# C165 — the animated wind field
-/

namespace BLE

/-- The time slice of frame `n`: up and down between 0 and 8. -/
def Spec.bounce (n : ℕ) : ℕ := min (n % 16) (16 - n % 16)

theorem windAnim_state {K : Type} (prngKey : ℤ → K) (sample : K → ℤ → GridField) (now : ℕ → ℤ) (start : ℤ) (n : ℕ) :
    windAnimAfter prngKey sample now (windAnimStart prngKey sample start) n = .ok
      { field := if n ≤ 16 then sample (prngKey 0) start
          else sample (prngKey (2 * ((n - 1) / 16 : ℕ))) (now (16 * ((n - 1) / 16)))
        timeStep := Spec.bounce n
        direction := if n = 0 ∨ 1 ≤ n % 16 ∧ n % 16 ≤ 8 then 1 else -1
        episode := ((n - 1) / 8 : ℕ) } := by
  induction n with
  | zero => rfl
  | succ n ih =>
    unfold windAnimAfter
    rw [ih]
    simp only [bind, Except.bind, windFrame, timeIndex]
    have hb : Spec.bounce n ≤ 8 := by unfold Spec.bounce; omega
    rw [if_neg (by omega : ¬ ((Spec.bounce n : ℤ) < -9 ∨ 9 ≤ (Spec.bounce n : ℤ))), if_neg (by omega : ¬ (Spec.bounce n : ℤ) < 0)]
    simp only [pure, Except.pure, Except.ok.injEq]
    have hm : n % 16 < 16 := Nat.mod_lt _ (by norm_num)
    by_cases h8 : n % 16 = 8
    · have hbn : Spec.bounce n = 8 := by unfold Spec.bounce; omega
      have hbs : Spec.bounce (n + 1) = 7 := by unfold Spec.bounce; omega
      rw [hbn, hbs, if_pos (by omega : n = 0 ∨ 1 ≤ n % 16 ∧ n % 16 ≤ 8), if_pos (by norm_num)]
      rw [WindAnim.mk.injEq]
      refine ⟨?_, by norm_num, by rw [if_neg (by omega)], by push_cast; omega⟩
      by_cases h : n ≤ 16
      · rw [if_pos h, if_pos (by omega)]
      · rw [if_neg h, if_neg (by omega), show (n + 1 - 1) / 16 = (n - 1) / 16 by omega]
    · by_cases h0 : n % 16 = 0
      · have hbn : Spec.bounce n = 0 := by unfold Spec.bounce; omega
        have hbs : Spec.bounce (n + 1) = 1 := by unfold Spec.bounce; omega
        by_cases hz : n = 0
        · subst hz
          rw [hbn, hbs]
          norm_num
        · rw [hbn, hbs, if_neg (by omega : ¬ (n = 0 ∨ 1 ≤ n % 16 ∧ n % 16 ≤ 8)), if_neg (by norm_num), if_pos (by norm_num)]
          rw [WindAnim.mk.injEq]
          have e : 16 * ((n + 1 - 1) / 16) = n := by omega
          refine ⟨?_, by norm_num, by rw [if_pos (by omega)], by push_cast; omega⟩
          rw [if_neg (by omega), e, show (((n - 1) / 8 : ℕ) : ℤ) + 1 = 2 * (((n + 1 - 1) / 16 : ℕ) : ℤ) by omega]
      · have hne : ¬ n = 0 := by omega
        have fe : (if n + 1 ≤ 16 then sample (prngKey 0) start
            else sample (prngKey (2 * ((n + 1 - 1) / 16 : ℕ))) (now (16 * ((n + 1 - 1) / 16)))) =
            if n ≤ 16 then sample (prngKey 0) start
            else sample (prngKey (2 * ((n - 1) / 16 : ℕ))) (now (16 * ((n - 1) / 16))) := by
          by_cases h : n ≤ 16
          · rw [if_pos h, if_pos (by omega)]
          · rw [if_neg h, if_neg (by omega), show (n + 1 - 1) / 16 = (n - 1) / 16 by omega]
        rw [fe]
        by_cases hd : n % 16 ≤ 8
        · have hbs : Spec.bounce (n + 1) = Spec.bounce n + 1 := by unfold Spec.bounce; omega
          have : Spec.bounce n ≤ 7 := by unfold Spec.bounce; omega
          rw [if_pos (by omega : n = 0 ∨ 1 ≤ n % 16 ∧ n % 16 ≤ 8), if_neg (by omega), if_neg (by omega), WindAnim.mk.injEq]
          exact ⟨rfl, by rw [hbs]; push_cast; rfl, by rw [if_pos (by omega)], by push_cast; omega⟩
        · have hbs : (Spec.bounce (n + 1) : ℤ) = Spec.bounce n - 1 := by unfold Spec.bounce; omega
          have : 1 ≤ Spec.bounce n := by unfold Spec.bounce; omega
          rw [if_neg (by omega : ¬ (n = 0 ∨ 1 ≤ n % 16 ∧ n % 16 ≤ 8)), if_neg (by omega), if_neg (by omega), WindAnim.mk.injEq]
          exact ⟨rfl, by rw [hbs]; ring, by rw [if_neg (by omega)], by push_cast; omega⟩

/-- C165. However long the animation runs, no frame raises; frame `n` shows all winds of one time slice, between the first and the last,
one slice away from that of the frame before; the first 17 frames show the field of key 0, and the 16 frames after frame 16 `q` the field
sampled after it with key 2 `q`. -/
theorem C165_sequence {K : Type} (prngKey : ℤ → K) (sample : K → ℤ → GridField) (now : ℕ → ℤ) (start : ℤ) (n : ℕ) :
    ∃ a b f, windAnimAfter prngKey sample now (windAnimStart prngKey sample start) n = .ok a ∧
      windFrame prngKey sample (now n) a = .ok (b, drawnArrow f (Spec.bounce n)) ∧
      windAnimAfter prngKey sample now (windAnimStart prngKey sample start) (n + 1) = .ok b ∧
      Spec.bounce n ≤ 8 ∧ |(Spec.bounce (n + 1) : ℤ) - Spec.bounce n| = 1 ∧
      (n ≤ 16 → f = sample (prngKey 0) start) ∧
      ∀ q, 0 < q → 16 * q < n → n ≤ 16 * q + 16 → f = sample (prngKey (2 * (q : ℤ))) (now (16 * q)) := by
  have h := windAnim_state prngKey sample now start n
  have hb : Spec.bounce n ≤ 8 := by unfold Spec.bounce; omega
  obtain ⟨b, hw⟩ : ∃ b, windFrame prngKey sample (now n)
      { field := if n ≤ 16 then sample (prngKey 0) start
          else sample (prngKey (2 * ((n - 1) / 16 : ℕ))) (now (16 * ((n - 1) / 16)))
        timeStep := Spec.bounce n
        direction := if n = 0 ∨ 1 ≤ n % 16 ∧ n % 16 ≤ 8 then 1 else -1
        episode := ((n - 1) / 8 : ℕ) } = .ok (b, drawnArrow (if n ≤ 16 then sample (prngKey 0) start
          else sample (prngKey (2 * ((n - 1) / 16 : ℕ))) (now (16 * ((n - 1) / 16)))) (Spec.bounce n)) := by
    unfold windFrame timeIndex
    simp only
    rw [if_neg (by omega : ¬ ((Spec.bounce n : ℤ) < -9 ∨ 9 ≤ (Spec.bounce n : ℤ))), if_neg (by omega : ¬ (Spec.bounce n : ℤ) < 0)]
    simp only [bind, Except.bind, pure, Except.pure, Int.toNat_natCast]
    exact ⟨_, rfl⟩
  refine ⟨_, b, _, h, hw, ?_, hb, ?_, fun hn => by rw [if_pos hn], fun q h0 h1 h2 => ?_⟩
  · unfold windAnimAfter
    rw [h]
    simp only [bind, Except.bind, hw]
    rfl
  · unfold Spec.bounce
    rw [abs_eq (by norm_num)]
    omega
  · rw [if_neg (by omega), show (n - 1) / 16 = q by omega]

/-- C165. Every field that is animated is shown at all hours: the first one and, for every `q`, the one sampled after frame 16 `q`. -/
theorem C165_all_hours {K : Type} (prngKey : ℤ → K) (sample : K → ℤ → GridField) (now : ℕ → ℤ) (start : ℤ) (q l : ℕ) (hl : l ≤ 8) :
    ∃ n a b, 16 * q ≤ n ∧ n ≤ 16 * q + 16 ∧
      windAnimAfter prngKey sample now (windAnimStart prngKey sample start) n = .ok a ∧
      windFrame prngKey sample (now n) a =
        .ok (b, drawnArrow (if q = 0 then sample (prngKey 0) start else sample (prngKey (2 * (q : ℤ))) (now (16 * q))) l) := by
  obtain ⟨a, b, f, h1, h2, -, -, -, h3, h4⟩ := C165_sequence prngKey sample now start (16 * q + 16 - l)
  have hb : Spec.bounce (16 * q + 16 - l) = l := by unfold Spec.bounce; omega
  rw [hb] at h2
  refine ⟨16 * q + 16 - l, a, b, by omega, by omega, h1, ?_⟩
  rw [h2]
  by_cases hq : q = 0
  · rw [if_pos hq, h3 (by omega)]
  · rw [if_neg hq, h4 q (by omega) (by omega) (by omega)]

/-! ## Places -/

theorem animGrid_proper : Spec.ProperShape FieldShape.default := by constructor <;> norm_num [FieldShape.default]

theorem animGrid_hours (l : ℕ) : FieldShape.default.timeGrid l = 6 * l := by
  unfold FieldShape.timeGrid linspace FieldShape.default
  have : (0 : ℝ) + l * (((48 : ℕ) : ℝ) - 0) / (((9 : ℕ) : ℝ) - 1) = ((6 * l : ℕ) : ℤ) := by push_cast; ring
  rw [this, Int.floor_intCast]
  push_cast; rfl

/-- C165, partial. The wind of every arrow is the forecast of the right hour and pressure, but for another place: that of an arrow drawn at
`(x, y)` is the forecast at `(10/3 y, 10/3 x)`. -/
theorem C165_places_partial (f : GridField) (l i j k : ℕ) (hl : l ≤ 8) (hi : i < 21) (hj : j < 21) (hk : k < 10) :
    let a := drawnArrow f l i j k
    gridForecast FieldShape.default (some f) (1000 * (10 / 3 * a.y)) (1000 * (10 / 3 * a.x)) a.p (l * 6 * 3600 * 1000000) =
      .ok a.wind := by
  have h := C35_nodes FieldShape.default animGrid_proper f i j k l hi hj hk (by show l < 9; omega) (l * 6 * 3600 * 1000000) (by
    rw [animGrid_hours]
    unfold hoursOf totalSeconds
    push_cast
    ring)
  have g : ∀ m : ℕ, 10 / 3 * linspace (-150) 150 21 m = FieldShape.default.latlngGrid m := by
    intro m
    unfold FieldShape.latlngGrid linspace FieldShape.default
    push_cast
    ring
  simp only [drawnArrow]
  rw [g, g]
  exact h

/-- C165, refuted. Not at its place: the arrow drawn in one corner, 150 km west and north, is the wind 500 km east and south, whatever
the wind is where it is drawn. -/
theorem C165_misplaced (l k : ℕ) (hl : l ≤ 8) (hk : k < 10) :
    (∀ f, (drawnArrow f l 20 0 k).x = -150 ∧ (drawnArrow f l 20 0 k).y = 150 ∧
      gridForecast FieldShape.default (some f) 500000 (-500000) (drawnArrow f l 20 0 k).p (l * 6 * 3600 * 1000000) =
        .ok (drawnArrow f l 20 0 k).wind) ∧
    ∀ w w' : ℝ × ℝ, ∃ f, (drawnArrow f l 20 0 k).wind = w ∧
      gridForecast FieldShape.default (some f) (-150000) 150000 (drawnArrow f l 20 0 k).p (l * 6 * 3600 * 1000000) = .ok w' := by
  have hx : ∀ f, (drawnArrow f l 20 0 k).x = -150 ∧ (drawnArrow f l 20 0 k).y = 150 := by
    intro f
    simp only [drawnArrow, linspace]
    norm_num
  refine ⟨fun f => ⟨(hx f).1, (hx f).2, ?_⟩, fun w w' => ?_⟩
  · have h := C165_places_partial f l 20 0 k hl (by norm_num) (by norm_num) hk
    simp only [(hx f).1, (hx f).2] at h
    norm_num at h ⊢
    exact h
  · refine ⟨fun i _ _ _ => if i = 20 then w else w', by simp [drawnArrow], ?_⟩
    have h := C35_nodes FieldShape.default animGrid_proper (fun i _ _ _ => if i = 20 then w else w') 7 13 k l (by show 7 < 21; omega)
      (by show 13 < 21; omega) hk (by show l < 9; omega) (l * 6 * 3600 * 1000000) (by
        rw [animGrid_hours]
        unfold hoursOf totalSeconds
        push_cast
        ring)
    have g7 : (1000 * FieldShape.default.latlngGrid 7 : ℝ) = -150000 := by
      unfold FieldShape.latlngGrid linspace FieldShape.default; norm_num
    have g13 : (1000 * FieldShape.default.latlngGrid 13 : ℝ) = 150000 := by
      unfold FieldShape.latlngGrid linspace FieldShape.default; norm_num
    rw [g7, g13] at h
    simp only [show (7 : ℕ) ≠ 20 by norm_num, if_false] at h
    exact h

/-- The first 19 frames show the slices 0 to 8, 7 to 0, then 1 and 2. -/
example : (List.range 19).map Spec.bounce = [0, 1, 2, 3, 4, 5, 6, 7, 8, 7, 6, 5, 4, 3, 2, 1, 0, 1, 2] := by decide

/-- Wherever it blows east on one side of the field only, the picture shows it on the south side. -/
example (f : GridField) (hf : ∀ i j k l, f i j k l = if i < 10 then (10, 0) else (0, 0)) (i j k l : ℕ) :
    (drawnArrow f l i j k).wind = (10, 0) ↔ (drawnArrow f l i j k).y < 0 := by
  simp only [drawnArrow, hf, linspace]
  by_cases h : i < 10
  · have : (i : ℝ) < 10 := by exact_mod_cast h
    simp only [h, if_true, true_iff]
    push_cast
    linarith
  · have : (10 : ℝ) ≤ i := by exact_mod_cast not_lt.1 h
    simp only [h, if_false, Prod.mk.injEq, and_true, not_lt]
    constructor
    · intro c; norm_num at c
    · intro c; push_cast at c; linarith

end BLE
