import Verif.Props.Reward

/-!
# C161: more generous reward parameters never lower a reward
-/

namespace BLE

/-- The second parameters are at least as generous, and all are sensible: a drop between 0 and 1 and a positive half-life. -/
structure Spec.MoreGenerous (q q' : RewardParams) : Prop where
  radius : q.radiusKm ≤ q'.radiusKm
  drop0 : 0 ≤ q.dropoff
  drop : q.dropoff ≤ q'.dropoff
  drop1 : q'.dropoff ≤ 1
  half0 : 0 < q.halflife
  half : q.halflife ≤ q'.halflife

theorem shape_generous {q q' : RewardParams} (h : Spec.MoreGenerous q q') (d : ℝ) :
    0 ≤ Spec.shape 0.69314718056 q d ∧ Spec.shape 0.69314718056 q d ≤ Spec.shape 0.69314718056 q' d := by
  obtain ⟨h1, h2, h3, h4, h5, h6⟩ := h
  unfold Spec.shape
  by_cases c : d ≤ q.radiusKm * 1000
  · rw [if_pos c, if_pos (by linarith)]
    exact ⟨by norm_num, le_refl _⟩
  · rw [if_neg c]
    push Not at c
    have hx : 0 ≤ (d - q.radiusKm * 1000) / 1000 / q.halflife := by
      apply div_nonneg _ h5.le
      linarith
    have he : Real.exp (-(0.69314718056 * ((d - q.radiusKm * 1000) / 1000 / q.halflife))) ≤ 1 := by
      rw [Real.exp_le_one_iff]
      have : 0 ≤ 0.69314718056 * ((d - q.radiusKm * 1000) / 1000 / q.halflife) := mul_nonneg (by norm_num) hx
      linarith
    refine ⟨mul_nonneg h2 (Real.exp_pos _).le, ?_⟩
    by_cases c' : d ≤ q'.radiusKm * 1000
    · rw [if_pos c']
      calc _ ≤ 1 * 1 := mul_le_mul (by linarith) he (Real.exp_pos _).le (by norm_num)
        _ = 1 := by norm_num
    · rw [if_neg c']
      push Not at c'
      apply mul_le_mul h3 _ (Real.exp_pos _).le (by linarith)
      rw [Real.exp_le_exp]
      have : (d - q'.radiusKm * 1000) / 1000 / q'.halflife ≤ (d - q.radiusKm * 1000) / 1000 / q.halflife := by
        apply div_le_div₀ _ _ h5 h6
        · linarith
        · linarith
      linarith

/-- C161. A larger radius, a smaller drop at its edge or a longer half-life never lowers the reward of a state, and whether a reward is
computed at all does not depend on them. -/
theorem C161_state (sun : Sun) (q q' : RewardParams) (h : Spec.MoreGenerous q q') (s : BState) :
    (∀ r, reward sun q s = .ok r → ∃ r', reward sun q' s = .ok r' ∧ r ≤ r') ∧
    (∀ e, reward sun q s = .error e ↔ reward sun q' s = .error e) := by
  obtain ⟨a1, a2, a3, a4⟩ := reward_cases sun q h.half0.ne' s
  obtain ⟨b1, b2, b3, b4⟩ := reward_cases sun q' (lt_of_lt_of_le h.half0 h.half).ne' s
  obtain ⟨g0, g1⟩ := shape_generous h (relativeDistance s.x s.y)
  have fin : ∀ x y : ℝ, reward sun q s = .ok x → reward sun q' s = .ok y → x ≤ y →
      (∀ r, reward sun q s = .ok r → ∃ r', reward sun q' s = .ok r' ∧ r ≤ r') ∧
      (∀ e, reward sun q s = .error e ↔ reward sun q' s = .error e) := by
    intro x y hx hy hxy
    rw [hx, hy]
    refine ⟨fun r hr => ⟨y, rfl, ?_⟩, fun e => ⟨fun h => (by cases h), fun h => (by cases h)⟩⟩
    rw [← Except.ok.inj hr]; exact hxy
  by_cases hd : s.lastCommand = .down
  · rcases hx : s.excessEnergy sun with e | b
    · rw [a2 e hd hx, b2 e hd hx]
      exact ⟨fun r hr => (by cases hr), fun e' => Iff.rfl⟩
    · cases b
      · obtain ⟨m, hm, m0, -⟩ := powerMultiplier_eq s.acsPower
        exact fin _ _ (a4 ⟨hd, hx⟩ m hm) (b4 ⟨hd, hx⟩ m hm) (mul_le_mul_of_nonneg_right g1 (le_trans (by norm_num) m0))
      · exact fin _ _ (a3 hx) (b3 hx) g1
  · exact fin _ _ (a1 hd) (b1 hd) g1

/-- C161. Hence the sum of the rewards of any flight is not lowered either. -/
theorem C161_flight (sun : Sun) (q q' : RewardParams) (h : Spec.MoreGenerous q q') (flight : List BState) (rs : List ℝ)
    (hr : flight.mapM (reward sun q) = .ok rs) : ∃ rs', flight.mapM (reward sun q') = .ok rs' ∧ List.Forall₂ (· ≤ ·) rs rs' ∧
      rs.sum ≤ rs'.sum := by
  induction flight generalizing rs with
  | nil =>
    simp only [List.mapM_nil, pure, Except.pure, Except.ok.injEq] at hr
    subst hr
    exact ⟨[], rfl, .nil, le_refl _⟩
  | cons s flight ih =>
    simp only [List.mapM_cons, bind, Except.bind, pure, Except.pure] at hr ⊢
    cases e : reward sun q s with
    | error er => rw [e] at hr; cases hr
    | ok r =>
      rw [e] at hr
      simp only at hr
      cases e' : List.mapM (reward sun q) flight with
      | error er => rw [e'] at hr; cases hr
      | ok rs1 =>
        rw [e'] at hr
        simp only [Except.ok.injEq] at hr
        subst hr
        obtain ⟨rs', i1, i2, i3⟩ := ih rs1 e'
        obtain ⟨r', j1, j2⟩ := (C161_state sun q q' h s).1 r e
        rw [j1, i1]
        refine ⟨r' :: rs', rfl, .cons j2 i2, ?_⟩
        simp only [List.sum_cons]
        linarith

/-- The default parameters are sensible, and a radius of 75 km is more generous than the default one. -/
example (sun : Sun) (s : BState) (r : ℝ) (h : reward sun RewardParams.default s = .ok r) :
    ∃ r', reward sun ⟨75, 0.4, 100⟩ s = .ok r' ∧ r ≤ r' :=
  (C161_state sun RewardParams.default ⟨75, 0.4, 100⟩ ⟨by norm_num [RewardParams.default], by norm_num [RewardParams.default],
    by norm_num [RewardParams.default], by norm_num, by norm_num [RewardParams.default], by norm_num [RewardParams.default]⟩ s).1 r h

end BLE
