import Verif.Props.Turned

/-!
# C156: the wind moves a balloon and does nothing else to it
-/

namespace BLE

/-- Two balloons that are alike except for where they and their stations are. -/
def Spec.SameButPlace (s s' : BState) : Prop := s' = { s with x := s'.x, y := s'.y, center := s'.center }

/-- A sun that is seen alike from everywhere. -/
def Spec.SameSun (sun : Sun) : Prop := ∀ l l' t, sun l t = sun l' t

/-- Put somewhere else. -/
def Spec.putAt (c : LatLng) (x y : ℝ) (s : BState) : BState := { s with x := x, y := y, center := c }

theorem sameButPlace_iff (s s' : BState) : Spec.SameButPlace s s' ↔ ∃ c x y, s' = Spec.putAt c x y s := by
  constructor
  · intro h; exact ⟨s'.center, s'.x, s'.y, h⟩
  · rintro ⟨c, x, y, rfl⟩; rfl

theorem substep_putAt (sun : Sun) (hsun : Spec.SameSun sun) (α u v u' v' : ℝ) (a : Command) (stride : ℤ) (s : BState) (c : LatLng)
    (x y : ℝ) : substep sun α u' v' a stride (Spec.putAt c x y s) =
      (substep sun α u v a stride s).map (Spec.putAt c (x + u' * totalSeconds stride) (y + v' * totalSeconds stride)) := by
  unfold substep
  rw [hsun (Spec.putAt c x y s).latlng s.latlng]
  have e1 : newPressure α (Spec.putAt c x y s) stride = newPressure α s stride := rfl
  have e2 : acsEffect (Spec.putAt c x y s) a = acsEffect s a := rfl
  rw [e1, e2]
  simp only [bind, Except.bind]
  cases newPressure α s stride with
  | error e => rfl
  | ok p' =>
  simp only
  have e3 : (Spec.putAt c x y s).pressure = s.pressure := rfl
  have e4 : (Spec.putAt c x y s).dateTime = s.dateTime := rfl
  rw [e3, e4]
  cases atPressure α s.pressure with
  | error e => rfl
  | ok amb =>
  simp only
  have e5 : dTempDt (Spec.putAt c x y s).vol (Spec.putAt c x y s).envMass (Spec.putAt c x y s).intT (Spec.putAt c x y s).ambT
      s.pressure (sun s.latlng s.dateTime).el (sun s.latlng s.dateTime).flux (Spec.putAt c x y s).upwelling =
      dTempDt s.vol s.envMass s.intT s.ambT s.pressure (sun s.latlng s.dateTime).el (sun s.latlng s.dateTime).flux s.upwelling := rfl
  rw [e5]
  cases dTempDt s.vol s.envMass s.intT s.ambT s.pressure (sun s.latlng s.dateTime).el (sun s.latlng s.dateTime).flux s.upwelling with
  | error e => rfl
  | ok dT =>
  simp only
  split_ifs
  · cases solarPower (sun s.latlng s.dateTime).el s.pressure <;> rfl
  · rfl

theorem substepLoop_putAt (sun : Sun) (hsun : Spec.SameSun sun) (α u v u' v' : ℝ) (a : Command) (stride : ℤ) (c : LatLng) (n : ℕ)
    (s : BState) (x y : ℝ) : ∃ k : ℕ,
      (substepLoop (substep sun α u v a stride) n s).1.x = s.x + u * totalSeconds stride * k ∧
      (substepLoop (substep sun α u v a stride) n s).1.y = s.y + v * totalSeconds stride * k ∧
      substepLoop (substep sun α u' v' a stride) n (Spec.putAt c x y s) =
      (Spec.putAt c (x + u' * totalSeconds stride * k) (y + v' * totalSeconds stride * k)
        (substepLoop (substep sun α u v a stride) n s).1, (substepLoop (substep sun α u v a stride) n s).2) := by
  induction n generalizing s x y with
  | zero => exact ⟨0, by simp [substepLoop], by simp [substepLoop], by simp [substepLoop]⟩
  | succ n ih =>
    unfold substepLoop
    rw [substep_putAt sun hsun α u v u' v' a stride s c x y]
    cases h : substep sun α u v a stride s with
    | error e => exact ⟨0, by simp, by simp, by simp [Except.map]⟩
    | ok s1 =>
      obtain ⟨_, _, _, _, _, _, _, _, e⟩ := substep_ok h
      have hx : s1.x = s.x + u * totalSeconds stride := by rw [e]
      have hy : s1.y = s.y + v * totalSeconds stride := by rw [e]
      simp only [Except.map]
      have hst : (Spec.putAt c (x + u' * totalSeconds stride) (y + v' * totalSeconds stride) s1).status = s1.status := rfl
      rw [hst]
      split_ifs with h1
      · exact ⟨1, by simp [hx], by simp [hy], by simp⟩
      · obtain ⟨k, k1, k2, k3⟩ := ih s1 (x + u' * totalSeconds stride) (y + v' * totalSeconds stride)
        refine ⟨k + 1, ?_, ?_, ?_⟩
        · rw [k1, hx]; push_cast; ring
        · rw [k2, hy]; push_cast; ring
        · rw [k3]
          congr 2 <;> push_cast <;> ring

theorem safetyChain_putAt (α : ℝ) (s : BState) (a : Command) (c : LatLng) (x y : ℝ) :
    safetyChain α (Spec.putAt c x y s) a = (Spec.putAt c x y (safetyChain α s a).1, (safetyChain α s a).2) := by
  unfold safetyChain
  have e : (Spec.putAt c x y s).powerEnabled = s.powerEnabled := rfl
  by_cases hpe : s.powerEnabled = true
  · simp only [e, hpe, if_true]
    simp only [Spec.putAt]
    generalize s.power.getAction a s.dateTime s.nightLoad s.charge s.cap = pr
    rcases pr with ⟨pw, e | a1⟩
    · rfl
    · simp only
      cases atPressure α s.pressure <;> rfl
  · have hpe : s.powerEnabled = false := by simpa using hpe
    simp only [e, hpe, Bool.false_eq_true, if_false]
    simp only [Spec.putAt]
    cases atPressure α s.pressure <;> rfl

theorem simulateStep_putAt (sun : Sun) (hsun : Spec.SameSun sun) (α u v u' v' : ℝ) (a : Command) (td stride : ℤ) (c : LatLng)
    (s : BState) (x y : ℝ) : ∃ k : ℕ,
      (simulateStep sun α u v a td stride s).1.x = s.x + u * totalSeconds stride * k ∧
      (simulateStep sun α u v a td stride s).1.y = s.y + v * totalSeconds stride * k ∧
      simulateStep sun α u' v' a td stride (Spec.putAt c x y s) =
      (Spec.putAt c (x + u' * totalSeconds stride * k) (y + v' * totalSeconds stride * k)
        (simulateStep sun α u v a td stride s).1, (simulateStep sun α u v a td stride s).2) := by
  unfold simulateStep
  have e1 : ({ Spec.putAt c x y s with lastCommand := a } : BState) = Spec.putAt c x y { s with lastCommand := a } := rfl
  simp only [e1, safetyChain_putAt]
  have e2 : (Spec.putAt c x y s).status = s.status := rfl
  rw [e2]
  by_cases h : s.status ≠ .ok
  · simp only [if_pos h]
    exact ⟨0, by simp, by simp, by simp⟩
  · simp only [if_neg h]
    have hxy : (safetyChain α { s with lastCommand := a } a).1.x = s.x ∧ (safetyChain α { s with lastCommand := a } a).1.y = s.y := by
      unfold safetyChain
      by_cases hpe : s.powerEnabled = true
      · simp only [if_pos hpe]
        generalize s.power.getAction a s.dateTime s.nightLoad s.charge s.cap = pr
        rcases pr with ⟨pw, e | a1⟩
        · exact ⟨rfl, rfl⟩
        · simp only
          cases atPressure α s.pressure <;> exact ⟨rfl, rfl⟩
      · simp only [if_neg hpe]
        cases atPressure α s.pressure <;> exact ⟨rfl, rfl⟩
    generalize safetyChain α { s with lastCommand := a } a = sc at hxy
    rcases sc with ⟨s1, e | eff⟩
    · exact ⟨0, by simpa using hxy.1, by simpa using hxy.2, by simp⟩
    · simp only at hxy ⊢
      split_ifs
      · exact ⟨0, by simpa using hxy.1, by simpa using hxy.2, by simp⟩
      · exact ⟨0, by simpa using hxy.1, by simpa using hxy.2, by simp⟩
      · obtain ⟨k, k1, k2, k3⟩ := substepLoop_putAt sun hsun α u v u' v' eff stride c
          (Int.fdiv (Int.tdiv td usPerSec) (Int.tdiv stride usPerSec)).toNat s1 x y
        exact ⟨k, by rw [k1, hxy.1], by rw [k2, hxy.2], k3⟩

/-- C156. Under a sun that is seen alike from everywhere, winds and places make no difference to anything but the place: of two balloons
alike except for where they are, sent through the same commands in whatever different winds, one is at every time like the other except
for where it is, and every call succeeds or fails for both. -/
theorem C156_vertical (sun : Sun) (hsun : Spec.SameSun sun) (α : ℝ) (s s' : BState) (h : Spec.SameButPlace s s')
    (calls calls' : List StepCall)
    (hc : List.Forall₂ (fun c c' => c'.action = c.action ∧ c'.timeDelta = c.timeDelta ∧ c'.stride = c.stride) calls calls') :
    Spec.SameButPlace (simulateMany sun α s calls) (simulateMany sun α s' calls') ∧
      ∀ u v u' v' a td stride, (simulateStep sun α u' v' a td stride (simulateMany sun α s' calls')).2 =
        (simulateStep sun α u v a td stride (simulateMany sun α s calls)).2 := by
  have main : Spec.SameButPlace (simulateMany sun α s calls) (simulateMany sun α s' calls') := by
    induction hc generalizing s s' with
    | nil => exact h
    | @cons q q' calls calls' h1 h2 ih =>
      obtain ⟨c, x, y, rfl⟩ := (sameButPlace_iff s s').1 h
      obtain ⟨e1, e2, e3⟩ := h1
      obtain ⟨k, -, -, k3⟩ := simulateStep_putAt sun hsun α q.u q.v q'.u q'.v q.action q.timeDelta q.stride c s x y
      refine ih _ _ ?_
      show Spec.SameButPlace _ (simulateStep sun α q'.u q'.v q'.action q'.timeDelta q'.stride (Spec.putAt c x y s)).1
      rw [e1, e2, e3, k3]
      exact (sameButPlace_iff _ _).2 ⟨c, _, _, rfl⟩
  refine ⟨main, fun u v u' v' a td stride => ?_⟩
  obtain ⟨c, x, y, e⟩ := (sameButPlace_iff _ _).1 main
  obtain ⟨k, -, -, k3⟩ := simulateStep_putAt sun hsun α u v u' v' a td stride c (simulateMany sun α s calls) x y
  rw [e, k3]

/-- In calm air and in a storm the demonstration balloon has the same pressure and charge after two steps. -/
example (α : ℝ) (a b : Command) :
    let t := simulateMany (fun _ _ => ⟨45, 1000⟩) α demo [⟨0, 0, a, 180 * usPerSec, 10 * usPerSec⟩, ⟨0, 0, b, 180 * usPerSec, 10 * usPerSec⟩]
    let t' := simulateMany (fun _ _ => ⟨45, 1000⟩) α demo [⟨50, 7, a, 180 * usPerSec, 10 * usPerSec⟩, ⟨-3, 60, b, 180 * usPerSec, 10 * usPerSec⟩]
    t'.pressure = t.pressure ∧ t'.charge = t.charge := by
  have h := (C156_vertical (fun _ _ => ⟨45, 1000⟩) (fun _ _ _ => rfl) α demo demo rfl
    [⟨0, 0, a, 180 * usPerSec, 10 * usPerSec⟩, ⟨0, 0, b, 180 * usPerSec, 10 * usPerSec⟩]
    [⟨50, 7, a, 180 * usPerSec, 10 * usPerSec⟩, ⟨-3, 60, b, 180 * usPerSec, 10 * usPerSec⟩]
    (.cons ⟨rfl, rfl, rfl⟩ (.cons ⟨rfl, rfl, rfl⟩ .nil))).1
  exact ⟨by rw [h], by rw [h]⟩

/-- C156. And winds turned about the station make a turned flight. -/
theorem C156_turned (O : Spec.Turn) (sun : Sun) (hsun : Spec.SameSun sun) (α : ℝ) (s s' : BState) (h : Spec.SameButPlace s s')
    (hp : (s'.x, s'.y) = O.app (s.x, s.y)) (calls : List StepCall) :
    let t := simulateMany sun α s calls
    let t' := simulateMany sun α s' (calls.map fun c => { c with u := (O.app (c.u, c.v)).1, v := (O.app (c.u, c.v)).2 })
    Spec.SameButPlace t t' ∧ (t'.x, t'.y) = O.app (t.x, t.y) ∧ ∀ q, reward sun q t' = reward sun q t := by
  simp only
  have main : ∀ (calls : List StepCall) (s s' : BState), Spec.SameButPlace s s' → (s'.x, s'.y) = O.app (s.x, s.y) →
      Spec.SameButPlace (simulateMany sun α s calls) (simulateMany sun α s'
        (calls.map fun c => { c with u := (O.app (c.u, c.v)).1, v := (O.app (c.u, c.v)).2 })) ∧
      ((simulateMany sun α s' (calls.map fun c => { c with u := (O.app (c.u, c.v)).1, v := (O.app (c.u, c.v)).2 })).x,
        (simulateMany sun α s' (calls.map fun c => { c with u := (O.app (c.u, c.v)).1, v := (O.app (c.u, c.v)).2 })).y) =
        O.app ((simulateMany sun α s calls).x, (simulateMany sun α s calls).y) := by
    intro calls
    induction calls with
    | nil => intro s s' h hp; exact ⟨h, hp⟩
    | cons q calls ih =>
      intro s s' h hp
      obtain ⟨c, x, y, rfl⟩ := (sameButPlace_iff s s').1 h
      obtain ⟨k, k1, k2, k3⟩ := simulateStep_putAt sun hsun α q.u q.v (O.app (q.u, q.v)).1 (O.app (q.u, q.v)).2 q.action q.timeDelta
        q.stride c s x y
      refine ih _ _ ?_ ?_
      · simp only; rw [k3]; exact (sameButPlace_iff _ _).2 ⟨c, _, _, rfl⟩
      · simp only
        rw [k3, k1, k2]
        have hp' : (x, y) = O.app (s.x, s.y) := hp
        simp only [Spec.Turn.app, Prod.mk.injEq] at hp' ⊢
        show _ ∧ _
        simp only [Spec.putAt, hp'.1, hp'.2]
        constructor <;> ring
  obtain ⟨m1, m2⟩ := main calls s s' h hp
  refine ⟨m1, m2, fun q => ?_⟩
  generalize simulateMany sun α s calls = t at m1 m2
  generalize simulateMany sun α s' _ = t' at m1 m2
  obtain ⟨c, x, y, rfl⟩ := (sameButPlace_iff t t').1 m1
  have hd : relativeDistance (Spec.putAt c x y t).x (Spec.putAt c x y t).y = relativeDistance t.x t.y := by
    have := turn_distance O t.x t.y
    rw [← m2] at this
    exact this
  have hex : (Spec.putAt c x y t).excessEnergy sun = t.excessEnergy sun := by
    unfold BState.excessEnergy
    rw [hsun (Spec.putAt c x y t).latlng t.latlng]
    rfl
  unfold reward
  rw [hd, hex]
  rfl

/-- A quarter turn in a sun that never moves: the flight of the demonstration balloon in any westerly wind, and the turned one. -/
example (α u : ℝ) (a : Command) (s' : BState) (hs : s' = { demo with x := -demo.y, y := demo.x }) :
    let t := simulateMany (fun _ _ => ⟨45, 1000⟩) α demo [⟨u, 0, a, 180 * usPerSec, 10 * usPerSec⟩]
    let t' := simulateMany (fun _ _ => ⟨45, 1000⟩) α s' [⟨0, u, a, 180 * usPerSec, 10 * usPerSec⟩]
    t'.pressure = t.pressure ∧ t'.charge = t.charge ∧ t'.x = -t.y ∧ t'.y = t.x := by
  have := C156_turned ⟨0, -1, 1, 0, by norm_num, by norm_num, by norm_num⟩ (fun _ _ => ⟨45, 1000⟩) (fun _ _ _ => rfl) α demo s'
    (by rw [hs]; rfl) (by rw [hs]; simp [Spec.Turn.app]) [⟨u, 0, a, 180 * usPerSec, 10 * usPerSec⟩]
  obtain ⟨h1, h2, -⟩ := this
  simp only [Spec.Turn.app, List.map_cons, List.map_nil, zero_mul, add_zero, neg_mul, one_mul, zero_add, neg_zero,
    Prod.mk.injEq] at h1 h2
  refine ⟨?_, ?_, h2.1, h2.2⟩
  · rw [h1]
  · rw [h1]

end BLE
