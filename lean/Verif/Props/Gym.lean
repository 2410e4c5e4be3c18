import Verif.Model.Gym

/-!
# C143: the environment is registered once, under its plain name
-/

namespace BLE

/-- The id an event of another package registers. -/
def Spec.otherId (hasNs : Bool) : GymEvent → Option String
  | .ours _ => none
  | .other n id _ => some (match (if hasNs then n else none) with
    | none => id
    | some n => n ++ "/" ++ id)

/-- Whether an event comes from another package. -/
def Spec.foreign : GymEvent → Bool
  | .ours _ => false
  | .other _ _ _ => true

theorem event_ours (g : GymRegistry) (n : Option String) (h0 : g.ns = none) :
    g.event (.ours n) = if (g.specs bleEnvId).isSome then g
      else { g with specs := Function.update g.specs bleEnvId (some bleEntryPoint) } := by
  obtain ⟨sp, ns, hn, w⟩ := g
  simp only at h0
  subst h0
  rcases hs : sp bleEnvId with _ | e
  · cases hn <;> simp [GymRegistry.event, registerEnv, GymRegistry.register, GymRegistry.fullId, hs]
  · cases hn <;> simp [GymRegistry.event, registerEnv, hs]

theorem event_other (g : GymRegistry) (n : Option String) (id entry : String) (h0 : g.ns = none) :
    ∃ full, Spec.otherId g.hasNamespace (.other n id entry) = some full ∧
    g.event (.other n id entry) = { g with specs := Function.update g.specs full (some entry)
                                           warnings := if (g.specs full).isSome then g.warnings + 1 else g.warnings } := by
  obtain ⟨sp, ns, hn, w⟩ := g
  simp only at h0
  subst h0
  refine ⟨_, rfl, ?_⟩
  cases hn <;> cases n <;> rfl

/-- C143. Whatever gym's version (with namespaces or without), however often, in whatever order and inside whatever namespaces
the plugin loader and imports of the package call `register_env`, and whatever other packages register in between under other
names: once it was called, the plain id `BalloonLearningEnvironment-v0` leads to `BalloonEnv` for good; every other entry,
and the number of warnings, is what it would be had the package never been there; and the namespace in force is unchanged. -/
theorem C143_registered_once (g : GymRegistry) (hns : g.ns = none) (hnew : g.specs "BalloonLearningEnvironment-v0" = none)
    (evs : List GymEvent) (hother : ∀ e ∈ evs, Spec.otherId g.hasNamespace e ≠ some "BalloonLearningEnvironment-v0") :
    ((evs.foldl GymRegistry.event g).specs "BalloonLearningEnvironment-v0" =
      if evs.all Spec.foreign then none else some "balloon_learning_environment.env.balloon_env:BalloonEnv") ∧
    (∀ id, id ≠ "BalloonLearningEnvironment-v0" →
      (evs.foldl GymRegistry.event g).specs id = ((evs.filter Spec.foreign).foldl GymRegistry.event g).specs id) ∧
    (evs.foldl GymRegistry.event g).warnings = ((evs.filter Spec.foreign).foldl GymRegistry.event g).warnings ∧
    (evs.foldl GymRegistry.event g).ns = none := by
  change g.specs bleEnvId = none at hnew
  change ∀ e ∈ evs, Spec.otherId g.hasNamespace e ≠ some bleEnvId at hother
  change ((evs.foldl GymRegistry.event g).specs bleEnvId = if evs.all Spec.foreign then none else some bleEntryPoint) ∧
    (∀ id, id ≠ bleEnvId →
      (evs.foldl GymRegistry.event g).specs id = ((evs.filter Spec.foreign).foldl GymRegistry.event g).specs id) ∧
    (evs.foldl GymRegistry.event g).warnings = ((evs.filter Spec.foreign).foldl GymRegistry.event g).warnings ∧
    (evs.foldl GymRegistry.event g).ns = none
  suffices hs : ((evs.foldl GymRegistry.event g).specs bleEnvId = if evs.all Spec.foreign then none else some bleEntryPoint) ∧
    (∀ id, id ≠ bleEnvId →
      (evs.foldl GymRegistry.event g).specs id = ((evs.filter Spec.foreign).foldl GymRegistry.event g).specs id) ∧
    (evs.foldl GymRegistry.event g).warnings = ((evs.filter Spec.foreign).foldl GymRegistry.event g).warnings ∧
    (evs.foldl GymRegistry.event g).ns = none ∧ (evs.foldl GymRegistry.event g).hasNamespace = g.hasNamespace ∧
    ((evs.filter Spec.foreign).foldl GymRegistry.event g).ns = none ∧
    ((evs.filter Spec.foreign).foldl GymRegistry.event g).hasNamespace = g.hasNamespace by
    exact ⟨hs.1, hs.2.1, hs.2.2.1, hs.2.2.2.1⟩
  induction evs using List.reverseRecOn with
  | nil => exact ⟨hnew, fun _ _ => rfl, rfl, hns, rfl, hns, rfl⟩
  | append_singleton es e ih =>
    obtain ⟨i1, i2, i3, i4, i5, i6, i7⟩ := ih (fun e he => hother e (by simp [he]))
    have hoth := hother e (by simp)
    rw [List.foldl_append, List.filter_append, List.foldl_append]
    simp only [List.foldl_cons, List.foldl_nil, List.all_append, List.all_cons, List.all_nil, Bool.and_true]
    generalize es.foldl GymRegistry.event g = a at *
    generalize (es.filter Spec.foreign).foldl GymRegistry.event g = b at *
    cases e with
    | ours n =>
      have hf : (List.filter Spec.foreign [GymEvent.ours n]) = [] := rfl
      rw [hf, event_ours a n i4]
      have hff : Spec.foreign (.ours n) = false := rfl
      simp only [List.foldl_nil, hff, Bool.and_false, Bool.false_eq_true, if_false]
      split_ifs with c
      · refine ⟨?_, i2, i3, i4, i5, i6, i7⟩
        rw [i1] at c ⊢
        split_ifs at c ⊢
        · simp at c
        · rfl
      · refine ⟨by simp only [Function.update_self], fun id hid => ?_, i3, i4, i5, i6, i7⟩
        simp only
        rw [Function.update_of_ne hid]
        exact i2 id hid
    | other n id entry =>
      have hf : (List.filter Spec.foreign [GymEvent.other n id entry]) = [.other n id entry] := rfl
      have hff : Spec.foreign (.other n id entry) = true := rfl
      rw [hf]
      simp only [List.foldl_cons, List.foldl_nil, hff, Bool.and_true]
      obtain ⟨fa, a1, a2⟩ := event_other a n id entry i4
      obtain ⟨fb, b1, b2⟩ := event_other b n id entry i6
      rw [i5] at a1
      rw [i7] at b1
      have hab : fa = fb := by
        rw [a1] at b1
        exact Option.some.inj b1
      subst hab
      have hne : fa ≠ bleEnvId := by
        rintro rfl
        exact hoth a1
      rw [a2, b2]
      refine ⟨?_, fun id' hid' => ?_, ?_, i4, i5, i6, i7⟩
      · simp only
        rw [Function.update_of_ne hne.symm]
        exact i1
      · simp only
        by_cases h : id' = fa
        · rw [h, Function.update_self, Function.update_self]
        · rw [Function.update_of_ne h, Function.update_of_ne h]
          exact i2 id' hid'
      · simp only
        rw [i2 fa hne, i3]

/-- C143, a single call inside any namespace: the namespace in force stays in force, so that what the caller registers next is
entered where it would have been; and if the plain id was taken before, nothing changes at all. -/
theorem C143_namespace_kept (g : GymRegistry) (id : String) :
    (registerEnv g).ns = g.ns ∧ (registerEnv g).fullId id = g.fullId id ∧ (registerEnv g).hasNamespace = g.hasNamespace ∧
    (g.specs "BalloonLearningEnvironment-v0" ≠ none → registerEnv g = g) := by
  have h : (registerEnv g).ns = g.ns ∧ (registerEnv g).hasNamespace = g.hasNamespace := by
    unfold registerEnv GymRegistry.register
    simp only
    split_ifs <;> exact ⟨rfl, rfl⟩
  refine ⟨h.1, by unfold GymRegistry.fullId; rw [h.1], h.2, fun hs => ?_⟩
  unfold registerEnv
  have : (g.specs bleEnvId).isSome = true := by
    rcases e : g.specs bleEnvId with _ | x
    · exact absurd e hs
    · rfl
  simp only [this, if_true]

/-- Inside another package's namespace. -/
example : (registerEnv ⟨fun _ => none, some "atari", true, 0⟩).fullId "Pong-v0" = "atari/Pong-v0" :=
  (C143_namespace_kept ⟨fun _ => none, some "atari", true, 0⟩ "Pong-v0").2.1.trans rfl

/-- Imported, then loaded as a plugin in a namespace, another package in between. -/
example : (List.foldl GymRegistry.event ⟨fun _ => none, none, true, 0⟩
      [.ours none, .other (some "atari") "Pong-v0" "pong", .ours (some "ble"), .ours none]).specs
      "BalloonLearningEnvironment-v0" = some "balloon_learning_environment.env.balloon_env:BalloonEnv" ∧
    (List.foldl GymRegistry.event ⟨fun _ => none, none, true, 0⟩
      [.ours none, .other (some "atari") "Pong-v0" "pong", .ours (some "ble"), .ours none]).warnings = 0 := by
  have h : ∀ e ∈ [GymEvent.ours none, .other (some "atari") "Pong-v0" "pong", .ours (some "ble"), .ours none],
      Spec.otherId true e ≠ some "BalloonLearningEnvironment-v0" := by
    intro e he
    simp only [List.mem_cons, List.not_mem_nil, or_false] at he
    rcases he with rfl | rfl | rfl | rfl <;> simp [Spec.otherId]
  obtain ⟨h1, -, h3, -⟩ := C143_registered_once ⟨fun _ => none, none, true, 0⟩ rfl rfl _ h
  exact ⟨h1.trans rfl, h3.trans rfl⟩

end BLE
