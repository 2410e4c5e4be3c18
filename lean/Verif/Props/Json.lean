import Verif.Model.Json
import Verif.Props.Eval

/-!
# C121: result files hold the results
-/

namespace BLE

theorem okBind' {α β : Type} (a : α) (f : α → Except Err β) : ((Except.ok a : Except Err α) >>= f) = f a := rfl

/-- C121. What is in a file can be read back: a result is determined by its JSON object, and a list of results by its array. -/
theorem C121_injective :
    (∀ s s' : SimpleState, encodeState s = encodeState s' → s = s') ∧
    (∀ r r' : EvalResult, encodeResult r = encodeResult r' → r = r') ∧
    (∀ rs rs' : List EvalResult, encodeResults rs = encodeResults rs' → rs = rs') := by
  have h1 : ∀ s s' : SimpleState, encodeState s = encodeState s' → s = s' := by
    rintro ⟨x, y, p, q, t, c⟩ ⟨x', y', p', q', t', c'⟩ h
    simp only [encodeState, totalSeconds, Json.obj.injEq, List.cons.injEq, Prod.mk.injEq, Json.num.injEq, true_and, and_true] at h
    obtain ⟨hx, hy, hp, hq, ht, hc⟩ := h
    have ht' : (t : ℝ) = t' := by
      have : (usPerSec : ℝ) ≠ 0 := by norm_num [usPerSec]
      field_simp at ht
      exact ht
    have ex : x = x' := by linarith
    have ey : y = y' := by linarith
    have et : t = t' := by exact_mod_cast ht'
    subst ex ey et hp hq hc
    rfl
  have h2 : ∀ r r' : EvalResult, encodeResult r = encodeResult r' → r = r' := by
    rintro ⟨a, b, c, d, e, f, g, l⟩ ⟨a', b', c', d', e', f', g', l'⟩ h
    simp only [encodeResult, Json.obj.injEq, List.cons.injEq, Prod.mk.injEq, Json.num.injEq, Json.int.injEq, Json.bool.injEq,
      Json.arr.injEq, true_and, and_true, Nat.cast_inj] at h
    obtain ⟨rfl, rfl, rfl, rfl, rfl, rfl, rfl, hl⟩ := h
    rw [List.map_injective_iff.2 (fun s s' => h1 s s') hl]
  refine ⟨h1, h2, fun rs rs' h => ?_⟩
  simp only [encodeResults, Json.arr.injEq] at h
  exact List.map_injective_iff.2 (fun r r' => h2 r r') h

/-- C121. The fields and units a reader of the files relies on. -/
theorem C121_fields (r : EvalResult) (s : SimpleState) :
    (encodeResult r).get "seed" = .ok (.int r.seed) ∧
    (encodeResult r).get "cumulative_reward" = .ok (.num r.cumulative) ∧
    (encodeResult r).get "time_within_radius" = .ok (.num r.twr) ∧
    (encodeResult r).get "out_of_power" = .ok (.bool r.outOfPower) ∧
    (encodeResult r).get "envelope_burst" = .ok (.bool r.envelopeBurst) ∧
    (encodeResult r).get "zeropressure" = .ok (.bool r.zeropressure) ∧
    (encodeResult r).get "final_timestep" = .ok (.int r.finalStep) ∧
    (encodeResult r).get "flight_path" = .ok (.arr (r.path.map encodeState)) ∧
    (∃ km, (encodeState s).get "x" = .ok (.num km) ∧ km * 1000 = s.x) ∧
    (∃ km, (encodeState s).get "y" = .ok (.num km) ∧ km * 1000 = s.y) ∧
    (encodeState s).get "pressure" = .ok (.num s.pressure) ∧ (encodeState s).get "superpressure" = .ok (.num s.sp) ∧
    (∃ sec, (encodeState s).get "elapsed_seconds" = .ok (.num sec) ∧ sec * 1000000 = s.elapsed) ∧
    (encodeState s).get "power" = .ok (.num s.soc) := by
  refine ⟨rfl, rfl, rfl, rfl, rfl, rfl, rfl, rfl, ⟨_, rfl, by ring⟩, ⟨_, rfl, by ring⟩, rfl, rfl, ⟨_, rfl, ?_⟩, rfl⟩
  simp only [totalSeconds, usPerSec]
  norm_num

/-- The directory as `json.load` sees it. -/
noncomputable def Spec.parsed (d : Dir) : JsonDir := d.map fun f => (f.1, encodeResults f.2)

theorem mapM_ok {α β : Type} (f : α → Except Err β) (g : α → β) (xs : List α) (h : ∀ x ∈ xs, f x = .ok (g x)) :
    xs.mapM f = .ok (xs.map g) := by
  induction xs with
  | nil => rfl
  | cons x xs ih =>
    rw [List.mapM_cons, h x (by simp), ih fun y hy => h y (by simp [hy])]
    rfl

theorem mapM_mem {α β : Type} (f : α → Except Err β) (xs : List α) (ys : List β) (h : xs.mapM f = .ok ys) :
    ∀ x ∈ xs, ∃ y ∈ ys, f x = .ok y := by
  induction xs generalizing ys with
  | nil => intro x hx; cases hx
  | cons x xs ih =>
    rw [List.mapM_cons] at h
    cases e : f x with
    | error e' => rw [e] at h; cases h
    | ok y =>
      cases e2 : xs.mapM f with
      | error e' => rw [e, e2] at h; cases h
      | ok zs =>
        rw [e, e2] at h
        cases h
        intro x' hx'
        rcases List.mem_cons.1 hx' with rfl | hx'
        · exact ⟨y, by simp, e⟩
        · obtain ⟨z, hz, ez⟩ := ih zs e2 x' hx'
          exact ⟨z, by simp [hz], ez⟩

theorem set_path (r : EvalResult) : (encodeResult r).set "flight_path" (.arr []) = .ok (encodeResult { r with path := [] }) := by
  simp [encodeResult, Json.set]

/-- C121. Working on parsed files is working on results: combining the files of a directory of results never fails and leaves
the files of the combined results. -/
theorem C121_combine (model : Name) (flightPaths : Bool) (d : Dir) :
    combineJson model flightPaths (Spec.parsed d) = .ok (Spec.parsed (combine model flightPaths d)) := by
  classical
  have hfilter : ∀ (p : Name → Bool), (Spec.parsed d).filter (fun f => p f.1) = Spec.parsed (d.filter fun f => p f.1) := by
    intro p
    simp only [Spec.parsed, List.filter_map]
    rfl
  unfold combineJson
  rw [hfilter fun n => decide (globMatch model n)]
  set m := d.filter fun f => decide (globMatch model f.1) with hm
  have e1 : (Spec.parsed m).mapM (fun f => f.2.items) = .ok ((Spec.parsed m).map fun f => f.2.items.toOption.getD []) := by
    apply mapM_ok
    intro f hf
    obtain ⟨f', _, rfl⟩ := List.mem_map.1 hf
    rfl
  have e2 : ((Spec.parsed m).map fun f => f.2.items.toOption.getD []).flatten = (m.flatMap (·.2)).map encodeResult := by
    rw [List.map_flatMap]
    simp only [Spec.parsed, List.map_map, List.flatMap]
    rfl
  rw [e1, okBind', e2]
  have e3 : ((m.flatMap (·.2)).map encodeResult).mapM (fun j => (do
      let k ← j.seed
      pure (k, j) : Except Err (ℤ × Json))) = .ok ((m.flatMap (·.2)).map fun r => (r.seed, encodeResult r)) := by
    have := mapM_ok (fun r : EvalResult => (do
      let k ← (encodeResult r).seed
      pure (k, encodeResult r) : Except Err (ℤ × Json))) (fun r => (r.seed, encodeResult r)) (m.flatMap (·.2)) fun r _ => rfl
    rw [List.mapM_map]
    exact this
  rw [e3, okBind']
  have e4 : (((m.flatMap (·.2)).map fun r => (r.seed, encodeResult r)).mergeSort fun a b => decide (a.1 ≤ b.1)).map (·.2) =
      (combined model d).map encodeResult := by
    have ec : combined model d = (m.flatMap (·.2)).mergeSort fun a b => decide (a.seed ≤ b.seed) := by
      unfold combined
      rw [hm]
    rw [← List.map_mergeSort (r := fun a b : EvalResult => decide (a.seed ≤ b.seed)) (fun _ _ _ _ => rfl), List.map_map, ec]
    rfl
  rw [e4]
  have hw : ∀ rs, Spec.parsed (d.write (model ++ ".json".toList) rs) =
      (model ++ ".json".toList, encodeResults rs) :: (Spec.parsed d).filter fun f => f.1 ≠ model ++ ".json".toList := by
    intro rs
    rw [hfilter fun n => decide (n ≠ model ++ ".json".toList)]
    rfl
  unfold combine
  rw [hw]
  cases flightPaths
  · have e5 : ((combined model d).map encodeResult).mapM (fun j => j.set "flight_path" (.arr [])) =
        .ok ((combined model d).map fun r => encodeResult { r with path := [] }) := by
      rw [List.mapM_map]
      exact mapM_ok _ _ _ fun r _ => set_path r
    simp only [Bool.false_eq_true, if_false]
    rw [e5, okBind']
    simp only [encodeResults, List.map_map]
    rfl
  · rfl

/-- C121. Nothing is written when a matching file is not a result file: an entry without seed ends the tool with an error. -/
theorem C121_foreign (model mid : Name) (flightPaths : Bool) (d : JsonDir) (xs : List Json) (kvs : List (String × Json))
    (hf : (model ++ '_' :: mid ++ ".json".toList, .arr xs) ∈ d) (hx : Json.obj kvs ∈ xs) (hk : ∀ kv ∈ kvs, kv.1 ≠ "seed") :
    ∃ e, combineJson model flightPaths d = .error e := by
  classical
  unfold combineJson
  cases e1 : (d.filter fun f => decide (globMatch model f.1)).mapM fun f => f.2.items with
  | error e => exact ⟨e, rfl⟩
  | ok parts =>
    rw [okBind']
    obtain ⟨ys, hys, ey⟩ := mapM_mem _ _ _ e1 _ (List.mem_filter.2 ⟨hf, decide_eq_true ⟨mid, rfl⟩⟩)
    cases ey
    cases e2 : parts.flatten.mapM fun j => (do
        let k ← j.seed
        pure (k, j) : Except Err (ℤ × Json)) with
    | error e => exact ⟨e, rfl⟩
    | ok keyed =>
      obtain ⟨z, -, ez⟩ := mapM_mem _ _ _ e2 _ (List.mem_flatten.2 ⟨xs, hys, hx⟩)
      have hn : kvs.find? (fun kv => decide (kv.1 = "seed")) = none := by
        rw [List.find?_eq_none]
        intro kv hkv
        simpa using hk kv hkv
      simp only [Json.seed, Json.get, hn] at ez
      cases ez

/-- C121. Nor when a matching file holds one result on its own instead of a list of results (or any value other than a list,
unless it is an empty object or string). -/
theorem C121_not_a_list (model mid : Name) (flightPaths : Bool) (d : JsonDir) (j : Json)
    (hf : (model ++ '_' :: mid ++ ".json".toList, j) ∈ d) (hj : (∀ xs, j ≠ .arr xs) ∧ j ≠ .obj [] ∧ j ≠ .str "") :
    ∃ e, combineJson model flightPaths d = .error e := by
  classical
  have key : ∀ js, j.items = .ok js → ∃ s, Json.str s ∈ js := by
    intro js h
    cases j with
    | arr xs => exact absurd rfl (hj.1 xs)
    | obj kvs =>
      cases h
      cases kvs with
      | nil => exact absurd rfl hj.2.1
      | cons a t => exact ⟨a.1, by simp⟩
    | str s =>
      cases h
      cases hs : s.toList with
      | nil => exact absurd (by rw [← String.toList_eq_nil_iff.1 hs]) hj.2.2
      | cons a t => exact ⟨a.toString, by simp⟩
    | null => cases h
    | int n => cases h
    | num x => cases h
    | bool b => cases h
  unfold combineJson
  cases e1 : (d.filter fun f => decide (globMatch model f.1)).mapM fun f => f.2.items with
  | error e => exact ⟨e, rfl⟩
  | ok parts =>
    rw [okBind']
    obtain ⟨ys, hys, ey⟩ := mapM_mem _ _ _ e1 _ (List.mem_filter.2 ⟨hf, decide_eq_true ⟨mid, rfl⟩⟩)
    obtain ⟨s, hs⟩ := key ys ey
    cases e2 : parts.flatten.mapM fun j => (do
        let k ← j.seed
        pure (k, j) : Except Err (ℤ × Json)) with
    | error e => exact ⟨e, rfl⟩
    | ok keyed =>
      obtain ⟨z, -, ez⟩ := mapM_mem _ _ _ e2 _ (List.mem_flatten.2 ⟨ys, hys, hs⟩)
      cases ez

/-- C121. Writing an entry: it is there afterwards, whether or not the key existed, and no other entry changes. -/
theorem C121_set (kvs : List (String × Json)) (key : String) (v : Json) :
    ∃ j, (Json.obj kvs).set key v = .ok j ∧ j.get key = .ok v ∧ ∀ k, k ≠ key → j.get k = (Json.obj kvs).get k := by
  refine ⟨_, rfl, ?_, ?_⟩
  · by_cases h : kvs.any fun kv => decide (kv.1 = key)
    · rw [if_pos h]
      have : ∀ l : List (String × Json), (l.any fun kv => decide (kv.1 = key)) = true →
          (l.map fun kv => if kv.1 = key then (kv.1, v) else kv).find? (fun kv => decide (kv.1 = key)) = some (key, v) := by
        intro l
        induction l with
        | nil => simp
        | cons a t ih =>
          intro hl
          by_cases ha : a.1 = key
          · simp [ha]
          · simp only [List.any_cons, ha, decide_false, Bool.false_or] at hl
            simp only [List.map_cons, ha, if_false, List.find?_cons, decide_false]
            exact ih hl
      simp only [Json.get, this kvs h]
    · rw [if_neg h]
      have : (kvs.find? fun kv => decide (kv.1 = key)) = none := by
        rw [List.find?_eq_none]
        intro kv hkv hd
        exact h (List.any_eq_true.2 ⟨kv, hkv, hd⟩)
      simp [Json.get, List.find?_append, this]
  · intro k hk
    have hk' : ¬ key = k := fun e => hk e.symm
    by_cases h : kvs.any fun kv => decide (kv.1 = key)
    · rw [if_pos h]
      have : ∀ l : List (String × Json),
          (l.map fun kv => if kv.1 = key then (kv.1, v) else kv).find? (fun kv => decide (kv.1 = k)) =
            l.find? (fun kv => decide (kv.1 = k)) := by
        intro l
        induction l with
        | nil => simp
        | cons a t ih =>
          by_cases ha : a.1 = key
          · simp [ha, hk', ih]
          · simp only [List.map_cons, ha, if_false, List.find?_cons, ih]
      simp only [Json.get, this]
    · rw [if_neg h]
      have : List.find? (fun kv : String × Json => decide (kv.1 = k)) [(key, v)] = none := by simp [hk']
      simp only [Json.get, List.find?_append, this, Option.or_none]

/-- Three shards of two suites' worth of results, one of them of another agent whose name does not match. -/
example (r r' : EvalResult) (h : r.seed = 7) (h' : r'.seed = 3) :
    ∃ d, combineJson "mlp".toList true [("mlp_0.json".toList, encodeResults [r]), ("dqn_0.json".toList, encodeResults [r]),
      ("mlp_1.json".toList, encodeResults [r'])] = .ok d ∧ ("mlp.json".toList, encodeResults [r', r]) ∈ d := by
  refine ⟨_, C121_combine "mlp".toList true [("mlp_0.json".toList, [r]), ("dqn_0.json".toList, [r]), ("mlp_1.json".toList, [r'])],
    ?_⟩
  have h0 : globMatch "mlp".toList "mlp_0.json".toList := ⟨['0'], by decide⟩
  have h1 : globMatch "mlp".toList "mlp_1.json".toList := ⟨['1'], by decide⟩
  have h2 : ¬ globMatch "mlp".toList "dqn_0.json".toList := by
    rintro ⟨mid, e⟩
    have := congrArg List.head? e
    simp at this
  have : combined "mlp".toList [("mlp_0.json".toList, [r]), ("dqn_0.json".toList, [r]), ("mlp_1.json".toList, [r'])] = [r', r] := by
    unfold combined
    simp only [List.filter_cons, List.filter_nil, h0, h1, h2, decide_true, decide_false, if_true, Bool.false_eq_true, if_false]
    simp [h, h', List.mergeSort, List.merge, List.MergeSort.Internal.splitInTwo]
  refine List.mem_map.2 ⟨("mlp.json".toList, [r', r]), ?_, rfl⟩
  simp only [combine, if_true, this]
  exact List.mem_cons_self

end BLE
