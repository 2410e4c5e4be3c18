import Mathlib.Data.List.Pairwise
import Mathlib.Data.List.Induction
import Mathlib.Data.List.Nodup
import Mathlib.Data.Nat.Bitwise
import Mathlib.Tactic.Linarith
import Verif.Model.Suites

/-!
# C112: evaluation suites (`eval/suites.py`, `eval/strata_seeds.py`)
-/

namespace BLE

/-! ## The strata -/

/-- Strictly increasing, as a computation. -/
def sortedLt : List ℕ → Bool
  | a :: b :: t => Nat.blt a b && sortedLt (b :: t)
  | _ => true

/-- The set of elements of a list as a bit mask. -/
def bitMask (l : List ℕ) : ℕ := l.foldl (fun m x => m ||| 1 <<< x) 0

theorem sortedLt_pairwise : ∀ l, sortedLt l = true → l.Pairwise (· < ·)
  | [], _ => List.Pairwise.nil
  | [a], _ => List.pairwise_singleton _ _
  | a :: b :: t, h => by
    simp only [sortedLt, Bool.and_eq_true, Nat.blt_eq] at h
    have ih := sortedLt_pairwise (b :: t) h.2
    refine List.pairwise_cons.2 ⟨fun x hx => ?_, ih⟩
    rcases List.mem_cons.1 hx with rfl | hx
    · exact h.1
    · exact lt_trans h.1 (List.rel_of_pairwise_cons ih hx)

theorem bitMask_fold (l : List ℕ) (m i : ℕ) :
    (l.foldl (fun m x => m ||| 1 <<< x) m).testBit i = (m.testBit i || decide (i ∈ l)) := by
  induction l generalizing m with
  | nil => simp
  | cons x l ih =>
    rw [List.foldl_cons, ih, Nat.testBit_or, Nat.one_shiftLeft, Nat.testBit_two_pow]
    by_cases h : x = i
    · subst h; simp
    · simp [h, Ne.symm h]

theorem disjoint_of_masks {a b : List ℕ} (h : bitMask a &&& bitMask b = 0) : ∀ x ∈ a, x ∉ b := by
  intro x ha hb
  have := congrArg (fun n => n.testBit x) h
  simp only [Nat.testBit_and, bitMask, bitMask_fold, Nat.zero_testBit, Bool.false_or, ha, hb, decide_true, Bool.and_self,
    Bool.true_eq_false] at this

theorem sorted_all : sortedLt strataHardest = true ∧ sortedLt strataHard = true ∧ sortedLt strataMid = true ∧
    sortedLt strataEasy = true ∧ sortedLt strataEasiest = true := by
  refine ⟨?_, ?_, ?_, ?_, ?_⟩ <;> decide +kernel

theorem length_all : strataHardest.length = 2000 ∧ strataHard.length = 2000 ∧ strataMid.length = 2000 ∧
    strataEasy.length = 2000 ∧ strataEasiest.length = 2000 := by
  refine ⟨?_, ?_, ?_, ?_, ?_⟩ <;> decide +kernel

theorem disjoint_all : strataSeeds.Pairwise fun a b => ∀ x ∈ a.2, x ∉ b.2 := by
  have h : strataSeeds.Pairwise fun a b => bitMask a.2 &&& bitMask b.2 = 0 := by
    simp only [strataSeeds, List.pairwise_cons, List.mem_cons, List.not_mem_nil, or_false, forall_eq_or_imp, forall_eq,
      IsEmpty.forall_iff, implies_true, List.Pairwise.nil, and_true]
    refine ⟨⟨?_, ?_, ?_, ?_⟩, ⟨?_, ?_, ?_⟩, ⟨?_, ?_⟩, ?_⟩ <;> decide +kernel
  exact h.imp fun h => disjoint_of_masks h

/-- C112. The strata: five times 2,000 seeds, no seed twice in a stratum or in two of them. -/
theorem C112_strata : strataSeeds.length = 5 ∧ (∀ s ∈ strataSeeds, s.2.length = 2000 ∧ s.2.Nodup) ∧
    (strataSeeds.flatMap (·.2)).Nodup ∧ (strataSeeds.flatMap (·.2)).length = 10000 := by
  obtain ⟨l1, l2, l3, l4, l5⟩ := length_all
  obtain ⟨s1, s2, s3, s4, s5⟩ := sorted_all
  have nd : ∀ l, sortedLt l = true → l.Nodup := fun l h => (sortedLt_pairwise l h).imp fun h => ne_of_lt h
  have hall : ∀ s ∈ strataSeeds, s.2.length = 2000 ∧ s.2.Nodup := by
    intro s hs
    simp only [strataSeeds, List.mem_cons, List.not_mem_nil, or_false] at hs
    rcases hs with rfl | rfl | rfl | rfl | rfl
    · exact ⟨l1, nd _ s1⟩
    · exact ⟨l2, nd _ s2⟩
    · exact ⟨l3, nd _ s3⟩
    · exact ⟨l4, nd _ s4⟩
    · exact ⟨l5, nd _ s5⟩
  refine ⟨rfl, hall, ?_, ?_⟩
  · rw [List.nodup_flatMap]
    exact ⟨fun s hs => (hall s hs).2, disjoint_all.imp fun h => fun x hx hx' => h x hx hx'⟩
  · simp only [strataSeeds, List.flatMap_cons, List.flatMap_nil, List.length_append, l1, l2, l3, l4, l5, List.length_nil]

/-! ## Looking suites up -/

/-- The seeds a suite is meant to have. -/
def Spec.suiteSeeds : String → Option (List ℤ)
  | "big_eval" => some ((List.range 10000).map fun i : ℕ => (i : ℤ))
  | "medium_eval" => some ((List.range 1000).map fun i : ℕ => (i : ℤ))
  | "small_eval" => some ((List.range 100).map fun i : ℕ => (i : ℤ))
  | "tiny_eval" => some ((List.range 10).map fun i : ℕ => (i : ℤ))
  | "micro_eval" => some [0]
  | "hardest_strata" => some (strataHardest.map fun i : ℕ => (i : ℤ))
  | "hard_strata" => some (strataHard.map fun i : ℕ => (i : ℤ))
  | "mid_strata" => some (strataMid.map fun i : ℕ => (i : ℤ))
  | "easy_strata" => some (strataEasy.map fun i : ℕ => (i : ℤ))
  | "easiest_strata" => some (strataEasiest.map fun i : ℕ => (i : ℤ))
  | "all_strata" => some ((strataHardest ++ strataHard ++ strataMid ++ strataEasy ++ strataEasiest).map fun i : ℕ => (i : ℤ))
  | _ => none

/-- What a program can do with the module: look a suite up, or change a list it got from a lookup (`k` counts the
lookups that succeeded). -/
inductive Spec.Client
  | get (name : String)
  | change (k : ℕ) (new : List ℤ)

/-- The heap and the references handed out so far. -/
def Spec.Client.run (t : SuiteTable) : ListHeap × List ℕ → Spec.Client → ListHeap × List ℕ
  | (h, refs), .get name =>
    match getEvalSuite t h name with
    | (h', .ok s) => (h', refs ++ [s.seeds])
    | (h', .error _) => (h', refs)
  | (h, refs), .change k new =>
    match refs[k]? with
    | some r => (h.put r new, refs)
    | none => (h, refs)

theorem table_eq : importSuites.2 = [("big_eval", ⟨5, 960⟩), ("medium_eval", ⟨6, 960⟩), ("small_eval", ⟨7, 960⟩),
    ("tiny_eval", ⟨8, 960⟩), ("micro_eval", ⟨9, 960⟩), ("hardest_strata", ⟨0, 960⟩), ("hard_strata", ⟨1, 960⟩),
    ("mid_strata", ⟨2, 960⟩), ("easy_strata", ⟨3, 960⟩), ("easiest_strata", ⟨4, 960⟩), ("all_strata", ⟨10, 960⟩)] := by
  simp [importSuites, addFresh, addStratum, ListHeap.alloc, importStrata, strataSeeds]

theorem heap_eq : importSuites.1.next = 11 ∧ importSuites.1.val 0 = strataHardest.map (fun i : ℕ => (i : ℤ)) ∧
    importSuites.1.val 1 = strataHard.map (fun i : ℕ => (i : ℤ)) ∧
    importSuites.1.val 2 = strataMid.map (fun i : ℕ => (i : ℤ)) ∧ importSuites.1.val 3 = strataEasy.map (fun i : ℕ => (i : ℤ)) ∧
    importSuites.1.val 4 = strataEasiest.map (fun i : ℕ => (i : ℤ)) ∧ importSuites.1.val 5 = pyRange 10000 ∧
    importSuites.1.val 6 = pyRange 1000 ∧ importSuites.1.val 7 = pyRange 100 ∧ importSuites.1.val 8 = pyRange 10 ∧
    importSuites.1.val 9 = [0] ∧
    importSuites.1.val 10 =
      (strataHardest ++ strataHard ++ strataMid ++ strataEasy ++ strataEasiest).map (fun i : ℕ => (i : ℤ)) := by
  refine ⟨?_, ?_, ?_, ?_, ?_, ?_, ?_, ?_, ?_, ?_, ?_, ?_⟩ <;>
    simp [importSuites, addFresh, addStratum, ListHeap.alloc, ListHeap.put, importStrata, strataSeeds]

/-- What a lookup in a table must find. -/
theorem lookup_spec (name : String) :
    match importSuites.2.lookup name with
    | none => Spec.suiteSeeds name = none
    | some s => s.maxLen = 960 ∧ s.seeds < 11 ∧ Spec.suiteSeeds name = some (importSuites.1.val s.seeds) := by
  obtain ⟨-, v0, v1, v2, v3, v4, v5, v6, v7, v8, v9, v10⟩ := heap_eq
  rw [table_eq]
  by_cases h1 : name = "big_eval"
  · subst h1; simp [List.lookup, Spec.suiteSeeds, v5, pyRange]
  by_cases h2 : name = "medium_eval"
  · subst h2; simp [List.lookup, Spec.suiteSeeds, v6, pyRange]
  by_cases h3 : name = "small_eval"
  · subst h3; simp [List.lookup, Spec.suiteSeeds, v7, pyRange]
  by_cases h4 : name = "tiny_eval"
  · subst h4; simp [List.lookup, Spec.suiteSeeds, v8, pyRange]
  by_cases h5 : name = "micro_eval"
  · subst h5; simp [List.lookup, Spec.suiteSeeds, v9]
  by_cases h6 : name = "hardest_strata"
  · subst h6; simp [List.lookup, Spec.suiteSeeds, v0]
  by_cases h7 : name = "hard_strata"
  · subst h7; simp [List.lookup, Spec.suiteSeeds, v1]
  by_cases h8 : name = "mid_strata"
  · subst h8; simp [List.lookup, Spec.suiteSeeds, v2]
  by_cases h9 : name = "easy_strata"
  · subst h9; simp [List.lookup, Spec.suiteSeeds, v3]
  by_cases h10 : name = "easiest_strata"
  · subst h10; simp [List.lookup, Spec.suiteSeeds, v4]
  by_cases h11 : name = "all_strata"
  · subst h11; simp [List.lookup, Spec.suiteSeeds, v10]
  simp only [List.lookup, beq_false_of_ne h1, beq_false_of_ne h2, beq_false_of_ne h3, beq_false_of_ne h4,
    beq_false_of_ne h5, beq_false_of_ne h6, beq_false_of_ne h7, beq_false_of_ne h8, beq_false_of_ne h9,
    beq_false_of_ne h10, beq_false_of_ne h11]
  unfold Spec.suiteSeeds
  split
  · exact (h1 rfl).elim
  · exact (h2 rfl).elim
  · exact (h3 rfl).elim
  · exact (h4 rfl).elim
  · exact (h5 rfl).elim
  · exact (h6 rfl).elim
  · exact (h7 rfl).elim
  · exact (h8 rfl).elim
  · exact (h9 rfl).elim
  · exact (h10 rfl).elim
  · exact (h11 rfl).elim
  · rfl

/-- Invariant of every client: the eleven lists of the module are untouched and everything handed out is newer. -/
theorem client_inv (ops : List Spec.Client) :
    let st := ops.foldl (Spec.Client.run importSuites.2) (importSuites.1, [])
    (∀ r < 11, st.1.val r = importSuites.1.val r) ∧ 11 ≤ st.1.next ∧ ∀ r ∈ st.2, 11 ≤ r := by
  induction ops using List.reverseRecOn with
  | nil => exact ⟨fun _ _ => rfl, heap_eq.1.ge, by simp⟩
  | append_singleton ops op ih =>
    simp only [List.foldl_append, List.foldl_cons, List.foldl_nil] at *
    generalize ops.foldl (Spec.Client.run importSuites.2) (importSuites.1, []) = st at *
    obtain ⟨h, refs⟩ := st
    obtain ⟨i1, i2, i3⟩ := ih
    simp only at i2
    cases op with
    | get name =>
      simp only [Spec.Client.run, getEvalSuite]
      rcases importSuites.2.lookup name with _ | s
      · exact ⟨i1, i2, i3⟩
      · simp only [ListHeap.alloc]
        refine ⟨fun r hr => ?_, by omega, ?_⟩
        · rw [if_neg (by omega)]; exact i1 r hr
        · intro r hr
          rcases List.mem_append.1 hr with hr | hr
          · exact i3 r hr
          · rw [List.mem_singleton.1 hr]; exact i2
    | change k new =>
      simp only [Spec.Client.run]
      rcases hk : refs[k]? with _ | r0
      · exact ⟨i1, i2, i3⟩
      · have : 11 ≤ r0 := i3 r0 (List.mem_of_getElem? hk)
        refine ⟨fun r hr => ?_, i2, i3⟩
        simp only [ListHeap.put]
        rw [if_neg (by omega)]; exact i1 r hr

/-- C112. Whatever was looked up before and whatever was done to the lists received, looking up a suite yields exactly
its seeds with 960 steps, and an unknown name raises `ValueError`. -/
theorem C112_lookup (ops : List Spec.Client) (name : String) :
    let st := ops.foldl (Spec.Client.run importSuites.2) (importSuites.1, [])
    match getEvalSuite importSuites.2 st.1 name with
    | (h, .ok s) => s.maxLen = 960 ∧ Spec.suiteSeeds name = some (h.val s.seeds) ∧ ¬ s.seeds ∈ st.2
    | (h, .error e) => e = .value ∧ Spec.suiteSeeds name = none ∧ h = st.1 := by
  intro st
  obtain ⟨i1, i2, i3⟩ := client_inv ops
  change (∀ r < 11, st.1.val r = importSuites.1.val r) at i1
  change 11 ≤ st.1.next at i2
  change ∀ r ∈ st.2, 11 ≤ r at i3
  have hfresh : st.1.next ∉ st.2 := by
    have : ∀ ops : List Spec.Client, ∀ r ∈ (ops.foldl (Spec.Client.run importSuites.2) (importSuites.1, [])).2,
        r < (ops.foldl (Spec.Client.run importSuites.2) (importSuites.1, [])).1.next := by
      intro ops
      induction ops using List.reverseRecOn with
      | nil => simp
      | append_singleton ops op ih =>
        simp only [List.foldl_append, List.foldl_cons, List.foldl_nil] at *
        generalize ops.foldl (Spec.Client.run importSuites.2) (importSuites.1, []) = st at *
        obtain ⟨h, refs⟩ := st
        cases op with
        | get name =>
          simp only [Spec.Client.run, getEvalSuite]
          rcases importSuites.2.lookup name with _ | s
          · exact ih
          · simp only [ListHeap.alloc]
            intro r hr
            rcases List.mem_append.1 hr with hr | hr
            · have := ih r hr; simp only at this; omega
            · rw [List.mem_singleton.1 hr]; omega
        | change k new =>
          simp only [Spec.Client.run]
          rcases hk : refs[k]? with _ | r0
          · exact ih
          · exact ih
    intro hc
    exact lt_irrefl _ (this ops _ hc)
  have hl := lookup_spec name
  unfold getEvalSuite
  rcases hq : importSuites.2.lookup name with _ | s
  · rw [hq] at hl
    exact ⟨rfl, hl, rfl⟩
  · rw [hq] at hl
    simp only at hl ⊢
    refine ⟨hl.1, ?_, hfresh⟩
    rw [hl.2.2, ← i1 _ hl.2.1]
    simp [ListHeap.alloc]

/-- C112. `available_suites` lists exactly the names that can be looked up, each once. -/
theorem C112_available : (availableSuites importSuites.2).Nodup ∧
    ∀ name, name ∈ availableSuites importSuites.2 ↔ (Spec.suiteSeeds name).isSome := by
  have hn : availableSuites importSuites.2 = ["big_eval", "medium_eval", "small_eval", "tiny_eval", "micro_eval",
      "hardest_strata", "hard_strata", "mid_strata", "easy_strata", "easiest_strata", "all_strata"] := by
    unfold availableSuites; rw [table_eq]; rfl
  rw [hn]
  refine ⟨by simp, fun name => ?_⟩
  constructor
  · intro h
    simp only [List.mem_cons, List.not_mem_nil, or_false] at h
    rcases h with rfl | rfl | rfl | rfl | rfl | rfl | rfl | rfl | rfl | rfl | rfl <;> rfl
  · intro h
    unfold Spec.suiteSeeds at h
    split at h <;> simp_all

/-- C112. The range suites are nested: micro, tiny, small, medium, big are prefixes of one another. -/
theorem C112_nested : ∃ a b c d e, Spec.suiteSeeds "micro_eval" = some a ∧ Spec.suiteSeeds "tiny_eval" = some b ∧
    Spec.suiteSeeds "small_eval" = some c ∧ Spec.suiteSeeds "medium_eval" = some d ∧ Spec.suiteSeeds "big_eval" = some e ∧
    a <+: b ∧ b <+: c ∧ c <+: d ∧ d <+: e := by
  have pre : ∀ m n : ℕ, m ≤ n → ((List.range m).map fun i : ℕ => (i : ℤ)) <+: ((List.range n).map fun i : ℕ => (i : ℤ)) := by
    intro m n h
    refine List.IsPrefix.map _ ?_
    rw [show m = min m n by omega, ← List.take_range]
    exact List.take_prefix _ _
  refine ⟨_, _, _, _, _, rfl, rfl, rfl, rfl, rfl, ?_, pre _ _ (by norm_num), pre _ _ (by norm_num), pre _ _ (by norm_num)⟩
  exact pre 1 10 (by norm_num)

/-- A client that empties the list it got still gets all seeds the next time. -/
example : let st := [Spec.Client.get "tiny_eval", .change 0 []].foldl (Spec.Client.run importSuites.2) (importSuites.1, [])
    st.1.val 11 = [] ∧ ∃ h s, getEvalSuite importSuites.2 st.1 "tiny_eval" = (h, .ok s) ∧ h.val s.seeds = [0, 1, 2, 3, 4, 5, 6, 7, 8, 9] := by
  intro st
  have hl := C112_lookup [Spec.Client.get "tiny_eval", .change 0 []] "tiny_eval"
  simp only at hl
  have hlook : importSuites.2.lookup "tiny_eval" = some ⟨8, 960⟩ := by rw [table_eq]; simp [List.lookup]
  constructor
  · simp only [st, List.foldl_cons, List.foldl_nil, Spec.Client.run, getEvalSuite, hlook, ListHeap.alloc, heap_eq.1]
    simp [ListHeap.put]
  · change (match getEvalSuite importSuites.2 st.1 "tiny_eval" with
      | (h, .ok s) => s.maxLen = 960 ∧ Spec.suiteSeeds "tiny_eval" = some (h.val s.seeds) ∧ ¬ s.seeds ∈ st.2
      | (h, .error e) => e = .value ∧ Spec.suiteSeeds "tiny_eval" = none ∧ h = st.1) at hl
    rcases hg : getEvalSuite importSuites.2 st.1 "tiny_eval" with ⟨h, e | s⟩
    · rw [hg] at hl
      exact absurd hl.2.1 (by simp [Spec.suiteSeeds])
    · rw [hg] at hl
      refine ⟨h, s, rfl, ?_⟩
      have := hl.2.1
      simp only [Spec.suiteSeeds, Option.some.injEq] at this
      rw [← this]; rfl

end BLE
