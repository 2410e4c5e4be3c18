import Verif.Model.Basic
import Verif.Model.StrataSeeds

/-!
# Evaluation suites

`balloon_learning_environment/eval/suites.py`. Lists of seeds are mutable objects, so the suites are modelled over a
heap of lists; a suite is a reference and a maximal episode length.
-/

namespace BLE

/-- Python list objects: `next` is the first reference not yet used. (`suites.py:23-63`) -/
structure ListHeap where
  next : ℕ
  val : ℕ → List ℤ

/-- A new list object. (`suites.py:39-49, 63`) -/
def ListHeap.alloc (h : ListHeap) (xs : List ℤ) : ListHeap × ℕ :=
  ({ next := h.next + 1, val := fun r => if r = h.next then xs else h.val r }, h.next)

/-- Overwrite a list object in place. (`suites.py:47`) -/
def ListHeap.put (h : ListHeap) (r : ℕ) (xs : List ℤ) : ListHeap := { h with val := fun k => if k = r then xs else h.val k }

/-- `suites.py:23-33` — an `EvaluationSuite` object. -/
structure SuiteRef where
  seeds : ℕ
  maxLen : ℤ

/-- `suites.py:36` — `_eval_suites`, in order of insertion. -/
abbrev SuiteTable := List (String × SuiteRef)

/-- `strata_seeds.py:22-908` — the keys and seeds of `STRATA_SEEDS`. -/
def strataSeeds : List (String × List ℕ) :=
  [("hardest", strataHardest), ("hard", strataHard), ("mid", strataMid), ("easy", strataEasy), ("easiest", strataEasiest)]

/-- The heap after importing `strata_seeds`: object `i` is the list of the `i`-th stratum. (`strata_seeds.py:22-908`) -/
def importStrata : ListHeap :=
  strataSeeds.foldl (fun h s => (h.alloc (s.2.map fun n : ℕ => (n : ℤ))).1) ⟨0, fun _ => []⟩

/-- `list(range(n))`. (`suites.py:39-42`) -/
def pyRange (n : ℕ) : List ℤ := (List.range n).map fun i : ℕ => (i : ℤ)

/-- One line `_eval_suites[name] = EvaluationSuite(seeds, 960)` with a fresh list (`suites.py:39-43`). -/
def addFresh (name : String) (seeds : List ℤ) (s : ListHeap × SuiteTable) : ListHeap × SuiteTable :=
  let q := s.1.alloc seeds
  (q.1, s.2 ++ [(name, ⟨q.2, 960⟩)])

/-- `suites.py:45-48` — one round of the loop over the strata; `all` is the reference of `all_strata`, `+=` extends it in
place. -/
def addStratum (all : ℕ) (s : ListHeap × SuiteTable) (k : ℕ × String) : ListHeap × SuiteTable :=
  (s.1.put all (s.1.val all ++ s.1.val k.1), s.2 ++ [(k.2 ++ "_strata", ⟨k.1, 960⟩)])

/-- `suites.py:36-49` — importing the module. -/
def importSuites : ListHeap × SuiteTable :=
  let s : ListHeap × SuiteTable := (importStrata, [])
  let s := addFresh "big_eval" (pyRange 10000) s
  let s := addFresh "medium_eval" (pyRange 1000) s
  let s := addFresh "small_eval" (pyRange 100) s
  let s := addFresh "tiny_eval" (pyRange 10) s
  let s := addFresh "micro_eval" [0] s
  let q := s.1.alloc []
  let all := q.2
  let s := [(0, "hardest"), (1, "hard"), (2, "mid"), (3, "easy"), (4, "easiest")].foldl (addStratum all) (q.1, s.2)
  (s.1, s.2 ++ [("all_strata", ⟨all, 960⟩)])

/-- `suites.py:52-53` — `available_suites`. -/
def availableSuites (t : SuiteTable) : List String := t.map (·.1)

/-- `suites.py:56-63` — `get_eval_suite`: the seeds are copied into a new list. -/
def getEvalSuite (t : SuiteTable) (h : ListHeap) (name : String) : ListHeap × Except Err SuiteRef :=
  match t.lookup name with
  | none => (h, .error .value)
  | some s =>
    let q := h.alloc (h.val s.seeds)
    (q.1, .ok ⟨q.2, s.maxLen⟩)

end BLE
