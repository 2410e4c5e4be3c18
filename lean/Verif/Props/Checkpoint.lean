import Verif.Model.Checkpoint
import Verif.Props.Train

/-!
# Checkpoints: C65 (resuming), C66–C68, C92
-/

namespace BLE

variable {U S V C : Type}

/-! ## Names -/

/-- What is needed of Python's `int` on strings: decimal digits, with leading zeros, give the number. -/
def Spec.PyInt (int : Name → Option ℤ) : Prop :=
  ∀ k n : ℕ, int (List.replicate k '0' ++ Nat.toDigits 10 n) = some (n : ℤ)

/-- An instance: digits only, everything else is a `ValueError`. -/
def decInt (s : Name) : Option ℤ :=
  if s ≠ [] ∧ s.all Char.isDigit then some (Nat.ofDigitChars 10 s 0 : ℤ) else none

theorem decInt_pyInt : Spec.PyInt decInt := by
  intro k n
  unfold decInt
  have hne : Nat.toDigits 10 n ≠ [] := by
    have := Nat.length_toDigits_pos (b := 10) (n := n)
    intro h
    rw [h] at this
    simp at this
  rw [if_pos]
  · rw [Nat.ofDigitChars_append, Nat.ofDigitChars_replicate_zero]
    simp [Nat.ofDigitChars_ten_toDigits]
  · refine ⟨by simp [hne], ?_⟩
    rw [List.all_append, Bool.and_eq_true]
    refine ⟨?_, ?_⟩
    · rw [List.all_eq_true]
      intro c hc
      rw [List.eq_of_mem_replicate hc]
      decide
    · rw [List.all_eq_true]
      intro c hc
      exact Nat.isDigit_of_mem_toDigits (by norm_num) (by norm_num) hc

theorem pad5_digit {n : ℕ} {c : Char} (hc : c ∈ pad5 n) : c.isDigit := by
  unfold pad5 at hc
  rcases List.mem_append.1 hc with h | h
  · rw [List.eq_of_mem_replicate h]; decide
  · exact Nat.isDigit_of_mem_toDigits (by norm_num) (by norm_num) h

theorem pad5_no_underscore (n : ℕ) : '_' ∉ pad5 n := fun h => absurd (pad5_digit h) (by decide)

theorem pad5_inj {m n : ℕ} (h : pad5 m = pad5 n) : m = n := by
  have e : ∀ k, Nat.ofDigitChars 10 (pad5 k) 0 = k := by
    intro k
    unfold pad5
    rw [Nat.ofDigitChars_append, Nat.ofDigitChars_replicate_zero]
    simp [Nat.ofDigitChars_ten_toDigits]
  rw [← e m, h, e]

theorem pad5_length (n : ℕ) : (pad5 n).length = 5 ↔ n < 100000 := by
  unfold pad5
  rw [List.length_append, List.length_replicate]
  have h : (Nat.toDigits 10 n).length ≤ 5 ↔ n < 10 ^ 5 := by
    exact Nat.length_toDigits_le_iff (by norm_num) (by norm_num)
  have : (10:ℕ) ^ 5 = 100000 := by norm_num
  omega

theorem split_none {s : Name} (h : '_' ∉ s) : splitUnderscore s = [s] := by
  induction s with
  | nil => rfl
  | cons c s ih =>
    simp only [List.mem_cons, not_or] at h
    simp only [splitUnderscore, if_neg (Ne.symm h.1), ih h.2]

theorem split_cons {p : Name} (q : Name) (h : '_' ∉ p) : splitUnderscore (p ++ '_' :: q) = p :: splitUnderscore q := by
  induction p with
  | nil => simp [splitUnderscore]
  | cons c p ih =>
    simp only [List.mem_cons, not_or] at h
    simp only [List.cons_append, splitUnderscore, if_neg (Ne.symm h.1), ih h.2]

theorem split_ne_nil (s : Name) : splitUnderscore s ≠ [] := by
  induction s with
  | nil => simp [splitUnderscore]
  | cons c s ih =>
    simp only [splitUnderscore]
    split
    · simp
    · split <;> simp

theorem split_one {s p : Name} (h : splitUnderscore s = [p]) : s = p ∧ '_' ∉ p := by
  induction s generalizing p with
  | nil => simp only [splitUnderscore, List.cons.injEq, and_true] at h; subst h; simp
  | cons c s ih =>
    simp only [splitUnderscore] at h
    split at h
    · simp only [List.cons.injEq] at h
      exact absurd h.2 (split_ne_nil s)
    · rename_i hc
      split at h
      · rename_i hs
        exact absurd hs (split_ne_nil s)
      · rename_i q qs hs
        simp only [List.cons.injEq] at h
        obtain ⟨h1, rfl⟩ := h
        obtain ⟨h2, h3⟩ := ih hs
        subst h1 h2
        simp [h3, Ne.symm hc]

theorem split_two {s p q : Name} (h : splitUnderscore s = [p, q]) : s = p ++ '_' :: q ∧ '_' ∉ p ∧ '_' ∉ q := by
  induction s generalizing p with
  | nil => simp [splitUnderscore] at h
  | cons c s ih =>
    simp only [splitUnderscore] at h
    split at h
    · rename_i hc
      simp only [List.cons.injEq] at h
      obtain ⟨rfl, h2⟩ := h
      obtain ⟨h3, h4⟩ := split_one h2
      subst hc h3
      simp [h4]
    · rename_i hc
      split at h
      · simp at h
      · rename_i r rs hs
        simp only [List.cons.injEq] at h
        obtain ⟨h1, rfl⟩ := h
        obtain ⟨h2, h3, h4⟩ := ih hs
        subst h1
        rw [h2]
        simp [h3, h4, Ne.symm hc]

theorem afterDot_pkl (p : Name) : afterDot (p ++ ".pkl".toList) = "pkl".toList := by
  simp [afterDot]

theorem beforeDot_pkl (p : Name) : beforeDot (p ++ ".pkl".toList) = p := by
  unfold beforeDot
  rw [afterDot_pkl]
  simp

theorem pathSuffix_pkl {p : Name} (hp : p ≠ []) : pathSuffix (p ++ ".pkl".toList) = ".pkl".toList := by
  unfold pathSuffix
  rw [afterDot_pkl, beforeDot_pkl, if_pos ⟨by simp, hp, by simp⟩]
  rfl

theorem pathStem_pkl {p : Name} (hp : p ≠ []) : pathStem (p ++ ".pkl".toList) = p := by
  unfold pathStem
  rw [afterDot_pkl, beforeDot_pkl, if_pos ⟨by simp, hp, by simp⟩]

theorem split_dot {n : Name} (h : '.' ∈ n) : n = beforeDot n ++ '.' :: afterDot n := by
  have h0 : n.reverse = (n.reverse.takeWhile (· ≠ '.')) ++ n.reverse.dropWhile (· ≠ '.') := by simp
  have h1 : ∃ r, n.reverse.dropWhile (· ≠ '.') = '.' :: r := by
    have hm : '.' ∈ n.reverse := by simp [h]
    generalize n.reverse = l at hm
    induction l with
    | nil => simp at hm
    | cons c l ih =>
      by_cases hc : c = '.'
      · subst hc; exact ⟨l, by simp⟩
      · rw [List.dropWhile_cons_of_pos (by simp [hc])]
        exact ih (by rcases List.mem_cons.1 hm with h | h; · exact absurd h.symm hc
                     · exact h)
  obtain ⟨r, hr⟩ := h1
  rw [hr] at h0
  have h2 : n = r.reverse ++ '.' :: afterDot n := by
    unfold afterDot
    have := congrArg List.reverse h0
    rw [List.reverse_reverse] at this
    conv_lhs => rw [this]
    simp
  have h3 : beforeDot n = r.reverse := by
    have hl : n.length = r.length + (afterDot n).length + 1 := by
      conv_lhs => rw [h2]
      simp; omega
    have hb : beforeDot n = n.take r.length := by
      unfold beforeDot
      congr 1
      omega
    rw [hb]
    conv_lhs => rw [h2]
    rw [List.take_append_of_le_length (by simp), List.take_of_length_le (by simp)]
  rw [h3]
  exact h2

/-- The names recognised by the clean-up are `checkpoint_?????.pkl` with five characters that are not
underscores. -/
theorem isCkptName_iff (n : Name) : isCkptName n = true ↔
    ∃ q : Name, n = "checkpoint_".toList ++ q ++ ".pkl".toList ∧ q.length = 5 ∧ '_' ∉ q := by
  have hne : ∀ q : Name, "checkpoint_".toList ++ q ≠ [] := fun q => by simp
  have hsp : ∀ q : Name, "checkpoint_".toList ++ q = "checkpoint".toList ++ '_' :: q := fun q => by simp
  constructor
  · intro h
    unfold isCkptName at h
    split at h
    · cases h
    · rename_i hs
      simp only [ne_eq, not_not] at hs
      split at h
      · rename_i p q hpq
        obtain ⟨h1, h2, h3⟩ := split_two hpq
        have h4 : p = "checkpoint".toList ∧ q.length = 5 := of_decide_eq_true h
        refine ⟨q, ?_, h4.2, h3⟩
        unfold pathSuffix at hs
        unfold pathStem at h1
        by_cases hc : '.' ∈ n ∧ beforeDot n ≠ [] ∧ afterDot n ≠ []
        · rw [if_pos hc] at hs h1
          have hn := split_dot hc.1
          rw [h1, hs, h4.1] at hn
          rw [hn, hsp]
        · rw [if_neg hc] at hs
          simp at hs
      · cases h
  · rintro ⟨q, rfl, h1, h2⟩
    unfold isCkptName
    rw [pathSuffix_pkl (hne q), pathStem_pkl (hne q), if_neg (by simp), hsp, split_cons _ (by decide), split_none h2]
    simp [h1]

/-- The files considered when resuming are `checkpoint_*.pkl`. -/
theorem ckptGlob_iff (n : Name) : ckptGlob n = true ↔ ∃ q : Name, n = "checkpoint_".toList ++ q ++ ".pkl".toList := by
  unfold ckptGlob
  simp only [Bool.and_eq_true, List.isPrefixOf_iff_prefix, List.isSuffixOf_iff_suffix, decide_eq_true_eq]
  constructor
  · rintro ⟨⟨⟨a, ha⟩, ⟨b, hb⟩⟩, hl⟩
    have hal : 4 ≤ a.length := by
      have := congrArg List.length ha
      simp at this
      omega
    refine ⟨a.take (a.length - 4), ?_⟩
    have : b = "checkpoint_".toList ++ a.take (a.length - 4) := by
      have h1 : b = n.take (n.length - 4) := by rw [← hb]; simp
      rw [h1, ← ha, List.length_append, show "checkpoint_".toList.length = 11 from rfl, List.take_append,
        List.take_of_length_le (by simp; omega)]
      congr 2
      simp; omega
    rw [← this, hb]
  · rintro ⟨q, rfl⟩
    refine ⟨⟨⟨q ++ ".pkl".toList, by simp⟩, ⟨_, rfl⟩⟩, by simp⟩

theorem afterCheckpoint_none {q : Name} (h : '_' ∉ q) : afterCheckpoint q = none := by
  induction q with
  | nil => rfl
  | cons c q ih =>
    simp only [List.mem_cons, not_or] at h
    simp only [afterCheckpoint, ih h.2]
    rw [if_neg]
    intro hp
    rw [List.isPrefixOf_iff_prefix] at hp
    have : '_' ∈ c :: q := hp.subset (by decide)
    rcases List.mem_cons.1 this with h' | h'
    · exact h.1 h'
    · exact h.2 h'

theorem afterCheckpoint_name {q : Name} (h : '_' ∉ q) :
    afterCheckpoint ("checkpoint_".toList ++ q ++ ".pkl".toList) = some (q ++ ".pkl".toList) := by
  have h0 : afterCheckpoint (q ++ ".pkl".toList) = none := afterCheckpoint_none (by simp [h])
  rw [List.append_assoc]
  generalize q ++ ".pkl".toList = r at h0
  have e : "checkpoint_".toList = ['c', 'h', 'e', 'c', 'k', 'p', 'o', 'i', 'n', 't', '_'] := rfl
  simp [afterCheckpoint, h0, e, List.isPrefixOf]

theorem extractEpisode_name (int : Name → Option ℤ) {q : Name} (h : '_' ∉ q) :
    extractEpisode int ("checkpoint_".toList ++ q ++ ".pkl".toList) = int q := by
  unfold extractEpisode
  rw [afterCheckpoint_name h]
  simp only
  congr 1
  have e : ".pkl".toList = ['.', 'p', 'k', 'l'] := rfl
  rw [e]
  have : ∀ (l : Name) (a b c d : Char), (l ++ [a, b, c, d]).dropLast.dropLast.dropLast.dropLast = l := by
    intro l a b c d
    have h1 : l ++ [a, b, c, d] = l ++ [a] ++ [b] ++ [c] ++ [d] := by simp
    rw [h1]
    simp only [List.dropLast_concat]
  exact this _ _ _ _ _

theorem ckptName_inj {m n : ℕ} (h : ckptName m = ckptName n) : m = n := by
  unfold ckptName at h
  rw [List.append_cancel_right_eq, List.append_cancel_left_eq] at h
  exact pad5_inj h

theorem isCkptName_ckptName (n : ℕ) : isCkptName (ckptName n) = true ↔ n < 100000 := by
  rw [isCkptName_iff, ← pad5_length]
  constructor
  · rintro ⟨q, h1, h2, _⟩
    unfold ckptName at h1
    rw [List.append_cancel_right_eq, List.append_cancel_left_eq] at h1
    rw [h1]; exact h2
  · intro h
    exact ⟨pad5 n, rfl, h, pad5_no_underscore n⟩

theorem ckptGlob_ckptName (n : ℕ) : ckptGlob (ckptName n) = true := (ckptGlob_iff _).2 ⟨pad5 n, rfl⟩

theorem isCkptName_glob {n : Name} (h : isCkptName n = true) : ckptGlob n = true := by
  obtain ⟨q, h1, _⟩ := (isCkptName_iff n).1 h
  exact (ckptGlob_iff n).2 ⟨q, h1⟩

theorem ckptIteration_name (int : Name → Option ℤ) {q : Name} (h : '_' ∉ q) :
    ckptIteration int ("checkpoint_".toList ++ q ++ ".pkl".toList) = match int q with
      | some i => .ok i
      | none => .error .value := by
  have hsp : "checkpoint_".toList ++ q = "checkpoint".toList ++ '_' :: q := by simp
  unfold ckptIteration
  rw [pathStem_pkl (by simp), hsp, split_cons _ (by decide), split_none h]
  simp only
  rcases int q with _ | i <;> rfl

/-! ## C67 -/

/-- The file name determines the iteration, and both ways of reading it give it back. -/
theorem C67_names (int : Name → Option ℤ) (hint : Spec.PyInt int) (n : ℕ) :
    ckptIteration int (ckptName n) = .ok (n : ℤ) ∧ extractEpisode int (ckptName n) = some (n : ℤ) ∧
    ∀ m, ckptName m = ckptName n → m = n := by
  have h : int (pad5 n) = some (n : ℤ) := hint _ _
  refine ⟨?_, ?_, fun m hm => ckptName_inj hm⟩
  · unfold ckptName
    rw [ckptIteration_name _ (pad5_no_underscore n), h]
  · unfold ckptName
    rw [extractEpisode_name _ (pad5_no_underscore n), h]

theorem cleanUp_eq (int : Name → Option ℤ) (episode duration : ℤ) (stale : Name → Bool) (todo : List Name)
    (h : ∀ n ∈ todo, isCkptName n = true → ∃ i, ckptIteration int n = .ok i)
    (hst : ∀ n ∈ todo, stale n = true ↔ isCkptName n = true ∧ ∃ i, ckptIteration int n = .ok i ∧ i < episode - duration) :
    ∀ d : CkptDir U, cleanUp int episode duration todo d = (d.filter fun x => !(todo.contains x.1 && stale x.1), .ok ()) := by
  induction todo with
  | nil => intro d; simp [cleanUp]
  | cons n todo ih =>
    intro d
    have ih' := ih (fun m hm => h m (List.mem_cons_of_mem _ hm)) (fun m hm => hst m (List.mem_cons_of_mem _ hm))
    have hs := hst n (List.mem_cons_self ..)
    have keep : stale n = false →
        (d.filter fun x => !(todo.contains x.1 && stale x.1)) = d.filter fun x => !((n :: todo).contains x.1 && stale x.1) := by
      intro hn
      apply List.filter_congr
      intro x _
      by_cases hx : x.1 = n
      · rw [hx, hn]; simp
      · rw [List.contains_cons]
        have : (x.1 == n) = false := by simp [hx]
        rw [this]; simp
    rw [cleanUp]
    by_cases hc : isCkptName n = true
    · rw [if_pos hc]
      obtain ⟨i, hi⟩ := h n (List.mem_cons_self ..) hc
      rw [hi]
      simp only
      by_cases hlt : i < episode - duration
      · have hn : stale n = true := hs.2 ⟨hc, i, hi, hlt⟩
        rw [if_pos hlt, ih', List.filter_filter]
        congr 1
        apply List.filter_congr
        intro x _
        by_cases hx : x.1 = n
        · rw [hx, hn]; simp
        · rw [List.contains_cons]
          have : (x.1 == n) = false := by simp [hx]
          rw [this]; simp [hx]
      · have hn : stale n = false := by
          rw [Bool.eq_false_iff]
          intro ht
          obtain ⟨_, i', hi', hl⟩ := hs.1 ht
          rw [hi] at hi'
          cases hi'
          exact hlt hl
        rw [if_neg hlt, ih', keep hn]
    · rw [if_neg hc]
      have hn : stale n = false := by
        rw [Bool.eq_false_iff]
        intro ht
        exact hc (hs.1 ht).1
      rw [ih', keep hn]

open Classical in
/-- Full statement: for every directory, clean-up removes exactly the files `checkpoint_<k>.pkl` written for
iterations `k < episode - duration`. Two things are missing: files for iterations from 100000 on are never removed
(`C67_six_digits`), and a file named like a checkpoint that does not hold a number raises (`C67_stray`). What holds: for
every directory in which all names of the form `checkpoint_?????.pkl` are those of checkpoints, exactly the
stale ones with at most five digits go; everything else stays, in order and content. -/
theorem C67_exact_partial (int : Name → Option ℤ) (hint : Spec.PyInt int) (episode duration : ℤ) (d : CkptDir U)
    (hd : ∀ x ∈ d, isCkptName x.1 = true → ∃ k, x.1 = ckptName k) :
    cleanUp int episode duration (d.map (·.1)) d =
      (d.filter fun x => ¬ ∃ k : ℕ, x.1 = ckptName k ∧ k < 100000 ∧ (k : ℤ) < episode - duration, .ok ()) := by
  have hd' : ∀ n ∈ d.map (·.1), isCkptName n = true → ∃ k, n = ckptName k := by
    intro n hn hc
    obtain ⟨x, hx, rfl⟩ := List.mem_map.1 hn
    exact hd x hx hc
  rw [cleanUp_eq int episode duration (fun n => decide (∃ k : ℕ, n = ckptName k ∧ k < 100000 ∧ (k : ℤ) < episode - duration))]
  · congr 1
    apply List.filter_congr
    intro x hx
    have : (d.map (·.1)).contains x.1 = true := by
      rw [List.contains_iff_mem]
      exact List.mem_map_of_mem hx
    rw [this, Bool.true_and]
    by_cases hP : ∃ k : ℕ, x.1 = ckptName k ∧ k < 100000 ∧ (k : ℤ) < episode - duration
    · rw [decide_eq_true hP, decide_eq_false (not_not.2 hP)]; rfl
    · rw [decide_eq_false hP, decide_eq_true hP]; rfl
  · intro n hn hc
    obtain ⟨k, rfl⟩ := hd' n hn hc
    exact ⟨_, (C67_names int hint k).1⟩
  · intro n hn
    rw [decide_eq_true_eq]
    constructor
    · rintro ⟨k, rfl, h1, h2⟩
      exact ⟨(isCkptName_ckptName k).2 h1, k, (C67_names int hint k).1, h2⟩
    · rintro ⟨hc, i, hi, hlt⟩
      obtain ⟨k, rfl⟩ := hd' n hn hc
      rw [(C67_names int hint k).1] at hi
      cases hi
      exact ⟨k, rfl, (isCkptName_ckptName k).1 hc, hlt⟩

/-- A directory with five checkpoints and another file; with duration 2, iteration 4 removes 0 and 1. -/
example : cleanUp decInt 4 2 [ckptName 0, ckptName 1, "notes.txt".toList, ckptName 2, ckptName 3, ckptName 4]
    [(ckptName 0, some 10), (ckptName 1, some 11), ("notes.txt".toList, some 0), (ckptName 2, some 12), (ckptName 3, some 13),
      (ckptName 4, some (14 : ℕ))] =
    ([("notes.txt".toList, some 0), (ckptName 2, some 12), (ckptName 3, some 13), (ckptName 4, some 14)], .ok ()) := by
  decide +kernel

/-- However old, a checkpoint for iteration 100000 or later is never removed. -/
theorem C67_six_digits (int : Name → Option ℤ) (episode duration : ℤ) (k : ℕ) (hk : 100000 ≤ k) (b : U) :
    cleanUp int episode duration [ckptName k] [(ckptName k, some b)] = ([(ckptName k, some b)], .ok ()) := by
  have : ¬ isCkptName (ckptName k) = true := by rw [isCkptName_ckptName]; omega
  simp [cleanUp, this]

/-- A file like `checkpoint_final.pkl` makes every save that cleans up raise ValueError. -/
theorem C67_stray (int : Name → Option ℤ) (episode duration : ℤ) (q : Name) (hq : q.length = 5) (hu : '_' ∉ q)
    (hi : int q = none) (d : CkptDir U) :
    (cleanUp int episode duration ["checkpoint_".toList ++ q ++ ".pkl".toList] d).2 = .error .value := by
  rw [cleanUp, if_pos ((isCkptName_iff _).2 ⟨q, rfl, hq, hu⟩), ckptIteration_name _ hu, hi]

example : decInt "final".toList = none ∧ "final".toList.length = 5 := by decide

/-! ## C68 -/

/-- A name `checkpoint_<q>.pkl` whose middle part (without underscores) is read as the number `k`. -/
def Spec.Numbered (int : Name → Option ℤ) (n : Name) (k : ℤ) : Prop :=
  ∃ q : Name, n = "checkpoint_".toList ++ q ++ ".pkl".toList ∧ '_' ∉ q ∧ int q = some k

theorem numbered_extract {int : Name → Option ℤ} {n : Name} {k : ℤ} (h : Spec.Numbered int n k) :
    extractEpisode int n = some k := by
  obtain ⟨q, rfl, h1, h2⟩ := h
  rw [extractEpisode_name _ h1, h2]

theorem numbered_ckptName (int : Name → Option ℤ) (hint : Spec.PyInt int) (n : ℕ) :
    Spec.Numbered int (ckptName n) n := ⟨pad5 n, rfl, pad5_no_underscore n, hint _ _⟩

theorem maxEpisode_max (int : Name → Option ℤ) (ns : List Name) (hne : ns ≠ [])
    (h : ∀ n ∈ ns, ∃ k, extractEpisode int n = some k) :
    ∃ m, maxEpisode int ns = some m ∧ (∃ n ∈ ns, extractEpisode int n = some m) ∧
      ∀ n ∈ ns, ∀ k, extractEpisode int n = some k → k ≤ m := by
  induction ns with
  | nil => exact absurd rfl hne
  | cons n ns ih =>
    obtain ⟨a, ha⟩ := h n (List.mem_cons_self ..)
    cases ns with
    | nil =>
      refine ⟨a, by simpa [maxEpisode] using ha, ⟨n, by simp, ha⟩, ?_⟩
      intro m hm k hk
      rw [List.mem_singleton] at hm
      subst hm
      rw [ha] at hk
      cases hk
      exact le_rfl
    | cons n' ns =>
      obtain ⟨b, h1, ⟨m, hm, h2⟩, h3⟩ := ih (by simp) (fun x hx => h x (List.mem_cons_of_mem _ hx))
      refine ⟨max a b, by simp only [maxEpisode, ha, h1], ?_, ?_⟩
      · rcases le_total a b with hab | hab
        · rw [max_eq_right hab]; exact ⟨m, List.mem_cons_of_mem _ hm, h2⟩
        · rw [max_eq_left hab]; exact ⟨n, List.mem_cons_self .., ha⟩
      · intro x hx k hk
        rcases List.mem_cons.1 hx with rfl | hx
        · rw [ha] at hk; cases hk; exact le_max_left _ _
        · exact (h3 x hx k hk).trans (le_max_right _ _)

theorem maxEpisode_none (int : Name → Option ℤ) (ns : List Name) (n : Name) (hn : n ∈ ns) (h : extractEpisode int n = none) :
    maxEpisode int ns = none := by
  induction ns with
  | nil => simp at hn
  | cons x ns ih =>
    cases ns with
    | nil =>
      rw [List.mem_singleton] at hn
      subst hn
      simpa [maxEpisode] using h
    | cons y ns =>
      rcases List.mem_cons.1 hn with rfl | hn
      · simp only [maxEpisode, h]
      · simp only [maxEpisode, ih hn]
        cases extractEpisode int x <;> rfl

/-- Full statement: for every directory the result is the largest iteration of the checkpoint files, −1 if there is
none. Missing: a single file `checkpoint_*.pkl` without a number hides all checkpoints (`C68_hidden`). What holds:
the claim for every directory in which all files of the form `checkpoint_*.pkl` are numbered. -/
theorem C68_max_partial (int : Name → Option ℤ) (d : CkptDir U)
    (hd : ∀ x ∈ d, (∃ q : Name, x.1 = "checkpoint_".toList ++ q ++ ".pkl".toList) → ∃ k, Spec.Numbered int x.1 k) :
    ((∀ x ∈ d, ∀ k, ¬ Spec.Numbered int x.1 k) → latestCkpt int d = -1) ∧
    ((∃ x ∈ d, ∃ k, Spec.Numbered int x.1 k) → (∃ x ∈ d, Spec.Numbered int x.1 (latestCkpt int d)) ∧
      ∀ x ∈ d, ∀ k, Spec.Numbered int x.1 k → k ≤ latestCkpt int d) := by
  have hmem : ∀ n, n ∈ (d.map (·.1)).filter (fun n => ckptGlob n) ↔ ∃ x ∈ d, x.1 = n ∧ ∃ k, Spec.Numbered int n k := by
    intro n
    rw [List.mem_filter, List.mem_map]
    constructor
    · rintro ⟨⟨x, hx, rfl⟩, hg⟩
      exact ⟨x, hx, rfl, hd x hx ((ckptGlob_iff _).1 hg)⟩
    · rintro ⟨x, hx, rfl, k, q, h1, _⟩
      exact ⟨⟨x, hx, rfl⟩, (ckptGlob_iff _).2 ⟨q, h1⟩⟩
  unfold latestCkpt
  constructor
  · intro h
    have : (d.map (·.1)).filter (fun n => ckptGlob n) = [] := by
      rw [List.eq_nil_iff_forall_not_mem]
      intro n hn
      obtain ⟨x, hx, rfl, k, hk⟩ := (hmem n).1 hn
      exact h x hx k hk
    rw [this]
    rfl
  · rintro ⟨x, hx, k, hk⟩
    obtain ⟨m, h1, ⟨n, hn, h2⟩, h3⟩ := maxEpisode_max int ((d.map (·.1)).filter (fun n => ckptGlob n))
      (List.ne_nil_of_mem ((hmem x.1).2 ⟨x, hx, rfl, k, hk⟩))
      (fun n hn => by
        obtain ⟨x, _, rfl, k, hk⟩ := (hmem n).1 hn
        exact ⟨k, numbered_extract hk⟩)
    rw [h1]
    simp only
    refine ⟨?_, ?_⟩
    · obtain ⟨y, hy, rfl, k', hk'⟩ := (hmem n).1 hn
      refine ⟨y, hy, ?_⟩
      have := numbered_extract hk'
      rw [h2] at this
      cases this
      exact hk'
    · intro y hy k' hk'
      exact h3 y.1 ((hmem _).2 ⟨y, hy, rfl, k', hk'⟩) k' (numbered_extract hk')

/-- One file `checkpoint_<q>.pkl` whose middle part is not a number, and all checkpoints are ignored: training starts
from scratch and overwrites them. -/
theorem C68_hidden (int : Name → Option ℤ) (d : CkptDir U) (q : Name) (hu : '_' ∉ q) (hi : int q = none) (f : Option U)
    (hd : ("checkpoint_".toList ++ q ++ ".pkl".toList, f) ∈ d) : latestCkpt int d = -1 := by
  unfold latestCkpt
  rw [maxEpisode_none int _ ("checkpoint_".toList ++ q ++ ".pkl".toList)]
  · rw [List.mem_filter]
    exact ⟨List.mem_map_of_mem hd, (ckptGlob_iff _).2 ⟨q, rfl⟩⟩
  · rw [extractEpisode_name _ hu, hi]

example : latestCkpt decInt [(ckptName 7, some ()), (ckptName 30, some ()), ("readme".toList, some ())] = 30 ∧
    latestCkpt decInt [("readme".toList, some ())] = -1 ∧
    latestCkpt decInt [(ckptName 7, some ()), ("checkpoint_best.pkl".toList, some ())] = -1 := by decide +kernel

/-! ## Saving and resuming -/

/-- Every file of the form `checkpoint_*.pkl` is the checkpoint of an iteration below `i`. -/
def Spec.Tidy (i : ℕ) (d : CkptDir U) : Prop :=
  ∀ x ∈ d, (∃ q : Name, x.1 = "checkpoint_".toList ++ q ++ ".pkl".toList) → ∃ k < i, x.1 = ckptName k

theorem mem_put {d : CkptDir U} {n : Name} {f : Option U} {x : Name × Option U} (h : x ∈ d.put n f) : x = (n, f) ∨ x ∈ d := by
  unfold CkptDir.put at h
  rcases List.mem_cons.1 h with h | h
  · exact Or.inl h
  · exact Or.inr (List.mem_filter.1 h).1

theorem tidy_put {i : ℕ} {d : CkptDir U} (h : Spec.Tidy i d) (f : Option U) : Spec.Tidy (i + 1) (d.put (ckptName i) f) := by
  intro x hx hq
  rcases mem_put hx with rfl | hx
  · exact ⟨i, Nat.lt_succ_self i, rfl⟩
  · obtain ⟨k, hk, e⟩ := h x hx hq
    exact ⟨k, Nat.lt_succ_of_lt hk, e⟩

theorem lookup_filter {d : CkptDir U} {n : Name} {p : Name × Option U → Bool} (h : ∀ f, p (n, f) = true) :
    (d.filter p).lookup n = d.lookup n := by
  induction d with
  | nil => rfl
  | cons x d ih =>
    obtain ⟨m, f⟩ := x
    by_cases hm : n = m
    · subst hm
      rw [List.filter_cons_of_pos (h f), List.lookup_cons_self, List.lookup_cons_self]
    · have hb : (n == m) = false := by simp [hm]
      rw [List.lookup_cons, hb]
      by_cases hp : p (m, f) = true
      · rw [List.filter_cons_of_pos hp, List.lookup_cons, hb]
        exact ih
      · rw [List.filter_cons_of_neg hp]
        exact ih

/-- The latest checkpoint of a tidy directory. -/
theorem latest_tidy (int : Name → Option ℤ) (hint : Spec.PyInt int) {i : ℕ} {d : CkptDir U} (h : Spec.Tidy (i + 1) d)
    {f : Option U} (hl : d.lookup (ckptName i) = some f) : latestCkpt int d = i := by
  have hmem : (ckptName i, f) ∈ d := by
    clear h
    induction d with
    | nil => simp at hl
    | cons x d ih =>
      obtain ⟨m, g⟩ := x
      rw [List.lookup_cons] at hl
      by_cases hm : ckptName i = m
      · subst hm
        simp at hl
        subst hl
        exact List.mem_cons_self ..
      · have hb : (ckptName i == m) = false := by simp [hm]
        rw [hb] at hl
        exact List.mem_cons_of_mem _ (ih hl)
  obtain ⟨_, h2⟩ := C68_max_partial int d (fun x hx hq => by
    obtain ⟨k, _, e⟩ := h x hx hq
    exact ⟨k, by rw [e]; exact numbered_ckptName int hint k⟩)
  obtain ⟨⟨x, hx, q, e1, e2, e3⟩, h3⟩ := h2 ⟨_, hmem, _, numbered_ckptName int hint i⟩
  apply le_antisymm
  · obtain ⟨k, hk, e⟩ := h x hx ⟨q, e1⟩
    have := numbered_extract (⟨q, e1, e2, e3⟩ : Spec.Numbered int x.1 (latestCkpt int d))
    rw [e, (C67_names int hint k).2.1] at this
    have := Option.some.inj this
    omega
  · exact h3 _ hmem _ (numbered_ckptName int hint i)

theorem reload_tidy (int : Name → Option ℤ) (hint : Spec.PyInt int) (bundle : S → Option U) (unbundle : S → U → S)
    (duration : Option ℤ) {i : ℕ} {d : CkptDir U} (h : Spec.Tidy (i + 1) d) {b : U}
    (hl : d.lookup (ckptName i) = some (some b)) (s : S) :
    (dopamineSaver int bundle unbundle duration).reload d s = (unbundle s b, .ok (i : ℤ)) := by
  simp only [dopamineSaver]
  rw [latest_tidy int hint h hl, if_neg (by omega)]
  simp [loadCkpt, hl]

/-- Cleaning up — also if it is interrupted after any part of the listing — keeps the newest checkpoint. -/
theorem cleanUp_keeps (int : Name → Option ℤ) (hint : Spec.PyInt int) {i : ℕ} {k : ℤ} (hk : 0 ≤ k) (todo : List Name)
    {d : CkptDir U} (h : Spec.Tidy (i + 1) d) (htodo : ∀ n ∈ todo, n ∈ d.map (·.1)) :
    ∃ d', cleanUp int i k todo d = (d', .ok ()) ∧ Spec.Tidy (i + 1) d' ∧ d'.lookup (ckptName i) = d.lookup (ckptName i) := by
  have hname : ∀ n ∈ todo, isCkptName n = true → ∃ k, n = ckptName k := by
    intro n hn hc
    obtain ⟨x, hx, rfl⟩ := List.mem_map.1 (htodo n hn)
    obtain ⟨k, _, e⟩ := h x hx ((ckptGlob_iff _).1 (isCkptName_glob hc))
    exact ⟨k, e⟩
  classical
  have := cleanUp_eq (U := U) int i k (fun n => decide (isCkptName n = true ∧ ∃ j, ckptIteration int n = .ok j ∧ j < i - k)) todo
    (fun n hn hc => by obtain ⟨k, rfl⟩ := hname n hn hc; exact ⟨_, (C67_names int hint k).1⟩) (fun n _ => by simp) d
  refine ⟨_, this, ?_, ?_⟩
  · intro x hx hq
    exact h x (List.mem_filter.1 hx).1 hq
  · apply lookup_filter
    intro f
    simp only [Bool.not_eq_true', Bool.and_eq_false_iff, decide_eq_false_iff_not, not_and, not_exists]
    right
    intro _ j hj
    rw [(C67_names int hint i).1] at hj
    cases hj
    omega

theorem save_tidy (int : Name → Option ℤ) (hint : Spec.PyInt int) (bundle : S → Option U) (unbundle : S → U → S)
    (duration : Option ℤ) (hdur : ∀ k, duration = some k → 0 ≤ k) {i : ℕ} {d : CkptDir U} (h : Spec.Tidy i d) {s : S} {b : U}
    (hb : bundle s = some b) :
    ∃ d', (dopamineSaver int bundle unbundle duration).save i s d = (d', .ok ()) ∧ Spec.Tidy (i + 1) d' ∧
      d'.lookup (ckptName i) = some (some b) := by
  have hl : (d.put (ckptName i) (some b)).lookup (ckptName i) = some (some b) := by simp [CkptDir.put]
  simp only [dopamineSaver, saveCkpt, hb, Int.toNat_natCast]
  cases duration with
  | none => exact ⟨_, rfl, tidy_put h _, hl⟩
  | some k =>
    simp only
    obtain ⟨d', h1, h2, h3⟩ := cleanUp_keeps int hint (hdur k rfl) ((d.put (ckptName i) (some b)).map (·.1))
      (tidy_put h (some b)) (fun _ h => h)
    exact ⟨d', h1, h2, by rw [h3, hl]⟩

/-- The newest checkpoint survives the clean-up that follows its writing (for a duration that is not negative). -/
theorem C67_newest (int : Name → Option ℤ) (hint : Spec.PyInt int) (bundle : S → Option U) (unbundle : S → U → S)
    (duration : Option ℤ) (hdur : ∀ k, duration = some k → 0 ≤ k) (i : ℕ) (d : CkptDir U) (h : Spec.Tidy i d) (s : S) (b : U)
    (hb : bundle s = some b) :
    ∃ d', (dopamineSaver int bundle unbundle duration).save i s d = (d', .ok ()) ∧
      d'.lookup (ckptName i) = some (some b) := by
  obtain ⟨d', h1, _, h3⟩ := save_tidy int hint bundle unbundle duration hdur h hb
  exact ⟨d', h1, h3⟩

/-- With a negative duration the checkpoint just written is deleted. -/
theorem C67_negative_duration (int : Name → Option ℤ) (hint : Spec.PyInt int) (unbundle : S → U → S) (s : S) (b : U) :
    (dopamineSaver int (fun _ : S => some b) unbundle (some (-1))).save 0 s [] = ([], .ok ()) := by
  have h1 := (C67_names int hint 0).1
  have h2 : isCkptName (ckptName 0) = true := (isCkptName_ckptName 0).2 (by norm_num)
  simp [dopamineSaver, saveCkpt, CkptDir.put, cleanUp, h1, h2]

/-! ## C65: resuming -/

theorem trained_tidy (G : GymEnv V) (A : Agent S) (on : Collectors C) (int : Name → Option ℤ) (hint : Spec.PyInt int)
    (bundle : S → Option U) (unbundle : S → U → S) (duration : Option ℤ) (hdur : ∀ k, duration = some k → 0 ≤ k)
    (hb : ∀ s, bundle s ≠ none) (maxLen : ℤ) (its : List (List (List (ℤ × StepOut) × ℤ))) :
    ∀ (i : ℕ) (x x' : Run V S C) (d d' : CkptDir U), Spec.Tidy i d →
    Spec.Trained G A (dopamineSaver int bundle unbundle duration) on maxLen i its x d x' d' →
    Spec.Tidy (i + its.length) d' ∧
      (its ≠ [] → ∃ b, bundle x'.agent = some b ∧ d'.lookup (ckptName (i + its.length - 1)) = some (some b)) := by
  induction its with
  | nil =>
    intro i x x' d d' hd h
    cases h
    exact ⟨hd, fun h => absurd rfl h⟩
  | cons it its ih =>
    intro i x x' d d' hd h
    obtain _ | ⟨hp, hs, rest⟩ := h
    rename_i x1 d1
    obtain ⟨b, hbb⟩ := Option.ne_none_iff_exists'.1 (hb x1.agent)
    obtain ⟨d2, h1, h2, h3⟩ := save_tidy int hint bundle unbundle duration hdur hd hbb
    rw [h1] at hs
    cases hs
    have e : ((i : ℤ) + 1) = ((i + 1 : ℕ) : ℤ) := by push_cast; rfl
    rw [e] at rest
    obtain ⟨h4, h5⟩ := ih (i + 1) x1 x' _ d' h2 rest
    have hlen : i + (it :: its).length = i + 1 + its.length := by simp; omega
    rw [hlen]
    refine ⟨h4, fun _ => ?_⟩
    by_cases hn : its = []
    · subst hn
      cases rest
      exact ⟨b, hbb, by simpa using h3⟩
    · exact h5 hn

/-- Restarting after a crash between iterations: suppose iterations `i, …, i + n` have been completed from a
directory that held only checkpoints of earlier ones. Then a new run — with any newly created agent — that gets through
loads the agent as it was saved after iteration `i + n`, and runs exactly iterations `i + n + 1, …,
iterations - 1`, each with all its episodes, saving each. -/
theorem C65_resume (G : GymEnv V) (A : Agent S) (on : Collectors C) (int : Name → Option ℤ) (hint : Spec.PyInt int)
    (bundle : S → Option U) (unbundle : S → U → S) (duration : Option ℤ) (hdur : ∀ k, duration = some k → 0 ≤ k)
    (hb : ∀ s, bundle s ≠ none) (mk : ℤ → List C) (maxLen period episodes iterations : ℤ) (hm : 0 ≤ maxLen)
    (i n : ℕ) (x x1 : Run V S C) (d d1 : CkptDir U) (hd : Spec.Tidy i d)
    (hfirst : runIterations G A (dopamineSaver int bundle unbundle duration) on maxLen period episodes (n + 1) i x d =
      (x1, d1, .ok ()))
    (v : V) (s : S) (x' : Run V S C) (d' : CkptDir U)
    (hsecond : runTraining G A (dopamineSaver int bundle unbundle duration) on mk maxLen period episodes iterations v s d1 =
      (x', d', .ok ())) :
    ∃ b cs its x2, bundle x1.agent = some b ∧ dispatch on .preTraining (mk ((i + n + 1) * episodes)) = (cs, .ok ()) ∧
      (its.length = (iterations - (i + n + 1)).toNat) ∧ (∀ it ∈ its, it.length = episodes.toNat) ∧
      Spec.Trained G A (dopamineSaver int bundle unbundle duration) on maxLen (i + n + 1) its
        { env := v, agent := A.setMode (unbundle s b) true, cols := cs } d1 x2 d' ∧
      x'.env = x2.env ∧ x'.agent = x2.agent := by
  obtain ⟨its, h1, _, h3⟩ := runIterations_spec G A _ on maxLen period episodes hm _ _ _ _ _ _ hfirst
  obtain ⟨h4, h5⟩ := trained_tidy G A on int hint bundle unbundle duration hdur hb maxLen its i x x1 d d1 hd h3
  obtain ⟨b, h6, h7⟩ := h5 (by intro h; rw [h] at h1; simp at h1)
  rw [h1] at h4 h7
  have hre := reload_tidy int hint bundle unbundle duration (i := i + n) h4 h7 s
  obtain ⟨s1, last, cs, its2, x2, g1, g2, g3, g4, g5, g6, g7, _⟩ :=
    C65_each_once G A _ on mk maxLen period episodes iterations hm v s d1 d' x' hsecond
  rw [hre] at g1
  cases g1
  have e : max (((i + n : ℕ) : ℤ) + 1) 0 = (i : ℤ) + n + 1 := by push_cast; omega
  rw [e] at g2 g3 g5
  exact ⟨b, cs, its2, x2, h6, g2, g3, g4, g5, g6, g7⟩

/-- A saver for a toy agent that just counts; after two iterations a new agent is restored and does the third. -/
example : ∃ d1 d2 : CkptDir Unit,
    (∃ x, runTraining toyEnv toyAgent (dopamineSaver decInt (fun _ : Unit => some ()) (fun s _ => s) (some 0)) Obj.on (fun _ => [])
      1 1 1 2 9 () [] = (x, d1, .ok ())) ∧ d1 = [(ckptName 1, some ())] ∧
    (∃ x, runTraining toyEnv toyAgent (dopamineSaver decInt (fun _ : Unit => some ()) (fun s _ => s) (some 0)) Obj.on (fun _ => [])
      1 1 1 3 9 () d1 = (x, d2, .ok ()) ∧ x.env = 8) ∧ d2 = [(ckptName 2, some ())] := by
  have e1 : Int.toNat 1 = 0 + 1 := rfl
  have e2 : Int.toNat 2 = 0 + 1 + 1 := rfl
  have s0 : (dopamineSaver decInt (fun _ : Unit => some ()) (fun s _ => s) (some 0)).save 0 () [] = ([(ckptName 0, some ())], .ok ()) := by
    decide +kernel
  have s1 : (dopamineSaver decInt (fun _ : Unit => some ()) (fun s _ => s) (some 0)).save 1 () [(ckptName 0, some ())] =
      ([(ckptName 1, some ())], .ok ()) := by
    decide +kernel
  have s2 : (dopamineSaver decInt (fun _ : Unit => some ()) (fun s _ => s) (some 0)).save 2 () [(ckptName 1, some ())] =
      ([(ckptName 2, some ())], .ok ()) := by
    decide +kernel
  have r0 : (dopamineSaver decInt (fun _ : Unit => some ()) (fun s _ => s) (some 0)).reload [] () = ((), .ok (-1)) := by
    decide +kernel
  have r1 : (dopamineSaver decInt (fun _ : Unit => some ()) (fun s _ => s) (some 0)).reload [(ckptName 1, some ())] () =
      ((), .ok 1) := by
    decide +kernel
  refine ⟨_, _, ⟨{ env := 7, agent := (), cols := [] }, ?_⟩, rfl, ⟨{ env := 8, agent := (), cols := [] }, ?_, ?_⟩, rfl⟩
  · simp [runTraining, r0, Run.send, dispatch, runIterations, runEpisodes, runEpisode, e1, e2, episodeLoop, toyEnv, toyAgent, s0, s1]
  · simp [runTraining, r1, Run.send, dispatch, runIterations, runEpisodes, runEpisode, e1, episodeLoop, toyEnv, toyAgent, s2]
  · rfl

/-! ## C66 -/

/-- Full statement: for *every* crash point `p`, the directory `crashedSave d (i + 1) p` left by a crash while the checkpoint
of iteration `i + 1` is written resumes from iteration `i`. What holds: if the crash comes before the file is
opened, or while old checkpoints are cleaned up afterwards (at any point of the listing). -/
theorem C66_resumes_partial (int : Name → Option ℤ) (hint : Spec.PyInt int) (bundle : S → Option U) (unbundle : S → U → S)
    (duration : Option ℤ) (i : ℕ) (d : CkptDir U) (h : Spec.Tidy (i + 1) d) (b : U)
    (hl : d.lookup (ckptName i) = some (some b)) (s : S) :
    (dopamineSaver int bundle unbundle duration).reload (crashedSave d (i + 1) .before) s = (unbundle s b, .ok (i : ℤ)) ∧
    ∀ (k : ℤ) (todo : List Name), 0 ≤ k → (∀ n ∈ todo, n ∈ d.map (·.1)) →
      (dopamineSaver int bundle unbundle duration).reload (cleanUp int i k todo d).1 s = (unbundle s b, .ok (i : ℤ)) := by
  refine ⟨reload_tidy int hint bundle unbundle duration h hl s, fun k todo hk ht => ?_⟩
  obtain ⟨d', h1, h2, h3⟩ := cleanUp_keeps int hint hk todo h ht
  rw [h1]
  exact reload_tidy int hint bundle unbundle duration h2 (by rw [h3]; exact hl) s

/-- If the process dies with the file opened but incomplete, no later run gets anywhere: loading raises
EOFError, whatever the agent, however many complete checkpoints there are. -/
theorem C66_torn (G : GymEnv V) (A : Agent S) (on : Collectors C) (mk : ℤ → List C) (maxLen period episodes iterations : ℤ)
    (int : Name → Option ℤ) (hint : Spec.PyInt int) (bundle : S → Option U) (unbundle : S → U → S)
    (duration : Option ℤ) (i : ℕ) (d : CkptDir U) (h : Spec.Tidy i d) (v : V) (s : S) :
    (runTraining G A (dopamineSaver int bundle unbundle duration) on mk maxLen period episodes iterations v s
      (crashedSave d i .during)).2 = (crashedSave d i .during, .error .eof) := by
  have hl : (crashedSave d i .during).lookup (ckptName i) = some none := by simp [crashedSave, CkptDir.put]
  have hr : ((dopamineSaver int bundle unbundle duration).reload (crashedSave d i .during) s).2 = .error .eof := by
    simp only [dopamineSaver]
    rw [latest_tidy int hint (d := crashedSave d i .during) (tidy_put h none) hl, if_neg (by omega)]
    simp [loadCkpt, hl]
  unfold runTraining
  simp only [hr]

/-- Such a directory exists: three checkpoints, the fourth interrupted. -/
example : Spec.Tidy 3 [(ckptName 2, some 12), (ckptName 1, some 11), (ckptName 0, some 10), ("log".toList, some (0 : ℕ))] := by
  intro x hx hq
  simp only [List.mem_cons, List.not_mem_nil, or_false] at hx
  rcases hx with rfl | rfl | rfl | rfl
  · exact ⟨2, by norm_num, rfl⟩
  · exact ⟨1, by norm_num, rfl⟩
  · exact ⟨0, by norm_num, rfl⟩
  · obtain ⟨q, hq⟩ := hq
    have := congrArg List.head? hq
    simp at this

/-! ## C92 -/

/-- Full statement: whenever `reload_latest_checkpoint` reports an iteration `k ≥ 0`, the agent has been restored from the
bundle of that iteration. What holds: this, if the files `checkpoint_*.pkl` are all named as `save_checkpoint` names
them. If it reports −1 the agent is unchanged. -/
theorem C92_loaded_partial (int : Name → Option ℤ) (hint : Spec.PyInt int) (bundle : S → Option U) (unbundle : S → U → S)
    (duration : Option ℤ) (d : CkptDir U) (i : ℕ) (hd : Spec.Tidy i d) (s s' : S) (k : ℤ)
    (h : (dopamineSaver int bundle unbundle duration).reload d s = (s', .ok k)) :
    (k = -1 ∧ s' = s) ∨ ∃ b, d.lookup (ckptName k.toNat) = some (some b) ∧ s' = unbundle s b ∧ 0 ≤ k := by
  simp only [dopamineSaver] at h
  by_cases hl : latestCkpt int d < 0
  · rw [if_pos hl] at h
    cases h
    exact Or.inl ⟨rfl, rfl⟩
  · rw [if_neg hl] at h
    have hfound : (d.lookup (ckptName (latestCkpt int d).toNat)).isSome = true := by
      obtain ⟨h1, h2⟩ := C68_max_partial int d (fun x hx hq => by
        obtain ⟨k, _, e⟩ := hd x hx hq
        exact ⟨k, by rw [e]; exact numbered_ckptName int hint k⟩)
      by_cases hex : ∃ x ∈ d, ∃ k, Spec.Numbered int x.1 k
      · obtain ⟨⟨x, hx, hn⟩, _⟩ := h2 hex
        have hn' := hn
        obtain ⟨q, e1, _, _⟩ := hn'
        obtain ⟨j, _, e⟩ := hd x hx ⟨q, e1⟩
        have := numbered_extract hn
        rw [e, (C67_names int hint j).2.1] at this
        have hj : (latestCkpt int d).toNat = j := by
          have := Option.some.inj this
          omega
        rw [hj, ← e, List.lookup_isSome_iff]
        exact ⟨x, hx, by simp⟩
      · have := h1 (fun x hx k hk => hex ⟨x, hx, k, hk⟩)
        omega
    rcases hlk : d.lookup (ckptName (latestCkpt int d).toNat) with _ | _ | b
    · rw [hlk] at hfound; cases hfound
    · simp only [loadCkpt, hlk] at h
      cases h
    · simp only [loadCkpt, hlk] at h
      cases h
      exact Or.inr ⟨b, hlk, rfl, by omega⟩

/-- A checkpoint renamed without the leading zeros is reported as loaded — training goes on with iteration 8 — though the
agent is left as it was created. -/
theorem C92_not_loaded (bundle : S → Option U) (unbundle : S → U → S) (duration : Option ℤ) (b : U) (s : S) :
    (dopamineSaver decInt bundle unbundle duration).reload [("checkpoint_7.pkl".toList, some b)] s = (s, .ok 7) := by
  have h : latestCkpt decInt [("checkpoint_7.pkl".toList, some b)] = 7 := by
    unfold latestCkpt
    have : maxEpisode decInt (([("checkpoint_7.pkl".toList, some b)].map (·.1)).filter fun n => ckptGlob n) = some 7 := by
      simp only [List.map_cons, List.map_nil]
      decide +kernel
    rw [this]
  have hl : List.lookup (ckptName 7) [("checkpoint_7.pkl".toList, some b)] = none := by
    have : (ckptName 7 == "checkpoint_7.pkl".toList) = false := by decide +kernel
    rw [List.lookup_cons, this]
    rfl
  simp only [dopamineSaver, h]
  rw [if_neg (by omega)]
  simp only [loadCkpt, show Int.toNat 7 = 7 from rfl, hl]

end BLE
