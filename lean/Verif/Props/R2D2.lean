import Mathlib.Analysis.SpecialFunctions.Artanh
import Verif.Model.R2D2
import Verif.Props.Networks

/-!
# C128 — the recurrent network
-/

namespace BLE

variable {d D H n : ℕ}

/-- A sequence of batches, one call of the network after the other, each with the state the previous one left. -/
noncomputable def Spec.stepped (p : R2D2Params d D H n) : List (List Oar) → List (LstmState H) → List (List (Fin n → ℝ)) × List (LstmState H)
  | [], s => ([], s)
  | x :: xs, s =>
    ((r2d2Call p x s).1 :: (Spec.stepped p xs (r2d2Call p x s).2).1, (Spec.stepped p xs (r2d2Call p x s).2).2)

/-- `T` batches of `b` rows. -/
def Spec.Rect {α : Type} (b : ℕ) (xs : List (List α)) : Prop := ∀ x ∈ xs, x.length = b

theorem splitRows_flatten {α : Type} (b : ℕ) (xs : List (List α)) (h : Spec.Rect b xs) : splitRows b xs.length xs.flatten = xs := by
  induction xs with
  | nil => rfl
  | cons x xs ih =>
    have hx := h x (List.mem_cons_self ..)
    simp only [List.length_cons, List.flatten_cons, splitRows]
    rw [List.take_left' hx, List.drop_left' hx, ih fun y hy => h y (List.mem_cons_of_mem _ hy)]

theorem batchApply_map {α β : Type} (f : α → β) (b : ℕ) (xs : List (List α)) (h : Spec.Rect b xs) :
    batchApply (List.map f) xs = xs.map (List.map f) := by
  unfold batchApply
  rw [List.map_flatten]
  cases xs with
  | nil => rfl
  | cons x xs =>
    have := splitRows_flatten b ((x :: xs).map (List.map f)) (by
      intro y hy
      obtain ⟨z, hz, rfl⟩ := List.mem_map.1 hy
      rw [List.length_map]; exact h z hz)
    rw [List.length_map] at this
    rw [List.headD_cons, h x (List.mem_cons_self ..)]
    exact this

theorem lstmBatch_length (p : R2D2Params d D H n) (xs : List (Fin (D + n + 1) → ℝ)) (ss : List (LstmState H)) (b : ℕ)
    (hx : xs.length = b) (hs : ss.length = b) : (lstmBatch p xs ss).1.length = b ∧ (lstmBatch p xs ss).2.length = b := by
  simp [lstmBatch, hx, hs]

theorem staticUnroll_rect (p : R2D2Params d D H n) (b : ℕ) (xs : List (List (Fin (D + n + 1) → ℝ))) :
    ∀ ss : List (LstmState H), Spec.Rect b xs → ss.length = b → Spec.Rect b (staticUnroll (lstmBatch p) xs ss).1 ∧
      (staticUnroll (lstmBatch p) xs ss).2.length = b := by
  induction xs with
  | nil => intro ss _ h; exact ⟨by simp [staticUnroll, Spec.Rect], h⟩
  | cons x xs ih =>
    intro ss h hs
    obtain ⟨l1, l2⟩ := lstmBatch_length p x ss b (h x (List.mem_cons_self ..)) hs
    obtain ⟨i1, i2⟩ := ih _ (fun y hy => h y (List.mem_cons_of_mem _ hy)) l2
    refine ⟨?_, i2⟩
    intro y hy
    rcases List.mem_cons.1 hy with rfl | hy
    · exact l1
    · exact i1 y hy

/-- C128. Unrolling over a sequence of batches gives the values of stepping through it, call by call, and the same final
state: what the learner computes for a stored sequence is what the actor computed when it acted, from the same state with the same
parameters. -/
theorem C128_unroll (p : R2D2Params d D H n) (b : ℕ) (xs : List (List Oar)) (ss : List (LstmState H)) (hx : Spec.Rect b xs)
    (hs : ss.length = b) : r2d2Unroll p xs ss = Spec.stepped p xs ss := by
  have hx' : Spec.Rect b (xs.map (List.map (embedRow p))) := by
    intro y hy
    obtain ⟨z, hz, rfl⟩ := List.mem_map.1 hy
    rw [List.length_map]; exact hx z hz
  unfold r2d2Unroll
  rw [batchApply_map _ b xs hx]
  simp only
  rw [batchApply_map _ b _ (staticUnroll_rect p b _ ss hx' hs).1]
  clear hx'
  induction xs generalizing ss with
  | nil => rfl
  | cons x xs ih =>
    have hlen := (lstmBatch_length p (x.map (embedRow p)) ss b (by rw [List.length_map]; exact hx x (List.mem_cons_self ..)) hs).2
    have := ih (lstmBatch p (x.map (embedRow p)) ss).2 (fun y hy => hx y (List.mem_cons_of_mem _ hy)) hlen
    simp only [Spec.stepped, staticUnroll, List.map_cons, r2d2Call, Prod.mk.injEq, List.cons.injEq]
    exact ⟨⟨trivial, congrArg Prod.fst this⟩, congrArg Prod.snd this⟩

/-- One sequence on its own: embed, remember, value. -/
noncomputable def Spec.alone (p : R2D2Params d D H n) : List Oar → LstmState H → List (Fin n → ℝ) × LstmState H
  | [], s => ([], s)
  | x :: xs, s =>
    (duellingRow p (lstmRow p (embedRow p x) s).1 :: (Spec.alone p xs (lstmRow p (embedRow p x) s).2).1,
      (Spec.alone p xs (lstmRow p (embedRow p x) s).2).2)

theorem call_row (p : R2D2Params d D H n) (xs : List Oar) (ss : List (LstmState H)) (i : ℕ) (x : Oar) (s : LstmState H)
    (hx : xs[i]? = some x) (hs : ss[i]? = some s) :
    (r2d2Call p xs ss).1[i]? = some (duellingRow p (lstmRow p (embedRow p x) s).1) ∧
    (r2d2Call p xs ss).2[i]? = some (lstmRow p (embedRow p x) s).2 := by
  unfold r2d2Call lstmBatch
  simp [List.getElem?_zipWith, hx, hs]

/-- C128. The sequences of a batch do not influence each other: the values and the final state of row `i` are those of its own
observations, actions, rewards and initial state, processed alone. -/
theorem C128_rows (p : R2D2Params d D H n) (b : ℕ) (xs : List (List Oar)) (ss : List (LstmState H)) (hx : Spec.Rect b xs)
    (hs : ss.length = b) (i : ℕ) (s : LstmState H) (hi : ss[i]? = some s) :
    (r2d2Unroll p xs ss).1.map (·[i]?) = (Spec.alone p (xs.filterMap (·[i]?)) s).1.map some ∧
    (r2d2Unroll p xs ss).2[i]? = some (Spec.alone p (xs.filterMap (·[i]?)) s).2 := by
  rw [C128_unroll p b xs ss hx hs]
  have hib : i < b := by rw [← hs]; exact (List.getElem?_eq_some_iff.1 hi).1
  induction xs generalizing ss s with
  | nil => exact ⟨rfl, hi⟩
  | cons x xs ih =>
    have hxl := hx x (List.mem_cons_self ..)
    have hxi : x[i]? = some x[i] := List.getElem?_eq_getElem (by omega)
    obtain ⟨c1, c2⟩ := call_row p x ss i _ s hxi hi
    have hlen : (r2d2Call p x ss).2.length = b := by
      unfold r2d2Call
      exact (lstmBatch_length p _ ss b (by rw [List.length_map]; exact hxl) hs).2
    obtain ⟨i1, i2⟩ := ih (r2d2Call p x ss).2 (fun y hy => hx y (List.mem_cons_of_mem _ hy)) hlen _ c2
    rw [show (x :: xs).filterMap (·[i]?) = x[i] :: xs.filterMap (·[i]?) from List.filterMap_cons_some hxi]
    simp only [Spec.stepped, Spec.alone, List.map_cons]
    exact ⟨by rw [c1, i1], i2⟩

/-- C128. A sequence can be cut anywhere: the values of the second part are those computed from the state at the end of the first
part (as after a burn-in), and the values of the first part do not depend on what comes later. -/
theorem C128_cut (p : R2D2Params d D H n) (b : ℕ) (xs ys : List (List Oar)) (ss : List (LstmState H)) (hx : Spec.Rect b xs)
    (hy : Spec.Rect b ys) (hs : ss.length = b) :
    (r2d2Unroll p (xs ++ ys) ss).1 = (r2d2Unroll p xs ss).1 ++ (r2d2Unroll p ys (r2d2Unroll p xs ss).2).1 ∧
    (r2d2Unroll p (xs ++ ys) ss).2 = (r2d2Unroll p ys (r2d2Unroll p xs ss).2).2 := by
  have hxy : Spec.Rect b (xs ++ ys) := by
    intro z hz
    rcases List.mem_append.1 hz with h | h
    · exact hx z h
    · exact hy z h
  have hmid : ∀ (xs : List (List Oar)) (ss : List (LstmState H)), Spec.Rect b xs → ss.length = b → (Spec.stepped p xs ss).2.length = b := by
    intro xs
    induction xs with
    | nil => intro ss _ h; exact h
    | cons x xs ih =>
      intro ss hx hs
      refine ih _ (fun y hy => hx y (List.mem_cons_of_mem _ hy)) ?_
      unfold r2d2Call
      exact (lstmBatch_length p _ ss b (by rw [List.length_map]; exact hx x (List.mem_cons_self ..)) hs).2
  rw [C128_unroll p b _ _ hxy hs, C128_unroll p b xs ss hx hs, C128_unroll p b ys _ hy (hmid xs ss hx hs)]
  clear hxy
  induction xs generalizing ss with
  | nil => exact ⟨rfl, rfl⟩
  | cons x xs ih =>
    have hlen : (r2d2Call p x ss).2.length = b := by
      unfold r2d2Call
      exact (lstmBatch_length p _ ss b (by rw [List.length_map]; exact hx x (List.mem_cons_self ..)) hs).2
    obtain ⟨i1, i2⟩ := ih (r2d2Call p x ss).2 (fun y hy => hx y (List.mem_cons_of_mem _ hy)) hlen
    simp only [List.cons_append, Spec.stepped, List.cons.injEq, true_and]
    exact ⟨i1, i2⟩

/-- C128. The duelling head: whatever the advantages, the mean of the action values is the value of the state; two action values
differ by their advantages, so the preferred action is the one with the largest advantage. -/
theorem C128_duelling (p : R2D2Params d D H n) (hn : 0 < n) (h : Fin H → ℝ) :
    (∑ a, duellingRow p h a) / n = mlpForward H H 1 1 p.value h 0 ∧
    (∀ a b, duellingRow p h a - duellingRow p h b = mlpForward H H 1 n p.advantage h a - mlpForward H H 1 n p.advantage h b) ∧
    greedy (duellingRow p h) = greedy (mlpForward H H 1 n p.advantage h) := by
  have hn' : (n : ℝ) ≠ 0 := by positivity
  have hd : ∀ a b, duellingRow p h a - duellingRow p h b =
      mlpForward H H 1 n p.advantage h a - mlpForward H H 1 n p.advantage h b := by
    intro a b
    unfold duellingRow
    ring
  refine ⟨?_, hd, ?_⟩
  · unfold duellingRow
    simp only [Finset.sum_add_distrib, Finset.sum_sub_distrib, Finset.sum_const, Finset.card_univ, Fintype.card_fin, nsmul_eq_mul]
    field_simp
    ring
  · unfold greedy
    congr 2
    funext i
    congr 1
    refine propext (forall_congr' fun j => ?_)
    have := hd i j
    constructor <;> intro hh <;> linarith

/-- C128. What is remembered stays bounded, whatever is observed and whatever the parameters: after `T ≥ 1` steps every hidden unit
lies strictly between -1 and 1, and every cell is at most its initial size plus `T`. -/
theorem C128_bounded (p : R2D2Params d D H n) (xs : List Oar) (s : LstmState H) (j : Fin H) :
    (xs ≠ [] → |(Spec.alone p xs s).2.hidden j| < 1) ∧ |(Spec.alone p xs s).2.cell j| ≤ |s.cell j| + xs.length := by
  induction xs generalizing s with
  | nil => exact ⟨fun h => (h rfl).elim, by simp [Spec.alone]⟩
  | cons x xs ih =>
    obtain ⟨i1, i2⟩ := ih (lstmRow p (embedRow p x) s).2
    simp only [Spec.alone]
    have sig : ∀ y : ℝ, |y.sigmoid| < 1 := fun y => by
      rw [abs_of_pos (Real.sigmoid_pos y)]; exact Real.sigmoid_lt_one y
    have th : ∀ y : ℝ, |Real.tanh y| < 1 := fun y => Real.abs_tanh_lt_one y
    have prod : ∀ y z : ℝ, |y.sigmoid * Real.tanh z| < 1 := fun y z => by
      rw [abs_mul]
      exact mul_lt_one_of_nonneg_of_lt_one_left (abs_nonneg _) (sig y) (th z).le
    have hc : |(lstmRow p (embedRow p x) s).2.cell j| ≤ |s.cell j| + 1 := by
      unfold lstmRow
      simp only
      refine (abs_add_le _ _).trans (add_le_add ?_ (prod _ _).le)
      rw [abs_mul]
      exact mul_le_of_le_one_left (abs_nonneg _) (sig _).le
    refine ⟨fun _ => ?_, ?_⟩
    · by_cases hx : xs = []
      · subst hx
        exact prod _ _
      · exact i1 hx
    · rw [List.length_cons]
      push_cast
      linarith

/-- C128. The torso accepts a single observation or a batch of them, with the same result for each, and raises `ValueError` for anything
else. -/
theorem C128_torso (p : R2D2Params d D H n) :
    (∀ i, (∃ e, torsoCall p i = .error e) ↔ (∃ x, i = .scalar x) ∨ ∃ r, i = .deeper r) ∧
    (∀ i e, torsoCall p i = .error e → e = .value) ∧
    ∀ (xs : List (List ℝ)) (i : ℕ) (x : List ℝ), xs[i]? = some x → ∃ ys y, torsoCall p (.batch xs) = .ok (.inr ys) ∧
      torsoCall p (.row x) = .ok (.inl y) ∧ ys.length = xs.length ∧ ys[i]? = some y := by
  refine ⟨fun i => ?_, fun i e h => ?_, fun xs i x h => ⟨_, _, rfl, rfl, by simp, by simp [h]⟩⟩
  · cases i <;> simp [torsoCall]
  · cases i <;> simp [torsoCall] at h <;> exact h.symm

/-- C128. Rewards enter through `tanh`, actions as a unit vector: the embedding has entries in `[-1, 1]` for both, tells different rewards
and different valid actions apart, and embeds every invalid action as zero. -/
theorem C128_embedding (p : R2D2Params d D H n) (x y : Oar) (ho : x.obs = y.obs) :
    |embedRow p x (Fin.last _)| < 1 ∧
    (embedRow p x = embedRow p y ↔ x.reward = y.reward ∧
      (x.action = y.action ∨ (x.action < 0 ∨ (n : ℤ) ≤ x.action) ∧ (y.action < 0 ∨ (n : ℤ) ≤ y.action))) := by
  have last : ∀ z : Oar, embedRow p z (Fin.last _) = Real.tanh z.reward := by
    intro z
    have : (Fin.last (D + n) : Fin (D + n + 1)) = Fin.natAdd (D + n) (0 : Fin 1) := rfl
    unfold embedRow
    rw [this, Fin.append_right]
  have act : ∀ (z : Oar) (a : Fin n), embedRow p z (Fin.castAdd 1 (Fin.natAdd D a)) = if (a : ℤ) = z.action then 1 else 0 := by
    intro z a
    unfold embedRow
    rw [Fin.append_left, Fin.append_right]
  refine ⟨by rw [last]; exact Real.abs_tanh_lt_one _, ?_, ?_⟩
  · intro h
    have hr : x.reward = y.reward := by
      have := congrFun h (Fin.last _)
      rw [last, last] at this
      exact Real.tanh_injective this
    refine ⟨hr, ?_⟩
    by_cases hx : 0 ≤ x.action ∧ x.action < n
    · left
      have := congrFun h (Fin.castAdd 1 (Fin.natAdd D ⟨x.action.toNat, by omega⟩))
      rw [act, act] at this
      simp only [Int.toNat_of_nonneg hx.1, if_true] at this
      by_contra hne
      rw [if_neg hne] at this
      exact one_ne_zero this
    · by_cases hy : 0 ≤ y.action ∧ y.action < n
      · left
        have := congrFun h (Fin.castAdd 1 (Fin.natAdd D ⟨y.action.toNat, by omega⟩))
        rw [act, act] at this
        simp only [Int.toNat_of_nonneg hy.1, if_true] at this
        by_contra hne
        rw [if_neg (Ne.symm hne)] at this
        exact zero_ne_one this
      · right; omega
  · rintro ⟨hr, ha⟩
    have hone : (fun a : Fin n => if (a : ℤ) = x.action then (1 : ℝ) else 0) = fun a : Fin n => if (a : ℤ) = y.action then 1 else 0 := by
      funext a
      rcases ha with ha | ⟨h1, h2⟩
      · rw [ha]
      · have := a.isLt
        rw [if_neg (by omega), if_neg (by omega)]
    unfold embedRow
    rw [hone, hr, ho]

/-- C128. What the values are read from: the torso is the feed-forward network with seven hidden layers on all entries of the
observation, without a restriction on its outputs; its outputs are the first entries of the embedding; and the action values of
a call are the duelling head on the hidden state that the call leaves (not on its cell). -/
theorem C128_parts (p : R2D2Params d D H n) (L : ℕ → Tensor × Tensor) (hL : stackParams d D 7 D L = p.torso) :
    (∀ (obs : List ℝ) (j : Fin D), torsoRow p obs j = Spec.output L d D 7 (fun i => obs.getD i 0) j) ∧
    (∀ (x : Oar) (j : Fin D), ∃ i : Fin (D + n + 1), (i : ℕ) = j ∧ embedRow p x i = torsoRow p x.obs j) ∧
    ∀ (xs : List Oar) (ss : List (LstmState H)),
      (r2d2Call p xs ss).1 = (r2d2Call p xs ss).2.map fun s => duellingRow p s.hidden := by
  refine ⟨fun obs j => ?_, fun x j => ⟨Fin.castAdd 1 (Fin.castAdd n j), rfl, ?_⟩, fun xs ss => ?_⟩
  · unfold torsoRow
    rw [← hL]
    exact forward_stack 7 d D D L (fun i => obs.getD i 0) j
  · unfold embedRow
    rw [Fin.append_left, Fin.append_left]
  · simp only [r2d2Call, lstmBatch, List.map_map, List.map_zipWith]
    rfl

/-- C128. A fresh batch has one state per row with empty memory, so after `T` steps no cell exceeds `T` in size. -/
theorem C128_fresh (p : R2D2Params d D H n) (batch : ℕ) :
    (r2d2Initial H batch).length = batch ∧ ∀ s ∈ r2d2Initial H batch, (∀ j, s.hidden j = 0 ∧ s.cell j = 0) ∧
      ∀ (xs : List Oar) (j : Fin H), |(Spec.alone p xs s).2.cell j| ≤ xs.length := by
  refine ⟨by simp [r2d2Initial], fun s hs => ?_⟩
  have h0 := List.eq_of_mem_replicate hs
  subst h0
  refine ⟨fun j => ⟨rfl, rfl⟩, fun xs j => ?_⟩
  have := (C128_bounded p xs ⟨fun _ => 0, fun _ => 0⟩ j).2
  simpa using this

/-- C128. The gates lean towards remembering (`acme_utils.py:130`): where the linear layer of the gates is zero,
every step keeps exactly the share `sigmoid 1` (about 0.73) of each cell and adds nothing, whatever is observed. -/
theorem C128_remembers (p : R2D2Params d D H n) (hg : ∀ i, p.gates i = 0) (xs : List Oar) (s : LstmState H) (j : Fin H) :
    (Spec.alone p xs s).2.cell j = (1 / (1 + Real.exp (-1))) ^ xs.length * s.cell j := by
  have gate : ∀ (x : Fin (D + n + 1 + H) → ℝ) (k), dense p.gates x k = 0 := by
    intro x k; simp [dense, hg]
  induction xs generalizing s with
  | nil => simp [Spec.alone]
  | cons x xs ih =>
    simp only [Spec.alone]
    rw [ih]
    simp only [lstmRow, gate, Real.tanh_zero, mul_zero, add_zero, zero_add, List.length_cons, pow_succ, Real.sigmoid_def, one_div]
    ring

/-- A network with one unit per layer, two actions, and a state value of 3. -/
def tinyNet : R2D2Params 1 1 1 2 where
  torso _ := 0
  gates _ := 0
  value
    | .inl _ => 0
    | .inr i => match i.1 with | none => 3 | some _ => 0
  advantage _ := 0

/-- Two steps of two sequences: the state value is 3 throughout; the cell of the second sequence decays by `sigmoid 1` per step. -/
example : (r2d2Unroll tinyNet [[⟨[5], 0, 1⟩, ⟨[6], 1, 1⟩], [⟨[7], 1, 0⟩, ⟨[8], 0, 0⟩]] [⟨fun _ => 0, fun _ => 0⟩, ⟨fun _ => 0, fun _ => 8⟩]).1.map
      (·[1]?) = [some (fun _ => 3), some fun _ => 3] ∧
    ∃ s, (r2d2Unroll tinyNet [[⟨[5], 0, 1⟩, ⟨[6], 1, 1⟩], [⟨[7], 1, 0⟩, ⟨[8], 0, 0⟩]]
      [⟨fun _ => 0, fun _ => 0⟩, ⟨fun _ => 0, fun _ => 8⟩]).2[1]? = some s ∧ s.cell 0 = (1 : ℝ).sigmoid ^ 2 * 8 := by
  obtain ⟨h1, h2⟩ := C128_rows tinyNet 2 [[⟨[5], 0, 1⟩, ⟨[6], 1, 1⟩], [⟨[7], 1, 0⟩, ⟨[8], 0, 0⟩]]
    [⟨fun _ => 0, fun _ => 0⟩, ⟨fun _ => 0, fun _ => 8⟩] (by intro x hx; fin_cases hx <;> rfl) rfl 1 _ rfl
  have gate : ∀ (x : Fin (1 + 2 + 1 + 1) → ℝ) (j), dense tinyNet.gates x j = 0 := by
    intro x j; simp [dense, tinyNet]
  have three : ∀ h, duellingRow tinyNet h = fun _ => 3 := by
    intro h
    funext a
    simp [duellingRow, tinyNet, mlpForward, dense]
  refine ⟨?_, _, h2, ?_⟩
  · rw [h1]
    simp [Spec.alone, three]
  · simp [Spec.alone, lstmRow, gate, Real.tanh_zero]
    ring

end BLE
