import Mathlib.Analysis.SpecialFunctions.Sigmoid
import Mathlib.Analysis.SpecialFunctions.Trigonometric.DerivHyp
import Verif.Model.Networks

/-!
# The recurrent network

`balloon_learning_environment/acme_utils.py:100-157` (`BLETorso`, `R2D2Network`).

A batch is a list of rows, a sequence is a list of batches. Haiku's `Linear`, `LSTM`, `BatchApply` and `static_unroll` and Acme's
`OAREmbedding` and `DuellingMLP` are modelled after their documentation. Simplified: shape checks are replaced by types, where rows are
concerned; the initial parameters are arbitrary.
-/

namespace BLE

/-- One row of `observation_action_reward.OAR`: an observation, the action before it and the reward before it.
(`acme_utils.py:136, 150`) -/
structure Oar where
  obs : List ℝ
  action : ℤ
  reward : ℝ

/-- `acme_utils.py:127-132` — the parameters of `R2D2Network(n)` on observations with `d` entries, with torso width `D` and
memory of `H` units: the torso's seven hidden layers and last layer, the LSTM's linear layer on input and hidden state, and the
two MLPs of the duelling head with one hidden layer each. In use are `D = 600` and `H = 512` (`acme_utils.py:106-109, 130-131`) with
`d = 1099`; everything is stated for all widths. -/
structure R2D2Params (d D H n : ℕ) where
  torso : MlpIx d D 7 D → ℝ
  gates : Option (Fin (D + n + 1 + H)) × Fin (4 * H) → ℝ
  value : MlpIx H H 1 1 → ℝ
  advantage : MlpIx H H 1 n → ℝ

/-- The rank of what `BLETorso` may be given: a number, an observation, a batch, or more. (`acme_utils.py:112-116`) -/
inductive TorsoInput
  | scalar (x : ℝ)
  | row (x : List ℝ)
  | batch (xs : List (List ℝ))
  | deeper (rank : ℕ)

variable {d D H n : ℕ}

/-- `acme_utils.py:103-110` — the torso's layers on one row. -/
noncomputable def torsoRow (p : R2D2Params d D H n) (obs : List ℝ) : Fin D → ℝ := mlpForward d D 7 D p.torso fun i => obs.getD i 0

/-- `acme_utils.py:112-121` — `BLETorso.__call__`. -/
noncomputable def torsoCall (p : R2D2Params d D H n) : TorsoInput → Except Err ((Fin D → ℝ) ⊕ List (Fin D → ℝ))
  | .scalar _ => .error .value
  | .row x => .ok (.inl (torsoRow p x))
  | .batch xs => .ok (.inr (xs.map (torsoRow p)))
  | .deeper _ => .error .value

/-- `acme_utils.py:129, 139` — `OAREmbedding` on one row: the torso's output, the action as a one-hot vector (0 if out of range),
and `tanh` of the reward. -/
noncomputable def embedRow (p : R2D2Params d D H n) (x : Oar) : Fin (D + n + 1) → ℝ :=
  Fin.append (Fin.append (torsoRow p x.obs) fun a : Fin n => if (a : ℤ) = x.action then 1 else 0) fun _ => Real.tanh x.reward

/-- The state of an LSTM for one row. (`acme_utils.py:137, 151`) -/
structure LstmState (H : ℕ) where
  hidden : Fin H → ℝ
  cell : Fin H → ℝ

/-- Entry `j` of part `k` of the four parts of the gates. (`acme_utils.py:130`) -/
def gateIx (k : Fin 4) (j : Fin H) : Fin (4 * H) :=
  ⟨k * H + j, by
    have := j.isLt
    calc (k : ℕ) * H + j < k * H + H := by omega
      _ = (k + 1) * H := by ring
      _ ≤ 4 * H := Nat.mul_le_mul_right _ (by omega)⟩

/-- `acme_utils.py:130, 140` — `hk.LSTM` on one row: input, cell, forget (with 1 added) and output gates, in this order. -/
noncomputable def lstmRow (p : R2D2Params d D H n) (x : Fin (D + n + 1) → ℝ) (s : LstmState H) : (Fin H → ℝ) × LstmState H :=
  let g := dense p.gates (Fin.append x s.hidden)
  let cell := fun j => (g (gateIx 2 j) + 1).sigmoid * s.cell j + (g (gateIx 0 j)).sigmoid * Real.tanh (g (gateIx 1 j))
  let hidden := fun j => (g (gateIx 3 j)).sigmoid * Real.tanh (cell j)
  (hidden, ⟨hidden, cell⟩)

/-- `acme_utils.py:131, 141` — `DuellingMLP` on one row. -/
noncomputable def duellingRow (p : R2D2Params d D H n) (h : Fin H → ℝ) : Fin n → ℝ :=
  let v := mlpForward H H 1 1 p.value h 0
  let a := mlpForward H H 1 n p.advantage h
  fun i => v + (a i - (∑ j, a j) / n)

/-- `acme_utils.py:140` — the core on a batch. -/
noncomputable def lstmBatch (p : R2D2Params d D H n) (xs : List (Fin (D + n + 1) → ℝ)) (ss : List (LstmState H)) :
    List (Fin H → ℝ) × List (LstmState H) :=
  let r := List.zipWith (lstmRow p) xs ss
  (r.map (·.1), r.map (·.2))

/-- `acme_utils.py:134-142` — `R2D2Network.__call__`. -/
noncomputable def r2d2Call (p : R2D2Params d D H n) (inputs : List Oar) (state : List (LstmState H)) :
    List (Fin n → ℝ) × List (LstmState H) :=
  let r := lstmBatch p (inputs.map (embedRow p)) state
  (r.1.map (duellingRow p), r.2)

/-- `acme_utils.py:144-146` — `initial_state`: zeros. -/
def r2d2Initial (H batch : ℕ) : List (LstmState H) := List.replicate batch ⟨fun _ => 0, fun _ => 0⟩

/-- The leading dimension split into `t` rows of `b`. (`acme_utils.py:154, 156`) -/
def splitRows {α : Type} (b : ℕ) : ℕ → List α → List (List α)
  | 0, _ => []
  | t + 1, xs => xs.take b :: splitRows b t (xs.drop b)

/-- `hk.BatchApply`: the two leading dimensions are merged, the function applied, and the dimensions split again.
(`acme_utils.py:154, 156`) -/
def batchApply {α β : Type} (f : List α → List β) (xs : List (List α)) : List (List β) :=
  splitRows (xs.headD []).length xs.length (f xs.flatten)

/-- `hk.static_unroll`. (`acme_utils.py:155`) -/
def staticUnroll {α β σ : Type} (core : α → σ → β × σ) : List α → σ → List β × σ
  | [], s => ([], s)
  | x :: xs, s =>
    let r := core x s
    let q := staticUnroll core xs r.2
    (r.1 :: q.1, q.2)

/-- `acme_utils.py:148-157` — `R2D2Network.unroll`. -/
noncomputable def r2d2Unroll (p : R2D2Params d D H n) (inputs : List (List Oar)) (state : List (LstmState H)) :
    List (List (Fin n → ℝ)) × List (LstmState H) :=
  let embeddings := batchApply (List.map (embedRow p)) inputs
  let r := staticUnroll (lstmBatch p) embeddings state
  (batchApply (List.map (duellingRow p)) r.1, r.2)

end BLE
