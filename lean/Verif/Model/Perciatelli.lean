import Verif.Model.Networks

/-!
# Pre-trained weights and the agents that only act

`agents/quantile_agent.py:203-254`, `agents/perciatelli44.py`, `agents/agent.py:149-162`.

TensorFlow's session is a parameter: the names of the nodes of the graph and the value of each. Tensors are functions from
index lists.
-/

namespace BLE

/-- An array: its shape and its entries. (`quantile_agent.py:215`) -/
structure Tensor where
  shape : List ℕ
  entry : List ℕ → ℝ

/-- Python's `sub in s`. (`quantile_agent.py:209, 213`) -/
def hasSub (sub s : String) : Bool := decide (sub.toList <:+: s.toList)

/-- `quantile_agent.py:206-216` — the keys of `param_dict`. -/
def paramNames (nodes : List String) : List String :=
  (nodes.filter fun n => hasSub "Online" n).filter fun n => (hasSub "weights" n || hasSub "biases" n) && !hasSub "read" n

/-- `param_dict[key]`. (`quantile_agent.py:217-252`) -/
def paramLookup {T : Type} (nodes : List String) (value : String → T) (key : String) : Except Err T :=
  if key ∈ paramNames nodes then .ok (value key) else .error .key

/-- `quantile_agent.py:217-252` — the scope of layer `k`. -/
def layerScope (k : ℕ) : String := if k = 0 then "Online/fully_connected" else "Online/fully_connected_" ++ toString k

/-- `quantile_agent.py:203-254` — `load_perciatelli_weights`: kernel and bias of `Dense_0` to `Dense_7`. -/
def loadWeights {T : Type} (nodes : List String) (value : String → T) : Except Err (List (T × T)) :=
  (List.range 8).mapM fun k => do
    let w ← paramLookup nodes value (layerScope k ++ "/weights")
    let b ← paramLookup nodes value (layerScope k ++ "/biases")
    return (w, b)

/-- The parameter dictionary `{'Dense_l': {'kernel', 'bias'}}` as a parameter vector. (`networks.py:49-50, 91-92`) -/
def stackParams : (d h k n : ℕ) → (ℕ → Tensor × Tensor) → MlpIx d h k n → ℝ
  | d, _, 0, n, L => fun (ix : Option (Fin d) × Fin n) =>
    match ix with
    | (some i, j) => (L 0).1.entry [i, j]
    | (none, j) => (L 0).2.entry [j]
  | d, h, k + 1, n, L => fun (ix : (Option (Fin d) × Fin h) ⊕ MlpIx h h k n) =>
    match ix with
    | .inl (some i, j) => (L 0).1.entry [i, j]
    | .inl (none, j) => (L 0).2.entry [j]
    | .inr ix => stackParams h h k n (fun l => L (l + 1)) ix

/-- flax rejects parameters of another shape than the layer's. (`networks.py:88-92`) -/
def fitsLayer (inp out : ℕ) (p : Tensor × Tensor) : Bool := p.1.shape = [inp, out] && p.2.shape = [out]

/-- `QuantileNetwork` applied to loaded parameters (`networks.py:62-98`), with the sizes of `finetune_perciatelli.gin`: eight
layers of 600 units, 51 atoms. -/
noncomputable def finetuneValues (ps : List (Tensor × Tensor)) (n : ℕ) (obs : List ℝ) : Except Err (Fin n → ℝ) :=
  let L := fun l => ps.getD l ⟨⟨[], fun _ => 0⟩, ⟨[], fun _ => 0⟩⟩
  if (List.range 8).all fun l => fitsLayer (if l = 0 then obs.length else 600) (if l = 7 then n * 51 else 600) (L l) then
    .ok (quantileValues obs.length 600 8 n 51 (stackParams obs.length 600 7 (n * 51) L) obs)
  else .error .value

/-- `perciatelli44.py:52-55` — the checks of the constructor. -/
def perciatelliNew (numActions : ℤ) (shape : List ℤ) : Except Err Unit :=
  if numActions ≠ 3 then .error .value else if shape ≠ [1099] then .error .value else .ok ()

/-- `perciatelli44.py:66-79` — `Perciatelli44`; `run` is the value of `q_values` in the session made
from the graph of `load_perciatelli44` (`:26-34`). `reshape` fails on another size. -/
noncomputable def perciatelliAgent (run : List ℝ → Fin 3 → ℝ) : Agent Unit where
  beginEpisode s obs := (s, if obs.length = 1099 then .ok (greedy (run obs)) else .error .value)
  step s _ obs := (s, if obs.length = 1099 then .ok (greedy (run obs)) else .error .value)
  endEpisode s _ _ := s

/-- `agent.py:149-162` — `RandomAgent`; `randint` draws from the state `G` of NumPy's global generator. -/
def randomAgent {G : Type} (randint : G → ℕ → G × ℕ) (n : ℕ) : Agent G where
  beginEpisode g _ := ((randint g n).1, .ok (randint g n).2)
  step g _ _ := ((randint g n).1, .ok (randint g n).2)
  endEpisode g _ _ := g

end BLE
