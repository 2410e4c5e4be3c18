import Mathlib.Analysis.InnerProductSpace.PiL2
import Mathlib.Analysis.Calculus.Gradient.Basic
import Verif.Model.Agents

/-!
# Networks and the MLP agent's update

`balloon_learning_environment/agents/networks.py`, `agents/mlp_agent.py`.

Parameters are a vector of reals, indexed by layer, input (or bias) and output. `jax.value_and_grad` is the gradient.
Simplified: the shape checks of flax are replaced by types, the initial parameters are arbitrary.
-/

namespace BLE

/-- `networks.py:48-55` — index set of the parameters of `MLPNetwork` on `d` inputs with `k` hidden layers of `h` units
and `n` outputs: per `nn.Dense` a kernel entry for every (input, output) and a bias (`none`) for every output. -/
def MlpIx : ℕ → ℕ → ℕ → ℕ → Type
  | d, _, 0, n => Option (Fin d) × Fin n
  | d, h, k + 1, n => (Option (Fin d) × Fin h) ⊕ MlpIx h h k n

instance MlpIx.fintype : (d h k n : ℕ) → Fintype (MlpIx d h k n)
  | d, _, 0, n => inferInstanceAs (Fintype (Option (Fin d) × Fin n))
  | d, h, k + 1, n =>
    have := MlpIx.fintype h h k n
    inferInstanceAs (Fintype ((Option (Fin d) × Fin h) ⊕ MlpIx h h k n))

/-- `nn.Dense`: `x @ kernel + bias`. (`networks.py:49-50, 54-55`) -/
def dense {d m : ℕ} (p : Option (Fin d) × Fin m → ℝ) (x : Fin d → ℝ) : Fin m → ℝ :=
  fun j => ∑ i, x i * p (some i, j) + p (none, j)

/-- `networks.py:44-55, 84-94` — the body shared by `MLPNetwork` and `QuantileNetwork`: `k` hidden layers with ReLU, then a
dense layer with `n` outputs. -/
noncomputable def mlpForward : (d h k n : ℕ) → (MlpIx d h k n → ℝ) → (Fin d → ℝ) → Fin n → ℝ
  | _, _, 0, _, p, x => dense p x
  | _, h, k + 1, n, p, x =>
    mlpForward h h k n (fun i => p (.inr i)) fun j => max (dense (fun i => p (.inl i)) x j) 0

/-- `range(self.num_layers - 1)`: number of hidden layers (`networks.py:48, 88`). -/
def hiddenLayers (numLayers : ℤ) : ℕ := (numLayers - 1).toNat

/-- `networks.py:26-59` — `MLPNetwork(num_actions, num_layers, hidden_units)` on an observation with `d` entries. -/
noncomputable def mlpNetwork (d hidden : ℕ) (numLayers : ℤ) (n : ℕ)
    (p : MlpIx d hidden (hiddenLayers numLayers) n → ℝ) (obs : List ℝ) : Fin n → ℝ :=
  mlpForward d hidden (hiddenLayers numLayers) n p fun i => obs.getD i 0

/-- `networks.py:62-95` — the logits of `QuantileNetwork`: `reshape` is row-major. -/
noncomputable def quantileLogits (d hidden : ℕ) (numLayers : ℤ) (n atoms : ℕ)
    (p : MlpIx d hidden (hiddenLayers numLayers) (n * atoms) → ℝ) (obs : List ℝ) (a : Fin n) (t : Fin atoms) : ℝ :=
  mlpForward d hidden (hiddenLayers numLayers) (n * atoms) p (fun i => obs.getD i 0)
    ⟨a * atoms + t, by
      have ha := a.isLt; have ht := t.isLt
      calc (a : ℕ) * atoms + t < a * atoms + atoms := by omega
        _ = (a + 1) * atoms := by ring
        _ ≤ n * atoms := Nat.mul_le_mul_right _ (by omega)⟩

/-- `networks.py:97` — the values of `QuantileNetwork`: `jnp.mean(logits, axis=1)`. -/
noncomputable def quantileValues (d hidden : ℕ) (numLayers : ℤ) (n atoms : ℕ)
    (p : MlpIx d hidden (hiddenLayers numLayers) (n * atoms) → ℝ) (obs : List ℝ) (a : Fin n) : ℝ :=
  (∑ t, quantileLogits d hidden numLayers n atoms p obs a t) / atoms

open Classical in
/-- `jnp.argmax`: the first maximal entry (`mlp_agent.py:53-58`). -/
noncomputable def greedy {n : ℕ} (q : Fin n → ℝ) : ℤ := ((List.finRange n).findIdx fun i => decide (∀ j, q j ≤ q i) : ℕ)

/-- `values[action]` for an action in range (only actions chosen by `greedy` are looked up). (`mlp_agent.py:76-80`) -/
def pick {n : ℕ} (q : Fin n → ℝ) (a : ℤ) : ℝ := if h : 0 ≤ a ∧ a.toNat < n then q ⟨a.toNat, h.2⟩ else 0

/-- `mlp_agent.py:76-80` — `loss_fn`; the target is computed with the same parameters. -/
def sarsaLoss {P : Type} (value : P → List ℝ → ℤ → ℝ) (γ : ℝ) (s : List ℝ) (a : ℤ) (r : ℝ) (s' : List ℝ) (a' : ℤ)
    (p : P) : ℝ :=
  (value p s a - (r + γ * value p s' a')) ^ 2

/-- `mlp_agent.py:45-50, 61-88` — `train` with `optax.sgd(η)`: the updates are `-η` times the gradient of the loss. -/
noncomputable def sarsaTrain {P : Type} [NormedAddCommGroup P] [InnerProductSpace ℝ P] [CompleteSpace P]
    (value : P → List ℝ → ℤ → ℝ) (η γ : ℝ) (p : P) (o : Unit) (s : List ℝ) (a : ℤ) (r : ℝ) (s' : List ℝ) (a' : ℤ) :
    P × Unit :=
  (p + (-η) • gradient (sarsaLoss value γ s a r s' a') p, o)

/-- Parameter vectors of the MLP agent's network. (`mlp_agent.py:95-113`) -/
abbrev MlpParams (d hidden : ℕ) (numLayers : ℤ) (n : ℕ) : Type :=
  EuclideanSpace ℝ (MlpIx d hidden (hiddenLayers numLayers) n)

/-- `mlp_agent.py:91-147` — `MLPAgent` with its network and optimiser; the defaults are `η = 0.001`, `γ = 0.9`,
and `mlp.gin` sets one layer. -/
noncomputable def mlpAgentOf (d hidden : ℕ) (numLayers : ℤ) (n : ℕ) (η γ : ℝ) :
    Agent (Mlp (MlpParams d hidden numLayers n) Unit) :=
  mlpAgent (fun p obs => greedy (mlpNetwork d hidden numLayers n p.ofLp obs))
    (sarsaTrain (fun p obs a => pick (mlpNetwork d hidden numLayers n p.ofLp obs) a) η γ)

end BLE
