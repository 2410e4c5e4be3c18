import Mathlib.LinearAlgebra.Matrix.PosDef
import Mathlib.LinearAlgebra.Matrix.NonsingularInverse
import Verif.Model.Wind

/-!
# Wind estimator: `BLE/env/wind_gp.py`

Locations are rows `(x [m], y [m], pressure [Pa], time [s])`. The object keeps two parallel lists
(locations and errors, always appended to together) which are modelled as one list of pairs. The
estimator holds a reference to the wind field; between resets of the environment the forecast of a
wind field does not change, so the model keeps the forecast as a pair of functions.
-/

namespace BLE

open Matrix

/-- A row of the location arrays (`wind_gp.py:110-111, 136-137, 147-149`). -/
structure Row where
  x : ℝ
  y : ℝ
  p : ℝ
  t : ℝ

/-- What the estimator uses of a wind field: `get_forecast` and `get_forecast_column`. (`wind_gp.py:113, 233-237`) -/
structure Forecaster where
  single : ℝ → ℝ → ℝ → ℤ → Except Err (ℝ × ℝ)
  column : ℝ → ℝ → List ℝ → ℤ → Except Err (List (ℝ × ℝ))

/-- The forecaster of a wind field object. (`wind_gp.py:96`) -/
def Forecaster.of {K W : Type} (C : WindClass K W) (w : W) : Forecaster :=
  { single := C.forecast w, column := columnOf C w }

/-- `wind_gp.py:91-96` — the mutable state. -/
structure WindGP where
  data : List (Row × (ℝ × ℝ))
  forecast : Forecaster

/-- `wind_gp.py:82-96` — `reset` (also the last line of `__init__`, :80). -/
def WindGP.reset (f : Forecaster) (_ : WindGP) : WindGP := { data := [], forecast := f }

/-- `wind_gp.py:52-80` — construction. -/
def WindGP.new (f : Forecaster) : WindGP := { data := [], forecast := f }

/-- `wind_gp.py:98-119` — `observe`. The forecast is looked up before anything is stored. -/
noncomputable def WindGP.observe (g : WindGP) (x y p : ℝ) (t : ℤ) (m : ℝ × ℝ) : Except Err WindGP := do
  let f ← g.forecast.single x y p t
  return { g with data := g.data ++ [(⟨x, y, p, totalSeconds t⟩, (m.1 - f.1, m.2 - f.2))] }

/-- What `GaussianProcessRegressor.predict(…, return_std=True)` returns: means, and standard deviations
either as a vector (older scikit-learn) or with one column per target (newer ones), see
`wind_gp.py:190-207`. -/
structure GprOut where
  means : List (ℝ × ℝ)
  std : List ℝ ⊕ List (ℝ × ℝ)

/-- `model.fit(inputs, targets)` followed by `model.predict(locations, return_std=True)`. (`wind_gp.py:186, 190`) -/
abbrev Regressor := List (Row × (ℝ × ℝ)) → List Row → Except Err GprOut

/-- `wind_gp.py:37` — `_SIGMA_EXP_SQUARED`. -/
noncomputable def sigmaExpSq : ℝ := 3.6 ^ 2

/-- `wind_gp.py:38` — `_SIGMA_NOISE_SQUARED`. -/
noncomputable def sigmaNoiseSq : ℝ := 0.05

/-- `wind_gp.py:196-207` — variances, normalised, averaged over the two components when there are two. -/
noncomputable def deviations : List ℝ ⊕ List (ℝ × ℝ) → List ℝ
  | .inl s => s.map fun d => d ^ 2 / sigmaExpSq
  | .inr s => s.map fun d => (d.1 ^ 2 / sigmaExpSq + d.2 ^ 2 / sigmaExpSq) / 2

/-- `wind_gp.py:239-241` — the loop adding forecasts to means in place: `IndexError` when there are more
forecasts than means; means without a forecast stay. -/
noncomputable def addColumn : List (ℝ × ℝ) → List (ℝ × ℝ) → Except Err (List (ℝ × ℝ))
  | ms, [] => .ok ms
  | [], _ :: _ => .error .index
  | m :: ms, f :: fs => (addColumn ms fs).map ((m.1 + f.1, m.2 + f.2) :: ·)

/-- `dt.timedelta(seconds=s)`: to the nearest microsecond (`wind_gp.py:237`). -/
noncomputable def timedeltaOfSeconds (s : ℝ) : ℤ := round (s * 1000000)

open Classical in
/-- `wind_gp.py:217-241` — `_add_forecast_to_prediction`. -/
noncomputable def addForecast (f : Forecaster) (locs : List Row) (means : List (ℝ × ℝ)) :
    Except Err (List (ℝ × ℝ)) :=
  match locs with
  | [] => .error .index
  | l :: ls =>
    if ∀ r ∈ ls, r.x = l.x ∧ r.y = l.y ∧ r.t = l.t then
      match f.column l.x l.y (locs.map (·.p)) (timedeltaOfSeconds l.t) with
      | .error e => .error e
      | .ok fs => addColumn means fs
    else .error .assertion

/-- `wind_gp.py:63` — `time_horizon` in seconds. -/
noncomputable def gpHorizon : ℝ := 6 * 3600

open Classical in
/-- `wind_gp.py:165-185` — the training set actually used: only if all queries share one time are old
(or much younger) observations dropped. -/
noncomputable def trainingSet (data : List (Row × (ℝ × ℝ))) (l : Row) (ls : List Row) :
    List (Row × (ℝ × ℝ)) :=
  if ∀ r ∈ ls, r.t = l.t then data.filter fun d => |d.1.t - l.t| < gpHorizon else data

/-- `wind_gp.py:143-215` — `query_batch`. (An empty batch is an `IndexError` in either branch.) -/
noncomputable def WindGP.queryBatch (R : Regressor) (g : WindGP) (locs : List Row) :
    Except Err (List (ℝ × ℝ) × List ℝ) :=
  match locs with
  | [] => .error .index
  | l :: ls =>
    match (if g.data = [] then Except.ok (locs.map fun _ => (0, 0), locs.map fun _ => 0)
      else match R (trainingSet g.data l ls) locs with
        | .error e => .error e
        | .ok o => .ok (o.means, deviations o.std) :
        Except Err (List (ℝ × ℝ) × List ℝ)) with
    | .error e => .error e
    | .ok (ms, ds) =>
      match addForecast g.forecast locs ms with
      | .error e => .error e
      | .ok ms => .ok (ms, ds)

/-- `wind_gp.py:121-141` — `query`. -/
noncomputable def WindGP.query (R : Regressor) (g : WindGP) (x y p : ℝ) (t : ℤ) :
    Except Err ((ℝ × ℝ) × ℝ) :=
  match g.queryBatch R [⟨x, y, p, totalSeconds t⟩] with
  | .ok (m :: _, d :: _) => .ok (m, d)
  | .ok _ => .error .index
  | .error e => .error e

/-! ## The regressor

`wind_gp.py:70-79`: a constant times a Matérn kernel with `nu = 0.5` and fixed length scales,
observation noise `alpha`, no optimiser. scikit-learn is not part of the repository; what follows is its
documented algorithm (Rasmussen & Williams, Algorithm 2.1), in exact arithmetic. -/

/-- `wind_gp.py:33-37, 70-73` — the kernel: `3.6² · exp(-‖(a-b)/length_scale‖)`. -/
noncomputable def matern (a b : Row) : ℝ :=
  sigmaExpSq * Real.exp (-Real.sqrt (((a.x - b.x) / 357000) ^ 2 + ((a.y - b.y) / 357000) ^ 2 +
    ((a.p - b.p) / 326) ^ 2 + ((a.t - b.t) / 34560) ^ 2))

/-- `wind_gp.py:75-79` — the regularised kernel matrix of the training inputs. -/
noncomputable def gramMatrix (data : List (Row × (ℝ × ℝ))) :
    Matrix (Fin data.length) (Fin data.length) ℝ :=
  Matrix.of fun i j => matern (data.get i).1 (data.get j).1 + if i = j then sigmaNoiseSq else 0

/-- Kernel between a query and the training inputs. (`wind_gp.py:72-79`) -/
noncomputable def gramVector (data : List (Row × (ℝ × ℝ))) (l : Row) : Fin data.length → ℝ :=
  fun i => matern (data.get i).1 l

/-- Posterior mean of one component. (`wind_gp.py:190`) -/
noncomputable def posteriorMean (data : List (Row × (ℝ × ℝ))) (target : ℝ × ℝ → ℝ) (l : Row) : ℝ :=
  gramVector data l ⬝ᵥ ((gramMatrix data)⁻¹ *ᵥ fun i => target (data.get i).2)

/-- Posterior variance; scikit-learn sets negative values to 0. (`wind_gp.py:190`) -/
noncomputable def posteriorVar (data : List (Row × (ℝ × ℝ))) (l : Row) : ℝ :=
  max 0 (matern l l - gramVector data l ⬝ᵥ ((gramMatrix data)⁻¹ *ᵥ gramVector data l))

open Classical in
/-- The regressor of `wind_gp.py:75-79`: `fit` rejects an empty training set (`ValueError`), and
raises `LinAlgError` unless the matrix has a Cholesky factor. `two` selects the scikit-learn version
(one or two standard deviations per location). -/
noncomputable def gpr (two : Bool) : Regressor := fun data locs =>
  if data = [] then .error .value
  else if (gramMatrix data).PosDef then
    .ok { means := locs.map fun l => (posteriorMean data (·.1) l, posteriorMean data (·.2) l)
          std := if two then
              .inr (locs.map fun l => (Real.sqrt (posteriorVar data l), Real.sqrt (posteriorVar data l)))
            else .inl (locs.map fun l => Real.sqrt (posteriorVar data l)) }
  else .error .linAlg

end BLE
