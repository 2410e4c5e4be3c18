import Mathlib.Data.Real.Sqrt
import Verif.Model.Basic

/-!
# Evaluating winds

`balloon_learning_environment/utils/wind.py`. SciPy's two Qhull wrappers are parameters: `hull` returns the indices of
the vertices of the convex hull (`ConvexHull(points).vertices`), `inside` whether some simplex of the Delaunay
triangulation contains a point (`Delaunay(points).find_simplex(x) >= 0`).
-/

namespace BLE

/-- The parts of `scipy.spatial` that are used. (`wind.py:38-41`) -/
structure Qhull where
  hull : List (ℝ × ℝ) → Except Err (List ℕ)
  inside : List (ℝ × ℝ) → ℝ × ℝ → Except Err Bool

/-- `wind.py:24-41` — `is_station_keeping_winds`. -/
def isStationKeeping (Q : Qhull) (column : List (ℝ × ℝ)) : Except Err Bool := do
  let vertices ← Q.hull column
  let support := vertices.map fun i => column.getD i (0, 0)
  Q.inside support (0, 0)

/-- `wind.py:44-57` — `wind_field_speeds`, on the list of grid points. -/
noncomputable def windSpeeds (field : List (ℝ × ℝ)) : List ℝ :=
  field.map fun w => Real.sqrt (w.1 * w.1 + w.2 * w.2)

/-- `wind.py:60-71` — `mean_speed_in_wind_field`. -/
noncomputable def meanSpeed (field : List (ℝ × ℝ)) : ℝ := (windSpeeds field).sum / (windSpeeds field).length

end BLE
