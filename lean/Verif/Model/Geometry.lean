import Verif.Model.Basic
import Mathlib.Analysis.SpecialFunctions.Complex.Arg
import Mathlib.Algebra.Order.Round

/-!
# Spherical geometry

`BLE/utils/spherical_geometry.py`.
-/

namespace BLE

/-- A latitude/longitude pair in radians (`s2sphere.LatLng`). (`spherical_geometry.py:44-76`) -/
structure LatLng where
  lat : ℝ
  lng : ℝ

/-- `math.atan2(y, x)`: the argument of `x + iy`, in `(-π, π]`, `0` at the origin. (`spherical_geometry.py:59`) -/
noncomputable def atan2 (y x : ℝ) : ℝ := Complex.arg ⟨x, y⟩

/-- `math.radians` (`solar.py:82-100`) -/
noncomputable def radians (d : ℝ) : ℝ := d * (Real.pi / 180)
/-- `math.degrees` (`solar.py:141, 165, 167`) -/
noncomputable def degrees (r : ℝ) : ℝ := r * (180 / Real.pi)

/-- `s2sphere.LatLng.normalized` (used at `spherical_geometry.py:76`): latitude clamped, longitude
reduced by the IEEE remainder modulo `2π` (ties at exactly half a turn may pick the other of `±π`). -/
noncomputable def LatLng.normalized (l : LatLng) : LatLng :=
  { lat := max (-Real.pi / 2) (min (Real.pi / 2) l.lat)
    lng := l.lng - 2 * Real.pi * round (l.lng / (2 * Real.pi)) }

/-- `spherical_geometry.py:29` — Earth radius in metres. -/
noncomputable def earthRadius : ℝ := 6371 * 1000

/-- `units.py:307-309` — `relative_distance` in metres. -/
noncomputable def relativeDistance (x y : ℝ) : ℝ := Real.sqrt (x ^ 2 + y ^ 2)

/-- `spherical_geometry.py:44-76` — `calculate_latlng_from_offset`; offsets in metres. (That positions survive
pickling, `spherical_geometry.py:38-39`, is not modelled.) -/
noncomputable def latlngFromOffset (c : LatLng) (x y : ℝ) : LatLng :=
  let heading := atan2 (x / 1000) (y / 1000)
  let angle := relativeDistance x y / earthRadius
  let sinLat := Real.cos angle * Real.sin c.lat + Real.sin angle * Real.cos c.lat * Real.cos heading
  let dLng := atan2 (Real.sin angle * Real.cos c.lat * Real.sin heading)
    (Real.cos angle - Real.sin c.lat * sinLat)
  let newLat := min (max (Real.arcsin sinLat) (-Real.pi / 2)) (Real.pi / 2)
  LatLng.normalized { lat := newLat, lng := c.lng + dLng }

end BLE
