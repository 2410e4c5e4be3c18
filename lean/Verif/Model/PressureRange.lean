import Verif.Model.StableInit
import Verif.Model.Wind

/-!
# Reachable pressure range

`BLE/env/balloon/pressure_range_builder.py`.
-/

namespace BLE

/-- `pressure_range_builder.py:43-65` — `_compute_x_crossing`. -/
noncomputable def xCrossing (x1 y1 x2 y2 ys : ℝ) : Except Err ℝ :=
  if ys < min y1 y2 ∨ ys > max y1 y2 then .error .value
  else if x1 ≥ x2 then .error .value
  else if y1 = y2 then .error .value
  else .ok (|(ys - y1) / (y2 - y1)| * (x2 - x1) + x1)

/-- `pressure_range_builder.py:68-102` — `_compute_safe_pressure`. -/
noncomputable def safeCrossing (p1 sp1 p2 sp2 minSp maxSp : ℝ) : Except Err ℝ :=
  if p1 ≥ p2 then .error .value
  else if sp1 = sp2 then .error .value
  else if (sp1 < minSp ∧ sp2 ≥ minSp) ∨ (sp1 ≥ minSp ∧ sp2 < minSp) then xCrossing p1 sp1 p2 sp2 minSp
  else if (sp1 > maxSp ∧ sp2 ≤ maxSp) ∨ (sp1 ≤ maxSp ∧ sp2 > maxSp) then xCrossing p1 sp1 p2 sp2 maxSp
  else .error .value

/-- The two values of `direction` (`pressure_range_builder.py:124-126`; other strings are a
`ValueError` and do not occur). -/
inductive Direction
  | min | max
  deriving DecidableEq

/-- `pressure_range_builder.py:147-157` — `comparator(pressure, significant_pressure)`: the level is to be
skipped. -/
def skipLevel (dir : Direction) (p sig : ℝ) : Prop :=
  match dir with
  | .min => p > sig
  | .max => p < sig

open Classical in
/-- `pressure_range_builder.py:155-182` — the search loop over the (already reversed for `'min'`) column;
`sp` is the superpressure of the balloon floating at a pressure, `last` the last unsafe point. -/
noncomputable def searchLoop (sp : ℝ → Except Err ℝ) (sig minSp maxSp : ℝ) (dir : Direction) :
    List ℝ → ℝ × ℝ → Except Err ℝ
  | [], _ => .error .value
  | p :: ps, last =>
    if skipLevel dir p sig then
      searchLoop sp sig minSp maxSp dir ps last
    else
      match sp p with
      | .error e => .error e
      | .ok s =>
        if s > maxSp ∨ s < minSp then searchLoop sp sig minSp maxSp dir ps (p, s)
        else match dir with
          | .min => safeCrossing p s last.1 last.2 minSp maxSp
          | .max => safeCrossing last.1 last.2 p s minSp maxSp

/-- `pressure_range_builder.py:105-182` — `_search_for_safe_pressure`. -/
noncomputable def searchSafe (sp : ℝ → Except Err ℝ) (column : List ℝ) (sig minSp maxSp : ℝ) (dir : Direction) :
    Except Err ℝ :=
  match sp sig with
  | .error e => .error e
  | .ok s =>
    if minSp ≤ s ∧ s ≤ maxSp then .ok sig
    else searchLoop sp sig minSp maxSp dir (match dir with | .min => column.reverse | .max => column) (sig, s)

/-- Linear interpolation with extrapolation through the points `(xs i, ys i)`, `i < n`
(`scipy.interpolate.interp1d(kind='linear', fill_value='extrapolate')`,
`pressure_range_builder.py:251-255`): segment `searchsorted(xs, x)` clipped to `1 … n-1`. -/
noncomputable def interpExtrapolate (xs ys : ℕ → ℝ) (n : ℕ) (x : ℝ) : ℝ :=
  let k := ((List.range n).filter fun i => decide (xs i < x)).length
  let hi := Nat.min (Nat.max k 1) (n - 1)
  (ys hi - ys (hi - 1)) / (xs hi - xs (hi - 1)) * (x - xs (hi - 1)) + ys (hi - 1)

/-- `_assert_monotonically_increasing` (`pressure_range_builder.py:38-40`) for `xs 0 … xs (n-1)`. -/
def monotonic (xs : ℕ → ℝ) (n : ℕ) : Prop := ∀ i, i + 1 < n → xs (i + 1) > xs i

/-- Superpressure of the balloon `s` when floating in equilibrium at pressure `p`
(`pressure_range_builder.py:133-137, 159-163`). -/
noncomputable def floatSp (sun : Sun) (α : ℝ) (s : BState) (p : ℝ) : Except Err ℝ :=
  (stableParams sun α p s.volBase s.dvdp s.envMass s.payload s.molsLift s.latlng s.dateTime s.upwelling).map (·.sp)

/-- The 20 searched pressure levels (`pressure_range_builder.py:230-232`). -/
noncomputable def searchLevels (top : ℝ) (i : ℕ) : ℝ := linspace 1000 top 20 i

/-- `pressure_range_builder.py:235-245` — `P/T` of a balloon floating with an empty ballonet. -/
noncomputable def emptyPoverT (s : BState) : ℝ :=
  (s.payload + s.envMass + s.molsLift * heM) * gasR / (airM * s.volBase)

/-- `AccessiblePressureRange` (`pressure_range_builder.py:32-35`). -/
structure PressureRange where
  lo : ℝ
  hi : ℝ

/-- `P/T` of the `i`-th atmosphere sample (`pressure_range_builder.py:233, 251`). -/
noncomputable def poverT (column : List AtmVals) (i : ℕ) : ℝ :=
  match column[i]? with
  | some v => v.pressure / v.temperature
  | none => 0

open Classical in
/-- `pressure_range_builder.py:203-275` — `get_pressure_range`; the two searches are the ones of `:185-200`, with the
directions `'max'` and `'min'`. -/
noncomputable def pressureRange (sun : Sun) (α : ℝ) (s : BState) : Except Err PressureRange :=
  let minSp : ℝ := 250
  let maxSp := s.maxSp - 250
  if ¬ maxSp > 0 then .error .assertion
  else match atHeight α minAltitude with
  | .error e => .error e
  | .ok floor =>
    let top := floor.pressure
    match (List.range 20).mapM fun i => atPressure α (searchLevels top i) with
    | .error e => .error e
    | .ok column =>
      if ¬ monotonic (poverT column) 20 then .error .assertion
      else
        let pmin := interpExtrapolate (poverT column) (searchLevels top) 20 (emptyPoverT s)
        let levels := (List.range 20).map (searchLevels top)
        match searchSafe (floatSp sun α s) levels pmin minSp maxSp .max with
        | .error e => .error e
        | .ok lo =>
          match searchSafe (floatSp sun α s) levels top minSp maxSp .min with
          | .error e => .error e
          | .ok hi => .ok { lo := lo, hi := hi }

end BLE
