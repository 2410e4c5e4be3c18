import Verif.Model.Basic
import Mathlib.Algebra.Order.Floor.Ring
import Mathlib.Data.Real.Archimedean

/-!
# Compressor tables and the power table

`BLE/env/balloon/acs.py`, `BLE/env/balloon/power_table.py`.
-/

namespace BLE

/-- One segment of a linear interpolation, in the form `scipy.interpolate.interp1d` evaluates it:
`slope * (x - x_lo) + y_lo`. (`acs.py:24-28`) -/
noncomputable def seg (x0 y0 x1 y1 x : ℝ) : ℝ := (y1 - y0) / (x1 - x0) * (x - x0) + y0

/-- `acs.py:24-28, 44-58` — `get_most_efficient_power` [W]: piecewise linear through
(1.0,100) (1.05,100) (1.2,300) (1.25,400) (1.35,400), the first and last segment extrapolated. The
segment is chosen as `searchsorted(side='left')` clipped to a valid segment, as `interp1d` does. -/
noncomputable def mostEfficientPower (r : ℝ) : ℝ :=
  if r ≤ 1.05 then seg 1.0 100 1.05 100 r
  else if r ≤ 1.2 then seg 1.05 100 1.2 300 r
  else if r ≤ 1.25 then seg 1.2 300 1.25 400 r
  else seg 1.25 400 1.35 400 r

/-- `acs.py:35-40` — the efficiency values, one row per power 100, 200, 300, 400 W, one column per
pressure ratio 1.05, 1.075, …, 1.35 (`interp2d` reads the flat array with the ratio fastest). -/
noncomputable def effTable : List (List ℝ) :=
  [[0.4, 0.4, 0.3, 0.2, 0.2, 0, 0, 0, 0, 0, 0, 0, 0],
   [0.4, 0.3, 0.3, 0.3, 0.25, 0.23, 0.2, 0.15, 0.12, 0.1, 0, 0, 0],
   [0, 0.3, 0.25, 0.25, 0.25, 0.2, 0.2, 0.2, 0.2, 0.15, 0.13, 0.12, 0.11],
   [0, 0.23, 0.23, 0.23, 0.23, 0.23, 0.2, 0.2, 0.2, 0.18, 0.16, 0.15, 0.13]]

/-- Table entry at power index `j`, ratio index `i` (`acs.py:35-40`). All uses have `j < 4`, `i < 13`
(lemma `effIndex_lt`), so the defaults are never taken. -/
noncomputable def effAt (j i : ℕ) : ℝ := (effTable.getD j []).getD i 0

/-- Cell index and offset of `x` on the uniform grid `x0, x0+dx, …, x0+n·dx`, after clamping `x` to
the grid (`interp2d` with `fill_value=None` clamps to the boundary; `acs.py:31-41`). -/
noncomputable def cell (x0 dx : ℝ) (n : ℕ) (x : ℝ) : ℕ × ℝ :=
  let t := clip ((x - x0) / dx) 0 n
  let i := min ⌊t⌋₊ (n - 1)
  (i, t - i)

/-- `acs.py:31-41, 61-64` — `get_fan_efficiency`: bilinear interpolation of the table. -/
noncomputable def fanEfficiency (r w : ℝ) : ℝ :=
  let cx := cell 1.05 0.025 12 r
  let cy := cell 100 100 3 w
  (1 - cy.2) * ((1 - cx.2) * effAt cy.1 cx.1 + cx.2 * effAt cy.1 (cx.1 + 1)) +
    cy.2 * ((1 - cx.2) * effAt (cy.1 + 1) cx.1 + cx.2 * effAt (cy.1 + 1) (cx.1 + 1))

/-- `acs.py:67-68` — `get_mass_flow` [kg/s]. -/
noncomputable def massFlow (w eff : ℝ) : ℝ := eff * w / 3600

/-- `bisect.bisect` (= `bisect_right`) on a sorted list: the number of entries `≤ x`
(`power_table.py:36-37`). On a sorted list this is the length of the longest prefix with entries
`≤ x`. -/
noncomputable def bisect (xs : List ℝ) (x : ℝ) : ℕ := (xs.takeWhile (fun a => decide (a ≤ x))).length

/-- `power_table.py:25` -/
noncomputable def prIntervals : List ℝ := [1.08, 1.11, 1.14, 1.17, 1.2, 1.23, 1.26]

/-- `power_table.py:26-35` -/
noncomputable def socMappings : List (List ℝ × List ℝ) :=
  [([0.3, 0.4, 0.5], [0, 150, 175, 200]),
   ([0.3, 0.4, 0.7], [0, 200, 200, 225]),
   ([0.3, 0.4, 0.6], [0, 225, 225, 250]),
   ([0.3, 0.4, 0.5], [0, 200, 225, 250]),
   ([0.3, 0.4, 0.5], [0, 225, 250, 275]),
   ([0.4, 0.5], [0, 275, 300]),
   ([0.5, 0.6], [0, 300, 325]),
   ([0.5, 0.6], [0, 325, 350])]

/-- `power_table.py:21-38` — `lookup`; list indexing raises `IndexError` outside the list. -/
noncomputable def powerLookup (r soc : ℝ) : Except Err ℝ :=
  if ¬ (r ≥ 0.99 ∧ r ≤ 5) then .error .assertion
  else match socMappings[bisect prIntervals r]? with
    | none => .error .index
    | some m =>
      match m.2[bisect m.1 soc]? with
      | none => .error .index
      | some p => .ok p

end BLE
