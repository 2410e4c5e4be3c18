import Verif.Model.Basic
import Mathlib.Analysis.SpecialFunctions.Pow.Real

/-!
# The standard atmosphere with blended lapse rates

`BLE/env/balloon/standard_atmosphere.py`. The atmosphere object is determined by the blend
parameter `alpha` drawn in `reset` (lines 76-87), so the model is a family of functions of `alpha`.
-/

namespace BLE

/-- `standard_atmosphere.py:51-57` — `AtmosphericValues` (height in metres). -/
structure AtmVals where
  height : ℝ
  temperature : ℝ
  pressure : ℝ
  density : ℝ

/-- `standard_atmosphere.py:66-67` — `_HEIGHT_TRANSITIONS` (indices 0..7). -/
noncomputable def hTrans : ℕ → ℝ
  | 0 => -610
  | 1 => 17000
  | 2 => 21000
  | 3 => 32000
  | 4 => 47000
  | 5 => 51000
  | 6 => 71000
  | _ => 85000

/-- `standard_atmosphere.py:68-69` — `_LAPSE_RATES_LOW` (indices 0..6). -/
noncomputable def lapseLow : ℕ → ℝ
  | 0 => -0.007
  | 1 => 0.006
  | 2 => 0.001
  | 3 => 0.0028
  | 4 => 0
  | 5 => -0.0028
  | _ => -0.002

/-- `standard_atmosphere.py:70-71` — `_LAPSE_RATES_HIGH` (indices 0..6). -/
noncomputable def lapseHigh : ℕ → ℝ
  | 0 => -0.0058
  | 1 => 0.005
  | 2 => 0.001
  | 3 => 0.0028
  | 4 => 0
  | 5 => -0.0028
  | _ => -0.002

/-- `standard_atmosphere.py:82-84` — `_lapse_rates` for the blend parameter `alpha`. -/
noncomputable def lapse (α : ℝ) (i : ℕ) : ℝ := (1 - α) * lapseLow i + α * lapseHigh i

/-- `standard_atmosphere.py:156-162` — `_temperature_transitions`. -/
noncomputable def tTrans (α : ℝ) : ℕ → ℝ
  | 0 => 300
  | i + 1 => tTrans α i + lapse α i * (hTrans (i + 1) - hTrans i)

/-- `standard_atmosphere.py:185-192` — `_pressure_for_constant_temperature`. -/
noncomputable def pConst (dh temp p0 : ℝ) : ℝ := p0 * Real.exp (-(gravity * dh) / (airRs * temp))

/-- `standard_atmosphere.py:194-202` — `_pressure_for_linear_temperature`. -/
noncomputable def pLinear (ratio l p0 : ℝ) : ℝ := p0 * ratio ^ (-gravity / (airRs * l))

/-- `standard_atmosphere.py:164-183` — `_pressure_transitions`. -/
noncomputable def pTrans (α : ℝ) : ℕ → ℝ
  | 0 => 108870.8213
  | i + 1 =>
    if lapse α i = 0 then pConst (hTrans (i + 1) - hTrans i) (tTrans α (i + 1)) (pTrans α i)
    else pLinear (tTrans α (i + 1) / tTrans α i) (lapse α i) (pTrans α i)

/-- `standard_atmosphere.py:105-106` — temperature at a height in layer `i`. -/
noncomputable def layerT (α : ℝ) (i : ℕ) (h : ℝ) : ℝ := tTrans α i + lapse α i * (h - hTrans i)

/-- `standard_atmosphere.py:107-115` — pressure at a height in layer `i`. -/
noncomputable def layerP (α : ℝ) (i : ℕ) (h : ℝ) : ℝ :=
  if lapse α i = 0 then pConst (h - hTrans i) (layerT α i h) (pTrans α i)
  else pLinear (layerT α i h / tTrans α i) (lapse α i) (pTrans α i)

/-- `standard_atmosphere.py:135-146` — height at a pressure in layer `i`. -/
noncomputable def layerH (α : ℝ) (i : ℕ) (p : ℝ) : ℝ :=
  if lapse α i = 0 then
    (-airRs * tTrans α i / gravity) * Real.log (p / pTrans α i) + hTrans i
  else
    ((p / pTrans α i) ^ (-airRs * lapse α i / gravity) - 1) * tTrans α i / lapse α i + hTrans i

/-- `standard_atmosphere.py:89-120` — `at_height` (metres). The loop with `break` is `find?` over the
layer indices; if no layer matched, the temperature would be `0.0` and the density division would
raise. -/
noncomputable def atHeight (α h : ℝ) : Except Err AtmVals :=
  if ¬ (h ≥ hTrans 0) then .error .assertion
  else if ¬ (h < hTrans 7) then .error .assertion
  else match (List.range 7).find? (fun i => decide (h < hTrans (i + 1))) with
    | some i =>
      .ok { height := h, temperature := layerT α i h, pressure := layerP α i h,
            density := layerP α i h / (airRs * layerT α i h) }
    | none => .error .zeroDivision

/-- `standard_atmosphere.py:122-154` — `at_pressure`. -/
noncomputable def atPressure (α p : ℝ) : Except Err AtmVals :=
  if ¬ (p > pTrans α 7) then .error .assertion
  else if ¬ (p ≤ pTrans α 0) then .error .assertion
  else match (List.range 7).find? (fun i => decide (p > pTrans α (i + 1))) with
    | some i =>
      .ok { height := layerH α i p, temperature := layerT α i (layerH α i p), pressure := p,
            density := p / (airRs * layerT α i (layerH α i p)) }
    | none => .error .zeroDivision

end BLE
