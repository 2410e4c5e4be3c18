import Verif.Model.Balloon

/-!
# Cold start

`BLE/env/balloon/stable_init.py`.
-/

namespace BLE

/-- `stable_init.py:31-37` — `StableParams`. -/
structure StableParams where
  ambT : ℝ
  intT : ℝ
  molsAir : ℝ
  vol : ℝ
  sp : ℝ

/-- `stable_init.py:85-91` — mols of air for neutral buoyancy at base volume, clipped at 0. -/
noncomputable def stableMolsAir (p v0 envMass payload nL ambT : ℝ) : ℝ :=
  max ((p * airM * v0 / (gasR * ambT) - envMass - payload - heM * nL) / airM) 0

/-- `stable_init.py:100-121` — the Newton-Raphson loop, at most `n` iterations; `f` is the temperature
rate as a function of the internal temperature. -/
noncomputable def newtonLoop (f : ℝ → Except Err ℝ) : ℕ → ℝ → Except Err ℝ
  | 0, t => .ok t
  | n + 1, t => do
    let d1 ← f (t - 0.01 / 2)
    let d2 ← f (t + 0.01 / 2)
    let dd := (d2 - d1) / 0.01
    let mean := (d1 + d2) / 2
    let t' := if |dd| > 0 then t - mean / dd else t
    if |mean| < 1e-5 then return t' else newtonLoop f n t'

/-- `stable_init.py:40-129` — `calculate_stable_params_for_pressure`. -/
noncomputable def stableParams (sun : Sun) (α : ℝ) (p v0 dv envMass payload nL : ℝ) (l : LatLng)
    (now : ℤ) (ir : ℝ) : Except Err StableParams := do
  let amb ← atPressure α p
  let nA := stableMolsAir p v0 envMass payload nL amb.temperature
  let sv := sun l now
  let t ← newtonLoop (fun t => dTempDt v0 envMass t amb.temperature p sv.el sv.flux ir) 10 206
  let vs := superpressureAndVolume nL nA t p v0 dv
  return { ambT := amb.temperature, intT := t, molsAir := nA, vol := vs.1, sp := vs.2 }

/-- `stable_init.py:132-157` — `cold_start_to_stable_params`. -/
noncomputable def coldStart (sun : Sun) (α : ℝ) (s : BState) : Except Err BState := do
  let q ← stableParams sun α s.pressure s.volBase s.dvdp s.envMass s.payload s.molsLift s.latlng s.dateTime
    s.upwelling
  return { s with ambT := q.ambT, intT := q.intT, molsAir := q.molsAir, vol := q.vol, sp := q.sp }

end BLE
