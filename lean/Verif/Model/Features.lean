import Verif.Model.PressureRange
import Verif.Model.WindGP
import Verif.Model.Units
import Verif.Model.Solar

/-!
# Observations: `BLE/env/features.py`

The feature vector is a NumPy array of zeros filled by assignments. It is modelled by its length and
the log of element writes, so that one can speak about which entries are written, how often and with what.
Entries are reals (the array holds 32-bit floats).
-/

namespace BLE

/-! ## The array being filled -/

/-- An array under construction: length, and element writes (oldest first). (`features.py:326`) -/
structure Buf where
  len : ℕ
  writes : List (ℕ × ℝ)

/-- `np.zeros(n)` (`features.py:326`). -/
def Buf.zeros (n : ℕ) : Buf := { len := n, writes := [] }

/-- `a[i] = x`; `IndexError` when out of bounds (indices are never negative here). (`features.py:391-455, 546-548`) -/
def Buf.set (b : Buf) (i : ℕ) (x : ℝ) : Except Err Buf :=
  if i < b.len then .ok { b with writes := b.writes ++ [(i, x)] } else .error .index

/-- `a[i:i+3] = (x, y, z)`; `ValueError` (shape mismatch) when fewer than three entries are left.
(`features.py:577-580`) -/
def Buf.set3 (b : Buf) (i : ℕ) (x y z : ℝ) : Except Err Buf :=
  if i + 3 ≤ b.len then .ok { b with writes := b.writes ++ [(i, x), (i + 1, y), (i + 2, z)] } else .error .value

/-- Current value of entry `i`: the latest write, or zero. (`features.py:326`) -/
def Buf.get (b : Buf) (i : ℕ) : ℝ :=
  match b.writes.reverse.find? (fun w => w.1 = i) with
  | some w => w.2
  | none => 0

/-- The array as a list. (`features.py:330`) -/
def Buf.toList (b : Buf) : List ℝ := (List.range b.len).map b.get

/-! ## The feature constructor -/

/-- `features.py:273-297` — the mutable state of `PerciatelliFeatureConstructor`; `α` is the
blend of the atmosphere it was given. -/
structure FeatState where
  gp : WindGP
  α : ℝ
  last : Option BState

/-- `features.py:273-297` — `__init__`. -/
def FeatState.new (f : Forecaster) (α : ℝ) : FeatState := { gp := WindGP.new f, α := α, last := none }

/-- `features.py:299-306` — `observe`. The balloon state is stored before the estimator is told; if the
estimator raises, the new balloon state stays. -/
noncomputable def FeatState.observe (F : FeatState) (b : BState) (w : ℝ × ℝ) : FeatState × Except Err Unit :=
  match F.gp.observe b.x b.y b.pressure b.timeElapsed w with
  | .ok gp => ({ F with gp := gp, last := some b }, .ok ())
  | .error e => ({ F with last := some b }, .error e)

/-- `features.py:284-290` — the 181 pressure levels. -/
noncomputable def pressureLevel (i : ℕ) : ℝ := linspace 5000 14000 181 i

/-- Python's `round` on floats: nearest integer, ties to even. (`features.py:377`) -/
noncomputable def roundHalfEven (x : ℝ) : ℤ :=
  if Int.fract x < 1 / 2 then ⌊x⌋
  else if 1 / 2 < Int.fract x then ⌊x⌋ + 1
  else if ⌊x⌋ % 2 = 0 then ⌊x⌋ else ⌊x⌋ + 1

/-- `features.py:357-380` — `_nearest_pressure_level`. -/
noncomputable def nearestLevel (p : ℝ) : Except Err ℤ :=
  let p := if p < 5000 ∨ p > 14000 then min (max p 5000) 14000 else p
  let delta := pressureLevel 1 - pressureLevel 0
  let level := roundHalfEven ((p - 5000) / delta)
  if level ≥ 0 ∧ level < 181 then .ok level else .error .assertion

/-- `features.py:353-355` — `is_valid_pressure`. -/
def isValidPressure (p : ℝ) : Prop := 5000 ≤ p ∧ p ≤ 14000

/-- `solar.py:39` — `_SEARCH_TIME_DELTA`, three minutes. -/
def searchDelta : ℤ := 180 * usPerSec

/-- `features.py:72-103` — `compute_sunrise_time`. -/
noncomputable def computeSunriseTime (sun : Sun) (s : BState) : Except Err ℝ := do
  let r ← nextSunriseSunset (fun t => (sun s.latlng t).el) (degrees s.latlng.lat) s.dateTime searchDelta
  sunriseTime s.dateTime r.1 r.2

/-- `float(condition)` (`features.py:428-446`) -/
def floatOf (b : Bool) : ℝ := if b then 1 else 0

/-- `features.py:382-455` — `_add_ambient_features`, with `compute_solar_angle` (`features.py:56-69`) as the elevation of `sun`. -/
noncomputable def addAmbient (sun : Sun) (s : BState) (b : Buf) : Except Err Buf := do
  let f0 ← rescaleSat s.pressure 5000 14000
  let b ← b.set 0 f0
  let soc ← s.soc
  let b ← b.set 1 soc
  let f2 ← rescaleSat (sun s.latlng s.dateTime).el (-90) 90
  let b ← b.set 2 f2
  let st ← computeSunriseTime sun s
  if ¬ (0 ≤ st ∧ st ≤ 2 * Real.pi + 1e-6) then throw .assertion
  let b ← b.set 3 (Real.sin st)
  let b ← b.set 4 (Real.cos st)
  let heading := atan2 (-(s.x / 1000)) (-(s.y / 1000))
  let b ← b.set 5 (Real.sin heading)
  let b ← b.set 6 (Real.cos heading)
  let f7 ← squash (relativeDistance s.x s.y / 1000) 250
  let b ← b.set 7 f7
  let b ← b.set 8 (floatOf (s.lastCommand = .up))
  let b ← b.set 9 (floatOf (s.lastCommand = .stay))
  let b ← b.set 10 (floatOf (s.lastCommand = .down))
  let b ← b.set 11 (floatOf s.navPaused)
  let b ← b.set 12 (floatOf (!s.navPaused))
  let ex ← s.excessEnergy sun
  let b ← b.set 13 (floatOf ex)
  let pw ← powerLookup s.pressureRatio soc
  let f14 ← rescaleSat pw 100 300
  let b ← b.set 14 f14
  b.set 15 s.pressureRatio

/-- `features.py:559-581` — `_add_unreachable_pressure_levels`. -/
def addUnreachable : ℕ → Buf → ℕ → Except Err (Buf × ℕ)
  | 0, b, i => .ok (b, i)
  | n + 1, b, i => do
    let b ← b.set3 i 0 1 1
    addUnreachable n b (i + 3)

/-- NumPy indexing `a[i]` of a one-dimensional array. (`features.py:193-222`) -/
def arrayGet (xs : List ℝ) (i : ℕ) : Except Err ℝ :=
  match xs[i]? with
  | some x => .ok x
  | none => .error .index

/-- `features.py:53` — `TOLERANCE` in metres. -/
noncomputable def tolerance : ℝ := 1e-5

/-- Euclidean norm of a wind (`features.py:513`). -/
noncomputable def windMagnitude (w : ℝ × ℝ) : ℝ := Real.sqrt (w.1 ^ 2 + w.2 ^ 2)

/-- `features.py:499-528` — the angle between the wind and the direction of the station. -/
noncomputable def angleError (x y : ℝ) (w : ℝ × ℝ) : ℝ :=
  let d := relativeDistance x y
  if d < tolerance then 0
  else if windMagnitude w < tolerance then Real.pi
  else
    let sx := -x / (d + tolerance)
    let sy := -y / (d + tolerance)
    let wx := w.1 / (windMagnitude w + tolerance)
    let wy := w.2 / (windMagnitude w + tolerance)
    Real.arccos (clip (wx * sx + wy * sy) (-1) 1)

/-- `features.py:535-549` — the loop over the 181 absolute levels. -/
noncomputable def levelLoop (r : PressureRange) (devs angles mags : List ℝ) :
    List ℕ → Buf → ℕ → Except Err (Buf × ℕ)
  | [], b, i => .ok (b, i)
  | l :: ls, b, i =>
    if pressureLevel l < r.lo ∨ pressureLevel l > r.hi then do
      let (b, i) ← addUnreachable 1 b i
      levelLoop r devs angles mags ls b i
    else do
      let d ← arrayGet devs l
      if ¬ (0 ≤ d ∧ d ≤ 1.00001) then throw .assertion
      let b ← b.set i d
      let a ← arrayGet angles l
      let b ← b.set (i + 1) a
      let m ← arrayGet mags l
      let b ← b.set (i + 2) m
      levelLoop r devs angles mags ls b (i + 3)

/-- `features.py:471-475` — the batch query: the column above the balloon. -/
noncomputable def columnQuery (s : BState) : List Row :=
  (List.range 181).map fun i => ⟨s.x, s.y, pressureLevel i, totalSeconds s.timeElapsed⟩

/-- `features.py:457-556` — `_add_wind_features`. -/
noncomputable def addWind (R : Regressor) (sun : Sun) (F : FeatState) (s : BState) (b : Buf) : Except Err Buf := do
  let (means, devs) ← F.gp.queryBatch R (columnQuery s)
  let level ← nearestLevel s.pressure
  if ¬ (0 ≤ level ∧ level < 181) then throw .assertion
  let encoded : ℤ := 181 * 2 - 1
  let lower : ℤ := 181 - level - 1
  let higher : ℤ := encoded - lower - 181
  if ¬ higher ≥ 0 then throw .assertion
  let (b, i) ← addUnreachable lower.toNat b 16
  let range ← pressureRange sun F.α s
  let angles ← (means.map (angleError s.x s.y)).mapM fun a => rescale a 0 Real.pi
  let mags ← squashArray (means.map windMagnitude) 30
  let (b, i) ← levelLoop range devs angles mags (List.range 181) b i
  let (b, i) ← addUnreachable higher.toNat b i
  if ¬ i = b.len then throw .assertion
  return b

/-- `features.py:291-293` — length of the vector. -/
def numFeatures : ℕ := 3 * (181 * 2 - 1) + 16

/-- `features.py:308-330` — `get_features`, the filled array. Before the first `observe` it is an
`AttributeError` (`None.pressure`). -/
noncomputable def FeatState.fill (R : Regressor) (sun : Sun) (F : FeatState) : Except Err Buf :=
  match F.last with
  | none => .error .attribute
  | some s => do
    let b ← addAmbient sun s (Buf.zeros numFeatures)
    addWind R sun F s b

/-- `features.py:308-330` — `get_features`. -/
noncomputable def FeatState.features (R : Regressor) (sun : Sun) (F : FeatState) : Except Err (List ℝ) :=
  (F.fill R sun).map Buf.toList

/-- `features.py:332-348` — `observation_space`: bounds of entry `i`; `none` is `+∞`. -/
def obsLow (i : ℕ) : ℝ := if i = 3 ∨ i = 4 ∨ i = 5 ∨ i = 6 then -1 else if i = 15 then 1 else 0

/-- `features.py:332-348` — upper bounds. -/
def obsHigh (i : ℕ) : Option ℝ := if i = 15 then none else some 1

/-! ## Reading an observation -/

/-- Python slicing `xs[a:b]` (step 1): negative bounds count from the end, then clamping. (`features.py:237`) -/
def pySlice (xs : List ℝ) (a b : ℤ) : List ℝ :=
  let n : ℤ := xs.length
  let a := if a < 0 then max (a + n) 0 else min a n
  let b := if b < 0 then max (b + n) 0 else min b n
  (xs.drop a.toNat).take (b - a).toNat

/-- `features.py:147-160` — `PerciatelliWindFeature`. -/
structure WindFeature where
  uncertainty : ℝ
  bearing : ℝ
  magnitude : ℝ

/-- `features.py:154-160` — `is_valid_wind`. -/
def WindFeature.valid (w : WindFeature) : Prop := w.magnitude ≠ 1 ∨ w.bearing ≠ 1 ∨ w.uncertainty ≠ 0

/-- `features.py:163-222` — `NamedPerciatelliFeatures` after construction. -/
structure Named where
  winds : List ℝ
  numLevels : ℕ
  pressure : ℝ
  battery : ℝ
  solarElevation : ℝ
  sinCycle : ℝ
  cosCycle : ℝ
  sinHeading : ℝ
  cosHeading : ℝ
  distance : ℝ
  lastCommand : Command
  navEnabled : ℝ
  navPaused : ℝ
  excess : ℝ
  descentCost : ℝ
  pressureRatio : ℝ

/-- `int(np.argmax(…))` of three values: the first maximal one (`features.py:209`). -/
noncomputable def argmax3 (a b c : ℝ) : ℕ := if b ≤ a ∧ c ≤ a then 0 else if c ≤ b then 1 else 2

/-- `features.py:172-222` — `NamedPerciatelliFeatures.__init__`. -/
noncomputable def Named.ofList (f : List ℝ) : Except Err Named := do
  if ¬ f.length = 1099 then throw .assertion
  let winds := f.drop 16
  if ¬ winds.length % 3 = 0 then throw .assertion
  let p ← undoRescale (f.getD 0 0) 5000 14000
  let c := argmax3 (f.getD 8 0) (f.getD 9 0) (f.getD 10 0)
  return { winds := winds, numLevels := winds.length / 3, pressure := p, battery := f.getD 1 0
           solarElevation := f.getD 2 0, sinCycle := f.getD 3 0, cosCycle := f.getD 4 0
           sinHeading := f.getD 5 0, cosHeading := f.getD 6 0, distance := f.getD 7 0
           lastCommand := if c = 0 then .up else if c = 1 then .stay else .down
           navEnabled := f.getD 11 0, navPaused := f.getD 12 0, excess := f.getD 13 0
           descentCost := f.getD 14 0, pressureRatio := f.getD 15 0 }

/-- `features.py:224-238` — `wind_at`. The guard is the chained comparison `0 > level and level >= n`; a
slice that does not have exactly three entries is a `TypeError` in the dataclass constructor. `magnitude`, `bearing` and
`uncertainty` (`features.py:244-251`) are the fields of the result. -/
def Named.windAt (N : Named) (level : ℤ) : Except Err WindFeature :=
  if 0 > level ∧ level ≥ N.numLevels then .error .value
  else match pySlice N.winds (level * 3) (level * 3 + 3) with
    | [a, b, c] => .ok { uncertainty := a, bearing := b, magnitude := c }
    | _ => .error .type

open Classical in
/-- `features.py:240-242` — `level_is_valid`. -/
noncomputable def Named.levelValid (N : Named) (level : ℤ) : Except Err Bool :=
  (N.windAt level).map fun w => decide w.valid

/-- `features.py:253-256` — `wind_column_center`. -/
def Named.center (N : Named) : Except Err ℕ :=
  if ¬ N.numLevels % 2 = 1 then .error .assertion else .ok (N.numLevels / 2)

/-- `features.py:260-266` — `convert_wind_feature_to_real_wind`. -/
noncomputable def realWind (w : WindFeature) : Except Err WindFeature := do
  let b ← undoRescale w.bearing 0 Real.pi
  let m ← undoSquash w.magnitude 30
  return { uncertainty := w.uncertainty, bearing := b, magnitude := m }

end BLE
