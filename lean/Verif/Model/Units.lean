import Verif.Model.Geometry

/-!
# Units and transforms

`BLE/utils/units.py`, `BLE/utils/transforms.py`. Operator dispatch follows Python's binary-operator
protocol: the left operand's method first (a `raise` ends the matter), otherwise the right operand's
reflected method, otherwise `TypeError`.
-/

namespace BLE

/-- The Python values that can meet a quantity in an operator: numbers, the four quantity classes
(stored in m, m/s, Wh, W: `units.py:37, 137, 203, 259`), timedeltas (µs), booleans (results of
comparisons) and exception *objects* (what `units.py:252` returns). -/
inductive PyVal
  | num (x : ℝ)
  | dist (m : ℝ)
  | vel (mps : ℝ)
  | energy (wh : ℝ)
  | power (w : ℝ)
  | td (us : ℤ)
  | bool (b : Bool)
  | excObj
  deriving Inhabited

/-- `units.py:23` -/
noncomputable def metersPerFoot : ℝ := 0.3048

/-- `units.py:29-38` — `Distance(m=, meters=, km=, kilometers=, feet=)`. -/
noncomputable def mkDistance (m meters km kilometers feet : ℝ) : PyVal :=
  .dist (m + meters + (km + kilometers) * 1000 + feet * metersPerFoot)

/-- `units.py:130-138` — `Velocity(mps=, meters_per_second=, kmph=, kilometers_per_hour=)`. -/
noncomputable def mkVelocity (mps metersPerSecond kmph kilometersPerHour : ℝ) : PyVal :=
  .vel (mps + metersPerSecond + (kmph + kilometersPerHour) * 1000 / 3600)

/-- `units.py:202-203` -/
def mkEnergy (wattHours : ℝ) : PyVal := .energy wattHours
/-- `units.py:258-259` -/
def mkPower (watts : ℝ) : PyVal := .power watts

/-- The attributes of the quantity classes (`units.py:40-62, 140-158, 205-207, 261-263`). -/
inductive Attr
  | m | meters | km | kilometers | feet | mps | metersPerSecond | kmph | kilometersPerHour | wattHours | watts
  deriving DecidableEq

/-- Attribute access (`units.py:40-62, 140-158, 205-207, 261-263`). -/
noncomputable def PyVal.get : PyVal → Attr → Except Err ℝ
  | .dist d, .m => .ok d
  | .dist d, .meters => .ok d
  | .dist d, .km => .ok (d / 1000)
  | .dist d, .kilometers => .ok (d / 1000)
  | .dist d, .feet => .ok (d / metersPerFoot)
  | .vel v, .mps => .ok v
  | .vel v, .metersPerSecond => .ok v
  | .vel v, .kmph => .ok (v * 3600 / 1000)
  | .vel v, .kilometersPerHour => .ok (v * 3600 / 1000)
  | .energy e, .wattHours => .ok e
  | .power w, .watts => .ok w
  | _, _ => .error .attribute

/-- `a + b` (`units.py:64-68, 160-164, 209-213, 265-269`). No class has `__radd__`. Sums of two
non-quantities are not modelled (`TypeError` here). -/
noncomputable def PyVal.add : PyVal → PyVal → Except Err PyVal
  | .dist a, .dist b => .ok (mkDistance (a + b) 0 0 0 0)
  | .dist _, _ => .error .notImplemented
  | .vel a, .vel b => .ok (mkVelocity (a + b) 0 0 0)
  | .vel _, _ => .error .notImplemented
  | .energy a, .energy b => .ok (mkEnergy (a + b))
  | .energy _, _ => .error .notImplemented
  | .power a, .power b => .ok (mkPower (a + b))
  | .power _, _ => .error .notImplemented
  | _, _ => .error .type

/-- `a - b` (`units.py:70-74, 166-170, 215-219, 271-275`). -/
noncomputable def PyVal.sub : PyVal → PyVal → Except Err PyVal
  | .dist a, .dist b => .ok (mkDistance (a - b) 0 0 0 0)
  | .dist _, _ => .error .notImplemented
  | .vel a, .vel b => .ok (mkVelocity (a - b) 0 0 0)
  | .vel _, _ => .error .notImplemented
  | .energy a, .energy b => .ok (mkEnergy (a - b))
  | .energy _, _ => .error .notImplemented
  | .power a, .power b => .ok (mkPower (a - b))
  | .power _, _ => .error .notImplemented
  | _, _ => .error .type

/-- `quantity * other`, the methods `__mul__` (`units.py:99-103, 172-177, 227-231, 277-281`); for a
non-quantity on the left there is no such method (`none`). `bool` is an `int` in Python. -/
noncomputable def PyVal.mulMethod : PyVal → PyVal → Option (Except Err PyVal)
  | .dist a, .num k => some (.ok (mkDistance (a * k) 0 0 0 0))
  | .dist a, .bool b => some (.ok (mkDistance (a * (if b then 1 else 0)) 0 0 0 0))
  | .dist _, _ => some (.error .notImplemented)
  | .vel a, .td t => some (.ok (mkDistance (a * totalSeconds t) 0 0 0 0))
  | .vel _, _ => some (.error .notImplemented)
  | .energy a, .num k => some (.ok (mkEnergy (a * k)))
  | .energy a, .bool b => some (.ok (mkEnergy (a * (if b then 1 else 0))))
  | .energy _, _ => some (.error .notImplemented)
  | .power a, .td t => some (.ok (mkEnergy (a * hoursOf t)))
  | .power _, _ => some (.error .notImplemented)
  | _, _ => none

/-- `a * b`: `__mul__` of the left operand, else `__rmul__` of the right one, which is `__mul__`
(`units.py:105-106, 179-180, 233-234, 283-284`). -/
noncomputable def PyVal.mul (a b : PyVal) : Except Err PyVal :=
  match a.mulMethod b with
  | some r => r
  | none =>
    match b.mulMethod a with
    | some r => r
    | none => .error .type

/-- `a / b` (`units.py:89-97, 192-196, 221-225`); `Power` has no `__truediv__`. -/
noncomputable def PyVal.div : PyVal → PyVal → Except Err PyVal
  | .dist a, .num k => (pyDiv a k).map fun q => mkDistance q 0 0 0 0
  | .dist a, .bool b => (pyDiv a (if b then 1 else 0)).map fun q => mkDistance q 0 0 0 0
  | .dist a, .td t => (pyDiv a (totalSeconds t)).map fun q => mkVelocity q 0 0 0
  | .dist a, .dist b => (pyDiv a b).map .num
  | .dist _, _ => .error .notImplemented
  | .vel a, .num k => (pyDiv a k).map fun q => mkVelocity q 0 0 0
  | .vel a, .bool b => (pyDiv a (if b then 1 else 0)).map fun q => mkVelocity q 0 0 0
  | .vel _, _ => .error .notImplemented
  | .energy a, .energy b => (pyDiv a b).map .num
  | .energy _, _ => .error .notImplemented
  | _, _ => .error .type

/-- The ordering methods. (`units.py:108-124`) -/
inductive Cmp
  | lt | le | gt | ge
  deriving DecidableEq

/-- The reflected comparison tried on the right operand. (`units.py:108-124`) -/
def Cmp.swap : Cmp → Cmp
  | .lt => .gt | .le => .ge | .gt => .lt | .ge => .le

/-- The mathematical comparison. (`units.py:108-124`) -/
def Cmp.holds (c : Cmp) (x y : ℝ) : Prop :=
  match c with
  | .lt => x < y | .le => x ≤ y | .gt => x > y | .ge => x ≥ y

open Classical in
/-- Ordering methods (`units.py:114-124, 236-240, 248-252, 286-290`); `none` where the class lacks
the method. `Energy.__ge__` *returns* a `ValueError` object for other operands (`units.py:252`);
`Distance` reads `other.m`, an `AttributeError` for anything else. `Velocity` has none. -/
noncomputable def PyVal.cmpMethod (c : Cmp) : PyVal → PyVal → Option (Except Err PyVal)
  | .dist a, .dist b => some (.ok (.bool (decide (c.holds a b))))
  | .dist _, _ => some (.error .attribute)
  | .energy a, .energy b =>
    match c with
    | .gt => some (.ok (.bool (decide (a > b))))
    | .ge => some (.ok (.bool (decide (a ≥ b))))
    | _ => none
  | .energy _, _ =>
    match c with
    | .gt => some (.error .value)
    | .ge => some (.ok .excObj)
    | _ => none
  | .power a, .power b =>
    match c with
    | .gt => some (.ok (.bool (decide (a > b))))
    | _ => none
  | .power _, _ =>
    match c with
    | .gt => some (.error .value)
    | _ => none
  | _, _ => none

/-- `a < b`, `a <= b`, `a > b`, `a >= b`: method of the left operand, else the reflected method of
the right operand, else `TypeError`. (`units.py:108-124`) -/
noncomputable def PyVal.cmp (c : Cmp) (a b : PyVal) : Except Err PyVal :=
  match a.cmpMethod c b with
  | some r => r
  | none =>
    match b.cmpMethod c.swap a with
    | some r => r
    | none => .error .type

open Classical in
/-- `a == b` for a quantity on the left (`units.py:108-109, 182-187, 242-246, 292-296`). Other left
operands are not modelled. -/
noncomputable def PyVal.eq : PyVal → PyVal → Except Err PyVal
  | .dist a, .dist b => .ok (.bool (decide (|a - b| < 1e-9)))
  | .dist _, _ => .error .attribute
  | .vel a, .vel b => .ok (.bool (decide (|a - b| < 1e-9)))
  | .vel _, _ => .error .value
  | .energy a, .energy b => .ok (.bool (decide (a = b)))
  | .energy _, _ => .error .value
  | .power a, .power b => .ok (.bool (decide (a = b)))
  | .power _, _ => .error .value
  | _, _ => .error .type

/-- Truth value of an object in `if`: objects without `__bool__`/`__len__` are true. (`units.py:252`) -/
noncomputable def PyVal.truthy : PyVal → Prop
  | .num x => x ≠ 0
  | .td t => t ≠ 0
  | .bool b => b = true
  | _ => True

/-- `units.py:299-304` — `distance_to_degrees`. -/
noncomputable def distanceToDegrees (d : PyVal) : Except Err ℝ := (d.get .km).map (· / 111)

/-- `units.py:307-309` — `relative_distance` on objects. -/
noncomputable def relDistance (x y : PyVal) : Except Err PyVal := do
  let a ← x.get .m
  let b ← y.get .m
  return mkDistance (Real.sqrt (a ^ 2 + b ^ 2)) 0 0 0 0

/-! ## Transforms -/

/-- `transforms.py:31-52` — `linear_rescale_with_extrapolation` (with its overloads). -/
noncomputable def rescale (x vmin vmax : ℝ) : Except Err ℝ :=
  if vmax ≤ vmin then .error .value else .ok ((x - vmin) / (vmax - vmin))

/-- `transforms.py:55-60` — `undo_linear_rescale_with_extrapolation`. -/
noncomputable def undoRescale (x vmin vmax : ℝ) : Except Err ℝ :=
  if vmax ≤ vmin then .error .value else .ok (vmin + x * (vmax - vmin))

/-- `transforms.py:63-66` — `linear_rescale_with_saturation`. -/
noncomputable def rescaleSat (x vmin vmax : ℝ) : Except Err ℝ :=
  (rescale x vmin vmax).map fun y => clip y 0 1

/-- `transforms.py:24-28, 79-85` — `squash_to_unit_interval` on a number. -/
noncomputable def squash (x c : ℝ) : Except Err ℝ :=
  if c ≤ 0 then .error .value else if x < 0 then .error .value else .ok (x / (x + c))

/-- `transforms.py:24-28, 79-85` — `squash_to_unit_interval` on an array: one negative entry rejects
the whole array. -/
noncomputable def squashArray (xs : List ℝ) (c : ℝ) : Except Err (List ℝ) :=
  if c ≤ 0 then .error .value
  else if xs.any (fun x => decide (x < 0)) then .error .value
  else .ok (xs.map fun x => x / (x + c))

/-- `transforms.py:88-94` — `undo_squash_to_unit_interval`; `0 > x >= 1` is Python's chained
comparison `0 > x and x >= 1`. -/
noncomputable def undoSquash (x c : ℝ) : Except Err ℝ :=
  if c ≤ 0 then .error .value
  else if 0 > x ∧ x ≥ 1 then .error .value
  else pyDiv (x * c) (1 - x)

end BLE
