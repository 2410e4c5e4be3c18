import Verif.Model.Eval

/-!
# Result files: what `json.dump` is given and what the combining tool does with the parsed contents

`eval/eval_lib.py:33-55`, `eval/combine_eval_shards.py:42-59`. JSON values as `json.load` returns them; that `json.load` reads
what `json.dump` wrote (with or without `indent`) is assumed of Python's library.
-/

namespace BLE

/-- JSON values; an object is a `dict`, in insertion order. (`combine_eval_shards.py:49-50`) -/
inductive Json
  | null
  | int (n : ℤ)
  | num (x : ℝ)
  | bool (b : Bool)
  | str (s : String)
  | arr (xs : List Json)
  | obj (kvs : List (String × Json))

/-- `eval_lib.py:40-48` — a point of the flight path. -/
noncomputable def encodeState (s : SimpleState) : Json :=
  .obj [("x", .num (s.x / 1000)), ("y", .num (s.y / 1000)), ("pressure", .num s.pressure), ("superpressure", .num s.sp),
    ("elapsed_seconds", .num (totalSeconds s.elapsed)), ("power", .num s.soc)]

/-- `eval_lib.py:49-51, 101-108` — a result: the `__dict__` of the dataclass. -/
noncomputable def encodeResult (r : EvalResult) : Json :=
  .obj [("seed", .int r.seed), ("cumulative_reward", .num r.cumulative), ("time_within_radius", .num r.twr),
    ("out_of_power", .bool r.outOfPower), ("envelope_burst", .bool r.envelopeBurst), ("zeropressure", .bool r.zeropressure),
    ("final_timestep", .int r.finalStep), ("flight_path", .arr (r.path.map encodeState))]

/-- `json.dump(result, …)` of the list of results (`eval.py:95-96`). -/
noncomputable def encodeResults (rs : List EvalResult) : Json := .arr (rs.map encodeResult)

/-- `d[key]`. (`combine_eval_shards.py:52`) -/
def Json.get (j : Json) (key : String) : Except Err Json :=
  match j with
  | .obj kvs => match kvs.find? fun kv => kv.1 = key with
    | some kv => .ok kv.2
    | none => .error .key
  | _ => .error .type

/-- `d[key] = v`: replaces in place or appends. (`combine_eval_shards.py:55-56`) -/
def Json.set (j : Json) (key : String) (v : Json) : Except Err Json :=
  match j with
  | .obj kvs => .ok (.obj (if kvs.any fun kv => kv.1 = key then kvs.map fun kv => if kv.1 = key then (kv.1, v) else kv
      else kvs ++ [(key, v)]))
  | _ => .error .type

/-- The sort key (`combine_eval_shards.py:52`); other keys than integers do not occur in result files. -/
def Json.seed (j : Json) : Except Err ℤ := do
  match ← j.get "seed" with
  | .int n => pure n
  | _ => throw .type

/-- `data.extend(json.load(f))` (`combine_eval_shards.py:49-50`): iterating over a `dict` yields its keys, over a string its
characters; the other values cannot be iterated over. -/
def Json.items (j : Json) : Except Err (List Json) :=
  match j with
  | .arr xs => .ok xs
  | .obj kvs => .ok (kvs.map fun kv => .str kv.1)
  | .str s => .ok (s.toList.map fun c => .str c.toString)
  | _ => .error .type

/-- A directory of parsed files. (`combine_eval_shards.py:48-50`) -/
abbrev JsonDir := List (Name × Json)

open Classical in
/-- `combine_eval_shards.py:45-59` — combining one model. -/
noncomputable def combineJson (model : Name) (flightPaths : Bool) (d : JsonDir) : Except Err JsonDir := do
  let parts ← (d.filter fun f => globMatch model f.1).mapM fun f => f.2.items
  let keyed ← parts.flatten.mapM fun j => do
    let k ← j.seed
    pure (k, j)
  let data := (keyed.mergeSort fun a b => a.1 ≤ b.1).map (·.2)
  let data ← if flightPaths then pure data else data.mapM fun j => j.set "flight_path" (.arr [])
  return (model ++ ".json".toList, .arr data) :: d.filter fun f => f.1 ≠ model ++ ".json".toList

end BLE
