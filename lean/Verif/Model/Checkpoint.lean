import Verif.Model.Train

/-!
# Checkpoints

`BLE/agents/dopamine_utils.py` and its use in `dqn_agent.py`, `quantile_agent.py`. A file is `none` if its
writing was interrupted (`GFile(…, 'w')` creates or truncates the file first), else the pickled bundle.
-/

namespace BLE

/-- A checkpoint directory: file names (without slashes) with contents, each name once. (`dopamine_utils.py:50-122`) -/
abbrev CkptDir (U : Type) := List (Name × Option U)

/-- `f'{n:05d}'` for `n ≥ 0`. (`dopamine_utils.py:29`) -/
def pad5 (n : ℕ) : Name := List.replicate (5 - (Nat.toDigits 10 n).length) '0' ++ Nat.toDigits 10 n

/-- `dopamine_utils.py:27-29` — `_make_checkpoint_filename`, without the directory, for `n ≥ 0`. -/
def ckptName (n : ℕ) : Name := "checkpoint_".toList ++ pad5 n ++ ".pkl".toList

/-- What follows the last dot. (`dopamine_utils.py:34`) -/
def afterDot (n : Name) : Name := (n.reverse.takeWhile (· ≠ '.')).reverse

/-- What precedes the last dot (everything but one character if there is none). (`dopamine_utils.py:37, 46`) -/
def beforeDot (n : Name) : Name := n.take (n.length - (afterDot n).length - 1)

/-- `pathlib.Path(n).suffix`: the part from the last dot on, unless the dot is the first or last character.
(`dopamine_utils.py:34`) -/
def pathSuffix (n : Name) : Name :=
  if '.' ∈ n ∧ beforeDot n ≠ [] ∧ afterDot n ≠ [] then '.' :: afterDot n else []

/-- `pathlib.Path(n).stem` (`dopamine_utils.py:37, 46`) -/
def pathStem (n : Name) : Name :=
  if '.' ∈ n ∧ beforeDot n ≠ [] ∧ afterDot n ≠ [] then beforeDot n else n

/-- `s.split('_')` (`dopamine_utils.py:37, 46`) -/
def splitUnderscore : Name → List Name
  | [] => [[]]
  | c :: s =>
    if c = '_' then [] :: splitUnderscore s
    else match splitUnderscore s with
      | [] => [[c]]
      | p :: ps => (c :: p) :: ps

/-- `dopamine_utils.py:32-41` — `_is_checkpoint_name`. -/
def isCkptName (n : Name) : Bool :=
  if pathSuffix n ≠ ".pkl".toList then false
  else match splitUnderscore (pathStem n) with
    | [p, q] => p = "checkpoint".toList ∧ q.length = 5
    | _ => false

/-- `dopamine_utils.py:44-47` — `_get_checkpoint_iteration`; `int` is Python's `int` on strings (`none` for
`ValueError`). -/
def ckptIteration (int : Name → Option ℤ) (n : Name) : Except Err ℤ :=
  match splitUnderscore (pathStem n) with
  | _ :: q :: _ => match int q with
    | some i => .ok i
    | none => .error .value
  | _ => .error .index

variable {U S : Type}

/-- Creating or overwriting a file. (`dopamine_utils.py:68-69`) -/
def CkptDir.put (d : CkptDir U) (n : Name) (f : Option U) : CkptDir U := (n, f) :: d.filter fun x => x.1 ≠ n

/-- `dopamine_utils.py:50-69` — `save_checkpoint`, completed; `bundle` is `none` if the agent has nothing to
save. -/
def saveCkpt (d : CkptDir U) (i : ℕ) (bundle : Option U) : CkptDir U :=
  match bundle with
  | none => d
  | some b => d.put (ckptName i) (some b)

/-- The crash points inside `dopamine_utils.py:68-69`: before the file is touched, or with the file opened and
not completely written. -/
inductive CrashPoint
  | before
  | during

/-- `dopamine_utils.py:68-69` — the directory left behind by a crash during `save_checkpoint`. -/
def crashedSave (d : CkptDir U) (i : ℕ) : CrashPoint → CkptDir U
  | .before => d
  | .during => d.put (ckptName i) none

/-- `dopamine_utils.py:72-85` — `load_checkpoint`; unpickling an incomplete file raises `EOFError` (or
`UnpicklingError`, also not a `ValueError`). A missing file is only logged. -/
def loadCkpt (unbundle : S → U → S) (d : CkptDir U) (i : ℕ) (s : S) : S × Except Err Unit :=
  match d.lookup (ckptName i) with
  | none => (s, .ok ())
  | some none => (s, .error .eof)
  | some (some b) => (unbundle s b, .ok ())

/-- The part of a name after the last occurrence of `checkpoint_`. (`dopamine_utils.py:91-92`) -/
def afterCheckpoint : Name → Option Name
  | [] => none
  | c :: s =>
    match afterCheckpoint s with
    | some r => some r
    | none => if "checkpoint_".toList.isPrefixOf (c :: s) then some ((c :: s).drop 11) else none

/-- `glob('checkpoint_*.pkl')` (`dopamine_utils.py:90`) -/
def ckptGlob (n : Name) : Bool :=
  "checkpoint_".toList.isPrefixOf n && ".pkl".toList.isSuffixOf n && decide (15 ≤ n.length)

/-- `dopamine_utils.py:91-92` — `extract_episode` (`none`: `ValueError`). If `checkpoint_` did not occur,
`rfind` would return −1; it does occur in every matched name. -/
def extractEpisode (int : Name → Option ℤ) (n : Name) : Option ℤ :=
  match afterCheckpoint n with
  | none => int ((n.drop 10).dropLast.dropLast.dropLast.dropLast)
  | some r => int (r.dropLast.dropLast.dropLast.dropLast)

/-- `dopamine_utils.py:100-104` — the maximum; `none` if one fails to parse or there is none. -/
def maxEpisode (int : Name → Option ℤ) : List Name → Option ℤ
  | [] => none
  | [n] => extractEpisode int n
  | n :: m :: ns =>
    match extractEpisode int n, maxEpisode int (m :: ns) with
    | some a, some b => some (max a b)
    | _, _ => none

/-- `dopamine_utils.py:88-104` — `get_latest_checkpoint`. -/
def latestCkpt (int : Name → Option ℤ) (d : CkptDir U) : ℤ :=
  match maxEpisode int ((d.map (·.1)).filter ckptGlob) with
  | some m => m
  | none => -1

/-- `dopamine_utils.py:107-122` — `clean_up_old_checkpoints`: the files (`todo`) are visited in the order of the
directory listing; an exception leaves the rest unvisited. -/
def cleanUp (int : Name → Option ℤ) (episode duration : ℤ) : List Name → CkptDir U → CkptDir U × Except Err Unit
  | [], d => (d, .ok ())
  | n :: todo, d =>
    if isCkptName n then
      match ckptIteration int n with
      | .error e => (d, .error e)
      | .ok i =>
        if i < episode - duration then cleanUp int episode duration todo (d.filter fun x => x.1 ≠ n)
        else cleanUp int episode duration todo d
    else cleanUp int episode duration todo d

/-- `dqn_agent.py:112-142`, `quantile_agent.py:171-200` — checkpointing of the Dopamine agents. -/
def dopamineSaver (int : Name → Option ℤ) (bundle : S → Option U) (unbundle : S → U → S) (duration : Option ℤ) :
    Saver S (CkptDir U) where
  save i s d :=
    let d1 := saveCkpt d i.toNat (bundle s)
    match duration with
    | none => (d1, .ok ())
    | some k => cleanUp int i k (d1.map (·.1)) d1
  reload d s :=
    let l := latestCkpt int d
    if l < 0 then (s, .ok (-1))
    else
      let r := loadCkpt unbundle d l.toNat s
      match r.2 with
      | .ok () => (r.1, .ok l)
      | .error .value => (r.1, .ok (-1))
      | .error e => (r.1, .error e)

/-- `dqn_agent.py:125-129`, `quantile_agent.py:184-188` — `load_checkpoint` of the Dopamine agents, as the evaluation command
calls it (`eval.py:119-120`). -/
def dopamineLoad (unbundle : S → U → S) (d : CkptDir U) (i : ℕ) (s : S) : Except Err S :=
  (loadCkpt unbundle d i s).2.map fun _ => (loadCkpt unbundle d i s).1

/-- `agent.py:124-132` — `load_checkpoint` of an agent that does not override it, like `MLPAgent` (`mlp_agent.py:90-147`). -/
def baseLoad (s : S) : Except Err S := .ok s

end BLE
