import Verif.Model.Eval

/-!
# The notebook that summarises evaluations

`BLE/colab/summarize_eval.ipynb`: uploading result files and the table of aggregate results. Uploaded files are taken to be parsed already
(`json.loads` and `pd.DataFrame.from_dict` on lists of results, C121); the rendering of the table as HTML is not modelled.
-/

namespace BLE

/-- `summarize_eval.ipynb:72` — `name.rsplit('.', maxsplit=1)[0]`: what stands before the last dot, or the whole name. -/
def fileStem (n : Name) : Name :=
  if '.' ∈ n then (n.reverse.dropWhile (· ≠ '.')).tail.reverse else n

/-- Assigning to a key of a Python dictionary: in place if the key exists, else at the end. (`summarize_eval.ipynb:74`) -/
def dictAssign {β : Type} (d : List (Name × β)) (k : Name) (v : β) : List (Name × β) :=
  if k ∈ d.map (·.1) then d.map fun e => if e.1 = k then (k, v) else e else d ++ [(k, v)]

/-- `summarize_eval.ipynb:68-74` — `dataframes` after the upload. -/
def dataframes (uploads : List (Name × List EvalResult)) : List (Name × List EvalResult) :=
  uploads.foldl (fun d u => dictAssign d (fileStem u.1) u.2) []

/-- `pandas.Series.mean()` (external): not a number for an empty series, here `none`. (`summarize_eval.ipynb:97-104`) -/
noncomputable def seriesMean (l : List ℝ) : Option ℝ := if l = [] then none else some (l.sum / l.length)

/-- One row of the table. (`summarize_eval.ipynb:89-104`) -/
structure SummaryRow where
  episodes : ℕ
  outOfPower : ℕ
  zeropressure : ℕ
  envelopeBurst : ℕ
  rewardFinished : Option ℝ
  twrFinished : Option ℝ
  rewardAll : Option ℝ
  twrAll : Option ℝ

/-- `summarize_eval.ipynb:94-96` — `finished_runs`. -/
def finishedRuns (rs : List EvalResult) : List EvalResult :=
  ((rs.filter fun r => r.outOfPower = false).filter fun r => r.zeropressure = false).filter fun r => r.envelopeBurst = false

/-- `summarize_eval.ipynb:89-104` — the body of the loop; a data frame made from no results has no columns, so that the first access
raises `AttributeError`. The sum of a column of booleans is the number of `True`s. -/
noncomputable def summaryRow (rs : List EvalResult) : Except Err SummaryRow :=
  if rs = [] then .error .attribute
  else .ok
    { episodes := rs.length
      outOfPower := rs.countP (·.outOfPower)
      zeropressure := rs.countP (·.zeropressure)
      envelopeBurst := rs.countP (·.envelopeBurst)
      rewardFinished := seriesMean ((finishedRuns rs).map (·.cumulative))
      twrFinished := seriesMean ((finishedRuns rs).map (·.twr))
      rewardAll := seriesMean (rs.map (·.cumulative))
      twrAll := seriesMean (rs.map (·.twr)) }

/-- `summarize_eval.ipynb:87-107` — the table: a row for every data frame, labelled with its name. -/
noncomputable def summaryTable (uploads : List (Name × List EvalResult)) : Except Err (List (Name × SummaryRow)) :=
  (dataframes uploads).mapM fun e => do
    let row ← summaryRow e.2
    return (e.1, row)

end BLE
