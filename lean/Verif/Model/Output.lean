import Verif.Model.IO
import Verif.Py.Num

/-!
# Simulation outputs

Model of `/repo/toughio/_io/output/_common.py` and of the detection of file types
in `/repo/toughio/_io/output/_helpers.py`.
-/

namespace Verif.Model
open Verif.Py

/-- An `Output` (`_common.py`, 10) at one time, without type and format. `L` is
the type of a label: a text for elements, a pair of texts for connections. The
data are arrays with one row per label; `α` is the type of a row. -/
structure Output (L α : Type) where
  time : Option Flt
  labels : List L
  data : List (Str × List α)

/-- `{k: v for v, k in enumerate(labels)}` (`_common.py`, 37). -/
def labelMap {L : Type} [DecidableEq L] (labels : List L) : List (L × ℕ) :=
  labels.zipIdx.foldl (fun d e => dictSet d e.1 e.2) []

/-- `v[i]` for an array, `i` not negative. -/
def rowAt {α : Type} (v : List α) (i : ℕ) : Except PyErr α :=
  match v[i]? with
  | some x => .ok x
  | none => .error .indexError

/-- `v[idx]` for an array. -/
def takeRows {α : Type} (idx : List ℕ) (v : List α) : Except PyErr (List α) :=
  idx.mapM (rowAt v)

/-- `data.data[k] = v[idx]` for one variable. -/
def takeEntry {α : Type} (idx : List ℕ) (e : Str × List α) : Except PyErr (Str × List α) := do
  let v ← takeRows idx e.2
  .ok (e.1, v)

/-- `reorder_labels` (`_common.py`, 32-44). The list of labels and the arrays are
changed in place there. -/
def reorderLabels {L α : Type} [DecidableEq L] (o : Output L α) (labels : List L) :
    Except PyErr (Output L α) :=
  if o.labels.length ≠ labels.length then .error .valueError
  else do
    let idx ← labels.mapM (dictGet (labelMap o.labels))
    let ls ← takeRows idx o.labels
    let d ← o.data.mapM (takeEntry idx)
    .ok { o with labels := ls, data := d }

/-- What an output file contains. -/
inductive OutType
  | element
  | connection
  deriving DecidableEq

/-- The format of an output file. -/
inductive OutFormat
  | tough
  | save
  | tecplot
  | petrasim
  | csv
  deriving DecidableEq

/-- `line.split(",")[0]`. -/
def beforeComma (s : Str) : Str := s.takeWhile (· ≠ ',')

/-- `get_output_type` (`_helpers.py`, 48-77). A file is the list of its lines;
beyond the end `readline` returns an empty text. -/
def outputType (lines : List Str) : Except PyErr (OutType × OutFormat) :=
  let line := strip (lines.headD [])
  if line = [] then
    if "@@@@@".toList.isPrefixOf (strip (lines.tail.headD [])) then .ok (.element, .tough)
    else .error .valueError
  else if "1      @@@@@".toList.isPrefixOf line then .ok (.element, .tough)
  else if "INCON".toList.isPrefixOf line then .ok (.element, .save)
  else if '=' ∈ line then .ok (.element, .tecplot)
  else if "TIME".toList.isPrefixOf line then .ok (.element, .petrasim)
  else
    let header := strip ((beforeComma line).filter (· ≠ '"'))
    if header = "ELEM".toList then .ok (.element, .csv)
    else if header = "ELEM1".toList then .ok (.connection, .csv)
    else .error .valueError

end Verif.Model
