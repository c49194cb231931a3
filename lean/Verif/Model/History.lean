import Verif.Model.Avsucd

/-!
# History files

Model of `read_history` (`/repo/toughio/_io/output/_helpers.py`). A file is the list of
its lines; beyond the end `readline` returns an empty text.

Simplification: rows of different lengths, which numpy makes an array of lists with a
warning or refuses, depending on its version, are refused.
-/

namespace Verif.Model
open Verif.Py Verif.Mesh

/-- `line.split(sep)`. -/
def splitAt (sep : Option Char) (s : Str) : List Str :=
  match sep with
  | some c => splitOn c s
  | none => words s

/-- The loop over the rows (`_helpers.py`, 176-180). -/
def historyRows (sep : Option Char) : List Str → Except PyErr (List (List Flt))
  | [] => .ok []
  | l :: ls =>
    if strip l = [] then .ok []
    else do
      let row ← (splitAt sep (strip l)).mapM toFloat
      let rows ← historyRows sep ls
      .ok (row :: rows)

/-- `numpy.transpose(data)`. -/
def transposed (rows : List (List Flt)) : List (List Flt) :=
  (List.range (rows.headD []).length).map fun j => rows.filterMap (·[j]?)

/-- `read_history` (`_helpers.py`, 149-188). -/
def readHistory (lines : List Str) : Except PyErr (List (Str × List Flt)) := do
  let line := strip (lines.headD [])
  let (sep, line) : Option Char × Str :=
    if startsWith line ['"'] then (some ',', unquote line) else (none, line)
  let headers := ((splitAt sep line).drop 1).map strip
  let rows ← historyRows sep lines.tail
  if rectangular rows then
    let data := transposed rows
    let t ← rowAt data 0
    .ok (updateDict [("TIME".toList, t)] (headers.zip (data.drop 1)))
  else .error .valueError

end Verif.Model
