import Verif.Model.Csv
import Verif.Model.Labels

/-!
# Main output files of TOUGH

Model of `/repo/toughio/_io/output/tough/_tough.py`. A file is the list of its lines,
each with its newline character. The reader for columns of fixed width (99-120) is not
modelled: it is only set up after a `ValueError` of the reader for columns separated by
blanks, and that one turns every text that is no number into NaN (`_str2float`,
135-141), so it raises none.
-/

namespace Verif.Model
open Verif.Py

/-- `_str2float` (`_tough.py`, 135-141). -/
def floatOrNan (s : Str) : Flt :=
  match str2float s with
  | .ok x => x
  | .error _ => .nan

/-- `labels_key` (`_tough.py`, 40). -/
def tableKey : OutType → Str
  | .element => "ELEM.".toList
  | .connection => "ELEM1".toList

/-- The search for the table (`_tough.py`, 54-62). -/
def findTable (key : Str) : List Str → Except PyErr (Str × List Str)
  | [] => .error .valueError
  | l :: ls => if startsWith (strip l) key then .ok (strip l, ls) else findTable key ls

/-- The search for the next line that is not empty (`_tough.py`, 67-71). -/
def nextFilled : List Str → Except PyErr (Str × List Str)
  | [] => .error .stopIteration
  | l :: ls => if strip l ≠ [] then .ok (l, ls) else nextFilled ls

/-- The number of characters of a label at the first row (`_tough.py`, 78-84). If it is
given, `iend` is never set. -/
def firstLength (given : Option ℕ) (line : Str) : Except PyErr ℕ :=
  match given with
  | some (_ + 1) => .error .unboundLocalError
  | _ => .ok (getLabelLength (line.take 9))

/-- Labels and numbers of a row (`_tough.py`, 86-92, 125-126), `n` being the number of
characters of a label. No number is `None`. -/
def listRow (type : OutType) (n : ℕ) (line : Str) : CsvRow :=
  match type with
  | .element => ⟨[line.take n], (words (line.drop n)).map floatOrNan⟩
  | .connection =>
    ⟨[line.take n, (line.take (2 * n + 2)).drop (n + 2)],
      (words (line.drop (2 * n + 2))).map floatOrNan⟩

/-- A line of the table that is read (`_tough.py`, 75). -/
def isRow (line : Str) : Bool :=
  strip (line.take 10) ≠ [] && !startsWith (strip line) "ELEM".toList

/-- The loop over the lines of a table (`_tough.py`, 73-130) with the current line. The
number of characters of a label is known after the first row. -/
def listRows (type : OutType) (given : Option ℕ) : Option ℕ → Str → List Str →
    Except PyErr (Option ℕ × List CsvRow × List Str)
  | len, line, ls => do
    let (len, rows) ← (if isRow line then
        match len with
        | some n => .ok (some n, [listRow type n (lstrip line)])
        | none => do
          let n ← firstLength given (lstrip line)
          .ok (some n, [listRow type n (lstrip line)])
      else .ok (len, []) : Except PyErr (Option ℕ × List CsvRow))
    match ls with
    | [] => .error .stopIteration
    | l :: ls =>
      if startsWith (l.drop 1) "@@@@@".toList then .ok (len, rows, ls)
      else do
        let (len, rows', ls) ← listRows type given len l ls
        .ok (len, rows ++ rows', ls)

/-- The time in the line after `TOTAL TIME` (`_tough.py`, 50-51). -/
def listTime : List Str → Except PyErr (Flt × List Str)
  | [] => .error .stopIteration
  | l :: ls => do
    let w ← rowAt (words (strip l)) 0
    let t ← toFloat w
    .ok (t, ls)

/-- What is read in one turn of the loop of `_read_table` (`_tough.py`, 50-130): the
headers and the rows at one time. -/
def listStep (type : OutType) (given : Option ℕ) (len : Option ℕ) (ls : List Str) :
    Except PyErr (List Str × Option ℕ × (Flt × List CsvRow) × List Str) := do
  let (t, ls) ← listTime ls
  let (line, ls) ← findTable (tableKey type) ls
  let headers := words line
  let (line, ls) ← nextFilled ls
  let (len, rows, ls) ← listRows type given len line ls
  .ok (headers, len, (t, rows), ls)

/-- The loop of `_read_table` (`_tough.py`, 44-132). The number bounds the turns: each
reads a line. The headers are those of the last table. -/
def listLoop (type : OutType) (given : Option ℕ) : ℕ → Option ℕ → Option (List Str) → List Str →
    Except PyErr (Option (List Str) × List (Flt × List CsvRow))
  | _, _, headers, [] => .ok (headers, [])
  | 0, _, _, _ :: _ => .error .diverges
  | k + 1, len, headers, l :: ls =>
    if startsWith (strip l) "TOTAL TIME".toList then do
      let (headers, len, step, ls) ← listStep type given len ls
      let (headers, steps) ← listLoop type given k len (some headers) ls
      .ok (headers, step :: steps)
    else listLoop type given k len headers ls

/-- `v[ilab + 1:]`: the numbers of a row without the index (`_tough.py`, 28-30). -/
def dropIndex (r : CsvRow) : CsvRow := ⟨r.labels, r.vals.drop 1⟩

/-- `read` (`_tough.py`, 16-35) up to the conversion of labels. Without any table
`headers` is never set. -/
def readListing (type : OutType) (given : Option ℕ) (lines : List Str) :
    Except PyErr (List (Output (List Str) Flt)) := do
  let (headers, steps) ← listLoop type given lines.length none none lines
  match headers with
  | none => .error .unboundLocalError
  | some headers =>
    let steps := steps.map fun e => (some e.1, e.2.map dropIndex)
    if sameShape steps then
      .ok (steps.map fun e =>
        ⟨e.1, e.2.map (·.labels), columnsOf (headers.drop ((labelHeaders type).length + 1)) e.2⟩)
    else .error .valueError

/-- `read` (`_tough.py`, 16-35) of the elements. -/
def readListingElements (given : Option ℕ) (lines : List Str) (order : Option (List Str)) :
    Except PyErr (List (Output Str Flt)) := do
  let outs ← readListing .element given lines
  let outs ← outs.mapM elementLabels
  reorderAll order outs

end Verif.Model
