import Verif.Model.Output
import Verif.Model.Record
import Verif.Model.Opts

/-!
# CSV output files

Model of `/repo/toughio/_io/output/csv/_csv.py`. A file is the list of its lines,
each with its newline character. Data are floats; missing values (`None`), which
are written as zeros, are not represented.
-/

namespace Verif.Model
open Verif.Py

/-- `sep.join(l)`. -/
def joinWith (sep : Char) : List Str → Str
  | [] => []
  | [s] => s
  | s :: r => s ++ sep :: joinWith sep r

/-- `s.replace('"', "")`. -/
def unquote (s : Str) : Str := s.filter (· ≠ '"')

/-- `float(s)`. -/
def toFloat (s : Str) : Except PyErr Flt :=
  match pyFloat s with
  | some x => .ok x
  | none => .error .valueError

/-- `words` with the current piece, reversed. -/
def wordsFrom : Str → Str → List Str
  | [], [] => []
  | c :: w, [] => [(c :: w).reverse]
  | w, c :: r =>
    if isSpace c then
      if w = [] then wordsFrom [] r else w.reverse :: wordsFrom [] r
    else wordsFrom (c :: w) r

/-- `s.split()`: the pieces between blanks. -/
def words (s : Str) : List Str := wordsFrom [] s

/-- `header_to_unit` (`_csv.py`, 12-33). -/
def csvUnits : List (String × String) :=
  [("ELEM", ""), ("X", "(M)"), ("Y", "(M)"), ("Z", "(M)"), ("PRES", "(PA)"), ("P", "(PA)"),
   ("TEMP", "(DEC-C)"), ("T", "(DEC-C)"), ("PCAP_GL", "(PA)"), ("PCAP", "(PA)"),
   ("DEN_G", "(KG/M**3)"), ("DG", "(KG/M**3)"), ("DEN_L", "(KG/M**3)"), ("DW", "(KG/M**3)"),
   ("ELEM1", ""), ("ELEM2", ""), ("HEAT", "(W)"), ("FLOW", "(KG/S)"), ("FLOW_G", "(KG/S)"),
   ("FLOW_L", "(KG/S)")]

/-- The unit of a header (`_csv.py`, 115-118). -/
def csvUnit (h : Str) : Str :=
  match csvUnits.find? (fun e => e.1.toList = h) with
  | some e => e.2.toList
  | none => " (-)".toList

/-- The variables in the order written: coordinates first (`_csv.py`, 103-106, and
the same in `_petrasim.py`, 52-56). -/
def varOrder (keys : List Str) : List Str :=
  (if "X".toList ∈ keys then ["X".toList] else []) ++
  (if "Y".toList ∈ keys then ["Y".toList] else []) ++
  (if "Z".toList ∈ keys then ["Z".toList] else []) ++
  keys.filter fun k => ¬ (k = "X".toList ∨ k = "Y".toList ∨ k = "Z".toList)

/-- The headers of the label columns (`_csv.py`, 102). -/
def labelHeaders : OutType → List Str
  | .element => ["ELEM".toList]
  | .connection => ["ELEM1".toList, "ELEM2".toList]

/-- `'"{:>18}"'.format(s)`. -/
def quoted (s : Str) : Str := '"' :: padLeft 18 s ++ ['"']

/-- One entry of a record: a label or a number. -/
inductive Item
  | txt (s : Str)
  | num (x : Flt)

/-- `header.startswith("ELEM")`. -/
def isElem (h : Str) : Bool := startsWith h "ELEM".toList

/-- An entry in the format of its column (`_csv.py`, 123-125, 136). A number in a
column of labels is printed as by `str`, which is the parameter `repr`. -/
def csvItem (repr : Flt → Str) : Bool → Item → Except PyErr Str
  | true, .txt s => .ok (quoted s)
  | true, .num x => .ok (quoted (repr x))
  | false, .num x => .ok (padLeft 20 (fmtE 12 x))
  | false, .txt _ => .error .valueError

/-- `out.data[k][i]`. -/
def csvValue (data : List (Str × List Flt)) (i : ℕ) (k : Str) : Except PyErr Item := do
  let v ← dictGet data k
  let x ← rowAt v i
  .ok (.num x)

/-- One line of the table (`_csv.py`, 132-141). -/
def csvRow (repr : Flt → Str) (headers : List Str) (data : List (Str × List Flt)) (i : ℕ)
    (texts : List Str) : Except PyErr Str := do
  let vals ← (headers.filter fun k => !isElem k).mapM (csvValue data i)
  let cells ← ((headers.map isElem).zip (texts.map Item.txt ++ vals)).mapM
    fun p => csvItem repr p.1 p.2
  .ok (joinWith ',' cells ++ ['\n'])

/-- The line before a table (`_csv.py`, 128). `None` has no such format. -/
def csvTime : Option Flt → Except PyErr Str
  | some t => .ok ('"' :: "TIME [sec]  ".toList ++ fmtE 8 t ++ ['"', '\n'])
  | none => .error .typeError

/-- The lines of one time step (`_csv.py`, 126-141). `texts` gives the texts of a
label. -/
def csvStep {L : Type} (repr : Flt → Str) (texts : L → List Str) (headers : List Str)
    (out : Output L Flt) : Except PyErr (List Str) := do
  let t ← csvTime out.time
  let rows ← out.labels.zipIdx.mapM fun e => csvRow repr headers out.data e.2 (texts e.1)
  .ok (t :: rows)

/-- `write` (`_csv.py`, 99-141). -/
def writeCsv {L : Type} (repr : Flt → Str) (type : OutType) (texts : L → List Str)
    (outs : List (Output L Flt)) : Except PyErr (List Str) :=
  match outs.getLast? with
  | none => .error .indexError
  | some last => do
    let headers := labelHeaders type ++ varOrder (last.data.map (·.1))
    let steps ← concatM (csvStep repr texts headers) outs
    .ok ((joinWith ',' (headers.map quoted) ++ ['\n']) ::
      (joinWith ',' ((headers.map csvUnit).map quoted) ++ ['\n']) :: steps)

/-- One row as read: the labels and the numbers. -/
structure CsvRow where
  labels : List Str
  vals : List Flt

/-- The time steps read so far, the last one first, rows in reverse order. -/
abbrev CsvState := List (Option Flt × List CsvRow)

/-- One turn of the loop of `_read_csv` (`_csv.py`, 80-92). -/
def csvStepRead (ilab : ℕ) (line : Str) (s : CsvState) : Except PyErr CsvState :=
  let fields := splitOn ',' line
  if startsWith (fields.headD []) "TIME".toList then do
    let t ← toFloat ((words (fields.headD [])).getLastD [])
    .ok ((some t, []) :: s)
  else do
    let vals ← (fields.drop ilab).mapM fun f => toFloat (strip f)
    match s with
    | [] => .error .indexError
    | (t, rows) :: r => .ok ((t, ⟨(fields.take ilab).map strip, vals⟩ :: rows) :: r)

/-- The loop of `_read_csv` (`_csv.py`, 79-94) with the current line and the lines
not yet read. -/
def csvLoop (ilab : ℕ) : Str → List Str → CsvState → Except PyErr CsvState
  | [], _, s => .ok s
  | c :: l, rest, s => do
    let s ← csvStepRead ilab (c :: l) s
    match rest with
    | [] => .ok s
    | l' :: rest => csvLoop ilab (unquote (strip l')) rest s

/-- `_read_csv` (`_csv.py`, 58-96). -/
def readCsvTable (ilab : ℕ) (lines : List Str) :
    Except PyErr (List Str × List (Option Flt × List CsvRow)) := do
  let headers := (splitOn ',' (unquote (lines.headD []))).map strip
  let line := (lines.drop 2).headD []
  let start : CsvState := if startsWith line "\"TIME".toList then [] else [(none, [])]
  let s ← csvLoop ilab (strip (unquote line)) (lines.drop 3) start
  .ok (headers, (s.map fun e => (e.1, e.2.reverse)).reverse)

/-- `numpy.array(...)` of the numbers of all rows of all steps: with a different
number of rows or columns there is no such array. -/
def sameShape (steps : List (Option Flt × List CsvRow)) : Bool :=
  match steps with
  | [] => true
  | (_, rows) :: r =>
    let n := match rows with
      | [] => 0
      | row :: _ => row.vals.length
    (rows.all fun row => row.vals.length = n) &&
      r.all fun e => e.2.length = rows.length && e.2.all fun row => row.vals.length = n

/-- Column `j` of a table. -/
def column (rows : List CsvRow) (j : ℕ) : List Flt := rows.filterMap fun row => row.vals[j]?

/-- The number of columns of a table; without rows the transposed table is empty. -/
def nColumns : List CsvRow → ℕ
  | [] => 0
  | row :: _ => row.vals.length

/-- `{k: v for k, v in zip(headers, numpy.transpose(variable))}` (`_common.py`,
21). -/
def columnsOf (headers : List Str) (rows : List CsvRow) : List (Str × List Flt) :=
  updateDict [] (headers.zip ((List.range (nColumns rows)).map (column rows)))

/-- `read` (`_csv.py`, 36-55) up to the conversion of labels. -/
def readCsv (type : OutType) (lines : List Str) : Except PyErr (List (Output (List Str) Flt)) := do
  let ilab := (labelHeaders type).length
  let (headers, steps) ← readCsvTable ilab lines
  if sameShape steps then
    .ok (steps.map fun e => ⟨e.1, e.2.map (·.labels), columnsOf (headers.drop ilab) e.2⟩)
  else .error .valueError

/-- `[l[0] for l in label]` (`_csv.py`, 45). -/
def firstLabel (l : List Str) : Except PyErr Str :=
  match l with
  | [] => .error .indexError
  | s :: _ => .ok s

/-- The labels of an element are single texts (`_csv.py`, 44-48). -/
def elementLabels (o : Output (List Str) Flt) : Except PyErr (Output Str Flt) := do
  let ls ← o.labels.mapM firstLabel
  .ok ⟨o.time, ls, o.data⟩

/-- `to_output` (`_common.py`, 13-29) for elements. -/
def reorderAll (order : Option (List Str)) (outs : List (Output Str Flt)) :
    Except PyErr (List (Output Str Flt)) :=
  match order with
  | none => .ok outs
  | some ls => outs.mapM fun o => reorderLabels o ls

/-- `read` (`_csv.py`, 36-55) of an element file. -/
def readCsvElements (lines : List Str) (order : Option (List Str)) :
    Except PyErr (List (Output Str Flt)) := do
  let outs ← readCsv .element lines
  let outs ← outs.mapM elementLabels
  reorderAll order outs

end Verif.Model
