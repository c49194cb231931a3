import Verif.Model.Csv

/-!
# Petrasim output files

Model of `/repo/toughio/_io/output/petrasim/_petrasim.py`. A file is the list of
its lines, each with its newline character. Data are floats, labels are texts.
-/

namespace Verif.Model
open Verif.Py

/-- `numpy.transpose([out.data[k] for k in headers])` (`_petrasim.py`, 68): the
rows of the table. Arrays of different lengths have no transposed table. -/
def petraTable (headers : List Str) (data : List (Str × List Flt)) :
    Except PyErr (List (List Flt)) := do
  let cols ← headers.mapM (dictGet data)
  match cols with
  | [] => .ok []
  | c :: cs =>
    if cs.all fun d => d.length = c.length then
      .ok ((List.range c.length).map fun i => (c :: cs).filterMap fun d => d[i]?)
    else .error .valueError

/-- One line (`_petrasim.py`, 74-77). There are always enough formats, the headers
being keys of the data. -/
def petraRow (o : Output Str Flt) (i : ℕ) (xs : List Flt) : Except PyErr Str := do
  let l ← rowAt o.labels i
  match o.time with
  | none => .error .typeError
  | some t =>
    .ok (joinWith ',' (padLeft 20 (fmtE 12 t) :: padLeft 18 l :: padLeft 20 (natStr (i + 1)) ::
      xs.map fun x => padLeft 20 (fmtE 12 x)) ++ ['\n'])

/-- The lines of one output (`_petrasim.py`, 67-78). -/
def petraStep (headers : List Str) (o : Output Str Flt) : Except PyErr (List Str) := do
  let rows ← petraTable headers o.data
  rows.zipIdx.mapM fun e => petraRow o e.2 e.1

/-- `write` (`_petrasim.py`, 49-78). -/
def writePetrasim (outs : List (Output Str Flt)) : Except PyErr (List Str) :=
  match outs.getLast? with
  | none => .error .indexError
  | some last => do
    let headers := varOrder (last.data.map (·.1))
    let steps ← concatM (petraStep headers) outs
    .ok ((joinWith ',' (("TIME [sec]".toList :: "ELEM".toList :: "INDEX".toList :: headers).map
      (padLeft 18)) ++ ['\n']) :: steps)

/-- One row as read. -/
structure PetraRow where
  time : Flt
  label : Str
  vals : List Flt

/-- A line of the table (`_petrasim.py`, 26-29). -/
def petraLine (line : Str) : Except PyErr PetraRow := do
  let fields := splitOn ',' line
  let t ← toFloat (fields.headD [])
  let l ← rowAt fields 1
  let vals ← (fields.drop 3).mapM toFloat
  .ok ⟨t, strip l, vals⟩

/-- The loop of `read` (`_petrasim.py`, 22-31); the end of the file is an empty
line. -/
def petraLoop : List Str → Except PyErr (List PetraRow)
  | [] => .ok []
  | l :: ls =>
    if strip l = [] then .ok []
    else do
      let r ← petraLine (strip l)
      let rs ← petraLoop ls
      .ok (r :: rs)

/-- The place of a float in the order of `numpy.sort`: NaN last. -/
def timeKey : Flt → ℤ × ℚ
  | .inf true => (-1, 0)
  | .fin neg mag => (0, if neg then -(mag : ℚ) else mag)
  | .inf false => (1, 0)
  | .nan => (2, 0)

/-- Order of `timeKey`. -/
def keyLt (a b : ℤ × ℚ) : Bool := a.1 < b.1 || (a.1 = b.1 && a.2 < b.2)

/-- `a == b` for floats. -/
def sameTime (a b : Flt) : Bool := timeKey a = timeKey b && (timeKey a).1 ≠ 2

/-- Insert a time in its place unless it is there. -/
def insTime (t : Flt) : List Flt → List Flt
  | [] => [t]
  | u :: us =>
    if keyLt (timeKey t) (timeKey u) then t :: u :: us
    else if timeKey t = timeKey u then u :: us
    else u :: insTime t us

/-- `numpy.unique(times)`. Which one of the two zeros represents both is not
specified by numpy; here it is the first one. -/
def uniqueTimes (ts : List Flt) : List Flt := ts.foldl (fun us t => insTime t us) []

/-- Column `j` of a table. -/
def petraColumn (rows : List PetraRow) (j : ℕ) : List Flt := rows.filterMap fun r => r.vals[j]?

/-- The output at one time (`_petrasim.py`, 38-42, and `_common.py`, 15-22), `m`
being the number of columns of the whole table. -/
def petraOutput (headers : List Str) (m : ℕ) (rows : List PetraRow) (t : Flt) :
    Output Str Flt :=
  let at_ := rows.filter fun r => sameTime r.time t
  ⟨some t, at_.map (·.label), updateDict [] (headers.zip ((List.range m).map (petraColumn at_)))⟩

/-- The number of columns of the table. -/
def petraWidth : List PetraRow → ℕ
  | [] => 0
  | r :: _ => r.vals.length

/-- `read` (`_petrasim.py`, 13-46). -/
def readPetrasim (lines : List Str) (order : Option (List Str)) :
    Except PyErr (List (Output Str Flt)) := do
  let headers := ((splitOn ',' (strip (lines.headD []))).drop 3).map strip
  let rows ← petraLoop lines.tail
  let m := petraWidth rows
  if rows.all fun r => r.vals.length = m then
    reorderAll order ((uniqueTimes (rows.map (·.time))).map (petraOutput headers m rows))
  else .error .valueError

end Verif.Model
