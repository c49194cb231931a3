import Verif.Model.File
import Verif.Model.Registry
import Verif.Model.Listing
import Verif.Model.Petrasim
import Verif.Model.Tecplot
import Verif.Model.Save

/-!
# The command `toughio-extract`

Model of `/repo/toughio/_cli/_extract.py`. A file is the list of its lines, `none` if
there is no such file. The result are the files that are written, or an exception; which
files are there after an exception is left open.
-/

namespace Verif.Model
open Verif.Py Verif.Mesh

/-- `--file-format`. -/
inductive ExtractFormat
  | csv
  | tecplot
  | petrasim
  deriving DecidableEq

/-- The options of the command (`_extract.py`, 90-163) but for the names of the files
that are read. -/
structure ExtractArgs where
  outputFile : Option Str
  format : ExtractFormat
  labelLength : Option ℕ
  split : Bool
  connection : Bool

/-- `format_to_ext` (`_extract.py`, 12-16). -/
def formatExt : ExtractFormat → Str
  | .csv => ".csv".toList
  | .tecplot => ".tec".toList
  | .petrasim => ".csv".toList

/-- `parameters["elements"][label]["center"]` (`_extract.py`, 51, 57). The `KeyError`
becomes a `ValueError` (66-71). The reader never stores `None` as centre. -/
def centerOf (elems : List (Val × Elem)) (label : Str) : Except PyErr (List Val) :=
  match dictGet elems (.str label) with
  | .error _ => .error .valueError
  | .ok e =>
    match e.center with
    | .list l => .ok l
    | _ => .error .valueError

/-- A coordinate as a number. `none` is `None`: the CSV writer writes `0.0` in its place
(`_csv.py`, 134), `null` is what becomes of it with the other formats. The reader stores
floats and `None` only. -/
def coordinate (null : Except PyErr Flt) : Val → Except PyErr Flt
  | .flt x => .ok x
  | .int i => .ok (.fin (decide (i < 0)) i.natAbs)
  | .none => null
  | _ => .error .valueError

/-- `{k: v for k, v in zip(["X", "Y", "Z"], points.T)}` (`_extract.py`, 62). Rows of
different lengths do not make an array. -/
def pointColumns (rows : List (List Flt)) : Except PyErr (List (Str × List Flt)) :=
  if rectangular rows then
    .ok ((["X".toList, "Y".toList, "Z".toList].zipIdx.take (rows.headD []).length).map fun k =>
      (k.1, rows.filterMap (·[k.2]?)))
  else .error .valueError

/-- The centres of the cells (`_extract.py`, 49-52, 62); `numpy.vstack` needs at least
one. -/
def cellPoints (null : Except PyErr Flt) (elems : List (Val × Elem)) (labels : List Str) :
    Except PyErr (List (Str × List Flt)) := do
  let cs ← labels.mapM (centerOf elems)
  if cs.isEmpty then .error .valueError
  else
    let rows ← cs.mapM fun c => c.mapM (coordinate null)
    pointColumns rows

/-- `numpy.mean([...], axis=0)` of the centres of one connection (`_extract.py`, 56-58).
The parameter `mean` is the floating-point mean; there is none of `None`. -/
def meanCenter (mean : List Flt → Flt) (elems : List (Val × Elem)) (label : List Str) : Except PyErr (List Flt) := do
  let cs ← label.mapM (centerOf elems)
  let rows ← cs.mapM fun c => c.mapM (coordinate (.error .typeError))
  if rectangular rows then
    .ok ((List.range (rows.headD []).length).map fun j : ℕ => mean (rows.filterMap (·[j]?)))
  else .error .valueError

/-- The points between the cells of the connections (`_extract.py`, 53-62). -/
def connPoints (mean : List Flt → Flt) (elems : List (Val × Elem)) (labels : List (List Str)) :
    Except PyErr (List (Str × List Flt)) := do
  let rows ← labels.mapM (meanCenter mean elems)
  pointColumns rows

/-- `for out in output: out.data.update(points)` (`_extract.py`, 63-64). -/
def addPoints {L : Type} (points : List (Str × List Flt)) (outs : List (Output L Flt)) : List (Output L Flt) :=
  outs.map fun o => { o with data := updateDict o.data points }

/-- The name of the file (`_extract.py`, 74-81). -/
def extractName (a : ExtractArgs) : Str :=
  a.outputFile.getD ((if a.connection then "OUTPUT_CONNE".toList else "OUTPUT_ELEME".toList) ++ formatExt a.format)

/-- `"{}_{}{}".format(head, i + 1, ext)` (`_extract.py`, 85-87). -/
def splitName (name : Str) (i : ℕ) : Str :=
  (splitext name).1 ++ ('_' :: natStr (i + 1)) ++ (splitext name).2

/-- Writing the outputs (`_extract.py`, 82-87): to one file with `write`, or each to a
file of its own with `csv`. -/
def writeOutputs {L : Type} (a : ExtractArgs) (write csv : List (Output L Flt) → Except PyErr (List Str))
    (outs : List (Output L Flt)) : Except PyErr (List (Str × List Str)) :=
  if !a.split || outs.length = 1 then do
    let lines ← write outs
    .ok [(extractName a, lines)]
  else outs.zipIdx.mapM fun e => do
    let lines ← csv [e.1]
    .ok (splitName (extractName a) e.2, lines)

/-- `write_output` of outputs of elements (`_helpers.py`, 132-149). -/
def writeElements (repr : Flt → Str) : ExtractFormat → List (Output Str Flt) → Except PyErr (List Str)
  | .csv => writeCsv repr .element fun s => [s]
  | .tecplot => writeTecplot
  | .petrasim => writePetrasim

/-- `output[-1].format != "tough"` (`_extract.py`, 46-47) for a list of outputs of another
format. -/
def notTough {α : Type} (outs : Except PyErr (List α)) : Except PyErr (List (Str × List Str)) := do
  match ← outs with
  | [] => .error .indexError
  | _ => .error .valueError

/-- `points` and the files for the elements (`_extract.py`, 42-87). -/
def extractElements (repr : Flt → Str) (a : ExtractArgs) (elems : List (Val × Elem)) (lines : List Str) :
    Except PyErr (List (Str × List Str)) := do
  let outs ← readListingElements a.labelLength lines none
  match outs.getLast? with
  | none => .error .indexError
  | some out =>
    let null : Except PyErr Flt :=
      if a.format = .csv ∨ ¬ (!a.split || outs.length = 1) then .ok (.fin false 0) else .error .typeError
    let points ← cellPoints null elems out.labels
    writeOutputs a (writeElements repr a.format) (writeElements repr .csv) (addPoints points outs)

/-- `points` and the files for the connections (`_extract.py`, 42-87). -/
def extractConnections (repr : Flt → Str) (mean : List Flt → Flt) (a : ExtractArgs) (elems : List (Val × Elem))
    (lines : List Str) : Except PyErr (List (Str × List Str)) := do
  let outs ← readListing .connection a.labelLength lines
  match outs.getLast? with
  | none => .error .indexError
  | some out =>
    let points ← connPoints mean elems out.labels
    writeOutputs a (writeCsv repr .connection id) (writeCsv repr .connection id) (addPoints points outs)

/-- `extract` (`_extract.py`, 19-87). A SAVE file is read as one output, not as a list, so
that `output[-1]` is its data and has no `format`. -/
def extract (repr : Flt → Str) (mean : List Flt → Flt) (a : ExtractArgs) (infile mesh : Option (List Str)) :
    Except PyErr (List (Str × List Str)) :=
  if a.connection ∧ a.format ≠ .csv then .error .valueError
  else
    match infile, mesh with
    | none, _ => .error .valueError
    | some _, none => .error .valueError
    | some lines, some mesh => do
      let p ← readFile a.labelLength mesh
      match p.elements with
      | none => .error .valueError
      | some elems =>
        let t ← outputType lines
        match t.2 with
        | .tough =>
          if a.connection then extractConnections repr mean a elems.1 lines
          else extractElements repr a elems.1 lines
        | .save => do
          let _ ← readSave .absent lines
          .error .attributeError
        | .tecplot => notTough (readTecplot lines none)
        | .petrasim => notTough (readPetrasim lines none)
        | .csv =>
          match t.1 with
          | .element => notTough (readCsvElements lines none)
          | .connection => notTough (readCsv .connection lines)

end Verif.Model
