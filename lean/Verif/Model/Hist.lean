import Verif.Model.Opts

/-!
# TIMES, FOFT, COFT, GOFT, DIFFU and OUTPU blocks

Writers: `/repo/toughio/_io/input/tough/_write.py`, lines 589-645 and 762-822.
Readers: `/repo/toughio/_io/input/tough/_read.py`, lines 425-459 and 531-595.
-/

namespace Verif.Model
open Verif.Py

/-! ## TIMES -/

/-- `while len(table) < n` with a body that reads a record and adds its values
(`_read.py`, 436-439 and 494-497). -/
def readTable (fmt : List Tok) (n : ℤ) (acc : List Val) :
    List Str → Except PyErr (List Val × List Str)
  | [] => if (acc.length : ℤ) < n then .error .stopIteration else .ok (acc, [])
  | l :: ls =>
    if (acc.length : ℤ) < n then
      match readRecord fmt l with
      | .error e => .error e
      | .ok d => readTable fmt n (acc ++ pruneNones d) ls
    else .ok (acc, l :: ls)

/-- `_write_times` (`_write.py`, 589-606). -/
def writeTimes (t : SoL) : Except PyErr (List Str) :=
  block "TIMES" false (do
    let l ← writeRecord Fmt.times1 [.int t.toList.length]
    let ls ← writeMulti Fmt.times2 t.toList
    .ok (l :: ls))

/-- `_read_times` (`_read.py`, 425-444); comparing with a missing number of times
is a `TypeError`. -/
def readTimes (ls : List Str) : Except PyErr (SoL × List Str) := do
  let (line, ls) ← next ls
  let d ← readRecord Fmt.times1 line
  match entry d 0 with
  | .int n => do
    let (t, ls) ← readTable Fmt.times2 n [] ls
    if n = 1 then
      match t with
      | x :: _ => .ok (.one x, ls)
      | [] => .error .indexError
    else .ok (.many t, ls)
  | _ => .error .typeError

/-! ## FOFT, COFT, GOFT -/

/-- `_write_foft`, `_write_coft` and `_write_goft` (`_write.py`, 609-645). -/
def writeOft (kw : String) (fmt : List Tok) (names : List Val) : Except PyErr (List Str) :=
  block kw true (writeMulti fmt names)

/-- `_write_foft` (`_write.py`, 609-619). -/
def writeFoft (names : List Val) : Except PyErr (List Str) := writeOft "FOFT" Fmt.foft names
/-- `_write_coft` (`_write.py`, 622-632). -/
def writeCoft (names : List Val) : Except PyErr (List Str) := writeOft "COFT" Fmt.coft names
/-- `_write_goft` (`_write.py`, 635-645). -/
def writeGoft (names : List Val) : Except PyErr (List Str) := writeOft "GOFT" Fmt.goft names

/-- One turn of `_read_oft` (`_read.py`, 451-457). -/
def oftStep (s : List Str) (ls : List Str) : Except PyErr (Turn (List Str) × List Str) := do
  let (line, ls) ← next ls
  if rstrip line = [] then .ok (.stop s, ls) else .ok (.more (s ++ [rstrip line]), ls)

/-- `_read_oft` (`_read.py`, 447-459). -/
def readOft (ls : List Str) : Except PyErr (List Str × List Str) := whileTrue oftStep [] ls

/-! ## DIFFU -/

/-- `_write_diffu` (`_write.py`, 762-773). -/
def writeDiffu (rows : List (List Val)) : Except PyErr (List Str) :=
  block "DIFFU" false (concatM (writeMulti Fmt.diffu) rows)

/-- One turn of `_read_diffu` (`_read.py`, 536-548); `line.split()` is empty
exactly if the line is blank. -/
def diffuStep (s : List (List Val)) (ls : List Str) :
    Except PyErr (Turn (List (List Val)) × List Str) := do
  let (line, ls') ← next ls
  if isBlank line then .ok (.stop s, ls')
  else match readRecord Fmt.diffu line with
    | .ok d => .ok (.more (s ++ [pruneNones d]), ls')
    | .error .valueError => .ok (.stop s, ls)
    | .error e => .error e

/-- `_read_diffu` (`_read.py`, 531-550). -/
def readDiffu (ls : List Str) : Except PyErr (List (List Val) × List Str) :=
  whileTrue diffuStep [] ls

/-! ## OUTPU -/

/-- The arguments of an output variable: a scalar (or `None`), a list of
integers, or several lists. Simplification: lists mixing integers and lists are
not represented. -/
inductive Args
  | one (v : Val)
  | list (l : List Val)
  | rows (l : List (List Val))
  deriving DecidableEq

/-- The rows of arguments written for a variable (`_write.py`, 800-818);
`v[0]` of an empty list is an `IndexError`. -/
def argRows : Args → Except PyErr (List (List Val))
  | .one v => .ok [[v]]
  | .list [] => .error .indexError
  | .list l => .ok [l]
  | .rows [] => .error .indexError
  | .rows l => .ok l

/-- The lines of one variable (`_write.py`, 799-818). -/
def writeVar (e : Str × Args) : Except PyErr (List Str) := do
  let rows ← argRows e.2
  rows.mapM fun r => writeRecord Fmt.outpu3 (.str (upper e.1) :: r)

/-- `_write_outpu` (`_write.py`, 776-822). The number of variables is the number
of lines written for them. An absent or empty format is `[]`, absent variables
are `[]`. -/
def writeOutpu (format : Str) (vars : List (Str × Args)) : Except PyErr (List Str) :=
  block "OUTPU" false (do
    let f ← if format = [] then .ok [] else do
      let l ← writeRecord Fmt.outpu1 [.str (upper format)]
      .ok [l]
    let v ← if vars = [] then .ok [] else do
      let buffer ← concatM writeVar vars
      let l ← writeRecord Fmt.outpu2 [.str (natStr buffer.length)]
      .ok (l :: buffer)
    .ok (f ++ v))

/-- What `_read_outpu` returns: the format and the variables, `none` for an
absent key. -/
structure OutpuRead where
  format : Option Str
  vars : Option (List (Str × Args))
  deriving DecidableEq

/-- One variable of `_read_outpu` (`_read.py`, 571-588). The state lists for each
name the rows read so far; the counter `names[name]` is their number, and the
list that the code builds is the only row, or the list of rows. -/
def outpuVar (s : List (Str × List (List Val))) (ls : List Str) :
    Except PyErr (List (Str × List (List Val)) × List Str) := do
  let (line, ls) ← next ls
  let d ← readRecord Fmt.outpu3 line
  match entry d 0 with
  | .str n =>
    .ok (dictSet s (lower n) ((s.lookup (lower n)).getD [] ++ [pruneNones (d.drop 1)]), ls)
  | _ => .error .attributeError

/-- `for _ in range(num_vars)` (`_read.py`, 571). -/
def outpuVars : ℕ → List (Str × List (List Val)) → List Str →
    Except PyErr (List (Str × List (List Val)) × List Str)
  | 0, s, ls => .ok (s, ls)
  | n + 1, s, ls => do
    let (s, ls) ← outpuVar s ls
    outpuVars n s ls

/-- The value of a variable (`_read.py`, 590-593). -/
def argsOf : List (List Val) → Args
  | [[]] => .one .none
  | [[v]] => .one v
  | [l] => .list l
  | l => .rows l

/-- The format record of `_read_outpu` (`_read.py`, 559-562): the format, the
text of the next record and the lines left. -/
def readFormat (ls : List Str) : Except PyErr (Option Str × Str × List Str) := do
  let (l, ls) ← next ls
  if strip l ≠ [] ∧ strIsDigit (strip l) = false then do
    let (l', ls) ← next ls
    .ok (some (strip l), strip l', ls)
  else .ok (none, strip l, ls)

/-- `_read_outpu` (`_read.py`, 553-595). -/
def readOutpu (ls : List Str) : Except PyErr (OutpuRead × List Str) := do
  let (format, line, ls) ← readFormat ls
  if strIsDigit line then do
    let (s, ls) ← outpuVars (digVal line) [] ls
    .ok (⟨format, some (s.map fun e => (e.1, argsOf e.2))⟩, ls)
  else .ok (⟨format, none⟩, ls)

end Verif.Model
