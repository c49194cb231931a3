import Verif.Model.Petrasim

/-!
# Tecplot output files

Model of `/repo/toughio/_io/output/tecplot/_tecplot.py` and of `_read_variables`
and `_read_zone` of `/repo/toughio/_mesh/tecplot/_tecplot.py`. A file is the list
of its lines, each with its newline character; beyond the end `readline` returns an
empty text.
-/

namespace Verif.Model
open Verif.Py

/-! ### texts -/

/-- `s.find(pat)`. -/
def pyFind (pat : Str) : Str → ℤ
  | [] => if pat = [] then 0 else -1
  | c :: r => if pat.isPrefixOf (c :: r) then 0
    else if pyFind pat r < 0 then -1 else pyFind pat r + 1

/-- An index of a slice as an offset. -/
def sliceIdx (n : ℕ) (i : ℤ) : ℕ := if i < 0 then (i + n).toNat else i.toNat

/-- `s[i:j]`. -/
def pySlice (s : Str) (i j : ℤ) : Str :=
  (s.take (sliceIdx s.length j)).drop (sliceIdx s.length i)

/-- `replaceAll` with the number of characters to pass over. -/
def replaceFrom (pat rep : Str) : ℕ → Str → Str
  | _, [] => []
  | k + 1, _ :: r => replaceFrom pat rep k r
  | 0, c :: r =>
    if pat.isPrefixOf (c :: r) then rep ++ replaceFrom pat rep (pat.length - 1) r
    else c :: replaceFrom pat rep 0 r

/-- `s.replace(pat, rep)`, `pat` not empty. -/
def replaceAll (pat rep s : Str) : Str := replaceFrom pat rep 0 s

/-- `s.replace(",", " ")`. -/
def uncomma (s : Str) : Str := s.map fun c => if c = ',' then ' ' else c

/-! ### variables -/

/-- The loop of `_read_variables` (`_mesh/tecplot/_tecplot.py`, 175-184). -/
def joinQuoted : List Str → Except PyErr (List Str)
  | [] => .ok []
  | [t] =>
    if '"' ∈ t ∧ ¬ (t.head? = some '"' ∧ t.getLast? = some '"') then .error .indexError
    else .ok [unquote t]
  | t :: u :: r =>
    if '"' ∈ t ∧ ¬ (t.head? = some '"' ∧ t.getLast? = some '"') then do
      let vs ← joinQuoted r
      .ok (unquote (t ++ '_' :: u) :: vs)
    else do
      let vs ← joinQuoted (u :: r)
      .ok (unquote t :: vs)

/-- `_read_variables` (`_mesh/tecplot/_tecplot.py`, 169-192). -/
def readVariables (line : Str) : Except PyErr (List Str) := do
  let l ← rowAt (splitOn '=' line) 1
  let vs ← joinQuoted (words (uncomma l))
  if "X".toList ∉ vs ∧ "x".toList ∉ vs then .error .valueError
  else if "Y".toList ∉ vs ∧ "y".toList ∉ vs then .error .valueError
  else .ok vs

/-! ### zones -/

/-- A value of a zone. -/
inductive ZVal
  | txt (s : Str)
  | int (i : ℤ)
  deriving DecidableEq

/-- A zone: a dictionary. -/
abbrev Zone := List (Str × ZVal)

/-- `zone_key_to_type` (`_mesh/tecplot/_tecplot.py`, 14-29): whether the value is
an integer. -/
def zoneTypes : List (Str × Bool) :=
  [("T".toList, false), ("I".toList, true), ("J".toList, true), ("K".toList, true),
   ("N".toList, true), ("NODES".toList, true), ("E".toList, true), ("ELEMENTS".toList, true),
   ("F".toList, false), ("ET".toList, false), ("DATAPACKING".toList, false),
   ("ZONETYPE".toList, false), ("NV".toList, true), ("VARLOCATION".toList, false)]

/-- `zone_key_to_type[key](value)` (`_mesh/tecplot/_tecplot.py`, 236). -/
def zoneValue (key value : Str) : Except PyErr ZVal := do
  let isInt ← dictGet zoneTypes key
  if isInt then
    match pyInt value with
    | some i => .ok (.int i)
    | none => .error .valueError
  else .ok (.txt value)

/-- `s.replace("=", "")`. -/
def unequal (s : Str) : Str := s.filter (· ≠ '=')

/-- `key, value = s.split("=")` (`_mesh/tecplot/_tecplot.py`, 226). -/
def splitPair (s : Str) : Except PyErr (Str × Str) :=
  match splitOn '=' s with
  | [k, v] => .ok (k, v)
  | _ => .error .valueError

/-- The loop of `_read_zone` (`_mesh/tecplot/_tecplot.py`, 222-237). The last text
alone is never looked at. -/
def zoneLoop : List Str → Zone → Except PyErr Zone
  | [], z => .ok z
  | [_], z => .ok z
  | t :: u :: r, z =>
    if '=' ∈ t then
      if ¬ (t.head? = some '=' ∨ t.getLast? = some '=') then do
        let (k, v) ← splitPair t
        let x ← zoneValue k v
        zoneLoop (u :: r) (dictSet z k x)
      else do
        let x ← zoneValue (unequal t) u
        zoneLoop r (dictSet z (unequal t) x)
    else do
      let x ← zoneValue t (unequal u)
      zoneLoop r (dictSet z t x)

/-- Title of a zone and the line without it (`_mesh/tecplot/_tecplot.py`,
200-209). -/
def zoneTitle (line : Str) : Option Str × Str :=
  let i1 := pyFind ['"'] line
  if 0 ≤ i1 then
    let i2 := i1 + pyFind ['"'] (pySlice line (i1 + 1) line.length) + 2
    (some (pySlice line (i1 + 1) (i2 - 1)),
      replaceAll (pySlice line i1 i2) "PLACEHOLDER".toList line)
  else (none, line)

/-- `VARLOCATION` and the line without it (`_mesh/tecplot/_tecplot.py`,
211-218). -/
def zoneLocation (line : Str) : Zone × Str :=
  let ivar := pyFind "VARLOCATION".toList line
  if 0 ≤ ivar then
    let i1 := pyFind ['('] line
    let i2 := pyFind [')'] line
    ([("VARLOCATION".toList, .txt ((pySlice line i1 (i2 + 1)).filter (· ≠ ' ')))],
      pySlice line 0 ivar ++ pySlice line (i2 + 1) line.length)
  else ([], line)

/-- `_read_zone` (`_mesh/tecplot/_tecplot.py`, 195-243). -/
def readZone (line : Str) : Except PyErr Zone := do
  let (title, line) := zoneTitle (line.drop 5)
  let (z, line) := zoneLocation line
  let z ← zoneLoop ((words (uncomma line)).filter (· ≠ ['='])) z
  match title with
  | some (c :: s) => .ok (dictSet z "T".toList (.txt (c :: s)))
  | _ => .ok z

/-! ### output files -/

/-- What is read at one time: there are no labels in such a file. -/
structure TecOut where
  time : Option Flt
  data : List (Str × List Flt)

/-- The header of the table (`_io/output/tecplot/_tecplot.py`, 60-71). -/
def tecHeaders (keys : List Str) : Except PyErr (List Str) :=
  if "X".toList ∈ keys ∧ "Y".toList ∈ keys then .ok (varOrder keys) else .error .valueError

/-- The line before a table (`_tecplot.py`, 81-84). -/
def tecZone (o : Output Str Flt) : Except PyErr Str := do
  let x ← dictGet o.data "X".toList
  match o.time with
  | none => .error .typeError
  | some t => .ok (" ZONE T=\"".toList ++ padLeft 14 (fmtE 7 t) ++ " SEC\"  I = ".toList ++
      padLeft 8 (natStr x.length) ++ ['\n'])

/-- A row (`_tecplot.py`, 89-90). -/
def tecRow (xs : List Flt) : Str :=
  blanks 18 ++ xs.flatMap (fun x => padLeft 20 (fmtE 12 x)) ++ ['\n']

/-- The lines of one output (`_tecplot.py`, 79-90). -/
def tecStep (headers : List Str) (o : Output Str Flt) : Except PyErr (List Str) := do
  let z ← tecZone o
  let rows ← petraTable headers o.data
  .ok (z :: rows.map tecRow)

/-- `write` (`_tecplot.py`, 58-90). -/
def writeTecplot (outs : List (Output Str Flt)) : Except PyErr (List Str) :=
  match outs.getLast? with
  | none => .error .indexError
  | some last => do
    let headers ← tecHeaders (last.data.map (·.1))
    let steps ← concatM (tecStep headers) outs
    .ok ((padLeft 18 "VARIABLES       =".toList ++ headers.flatMap (padLeft 18) ++ ['\n']) :: steps)

/-- The search for the variables (`_tecplot.py`, 18-21). At the end of the file it
goes on for ever. -/
def tecStart : List Str → Except PyErr (Str × List Str)
  | [] => .error .diverges
  | l :: ls =>
    if startsWith (upper (strip l)) "VARIABLES".toList then .ok (strip l, ls) else tecStart ls

/-- The line of a zone: time and number of rows (`_tecplot.py`, 32-35). -/
def tecZoneOf (line : Str) : Except PyErr (Option Flt × ℤ) := do
  let z ← readZone line
  let t ← (match z.lookup "T".toList with
    | none => .ok none
    | some (.int _) => .error .attributeError
    | some (.txt s) => do
      let w ← rowAt (words s) 0
      let t ← toFloat w
      .ok (some t) : Except PyErr (Option Flt))
  match z.lookup "I".toList with
  | some (.int i) => .ok (t, i)
  | some (.txt _) => .error .typeError
  | none => .error .valueError

/-- The rows of a zone (`_tecplot.py`, 38-41). -/
def tecRows : ℕ → List Str → Except PyErr (List CsvRow × List Str)
  | 0, ls => .ok ([], ls)
  | n + 1, ls => do
    let xs ← (words (strip (ls.headD []))).mapM toFloat
    let (rows, ls) ← tecRows n ls.tail
    .ok (⟨[], xs⟩ :: rows, ls)

/-- The loop of `read` (`_tecplot.py`, 27-51) with the current zone and line. The
first number bounds the turns: all but the last read a line. -/
def tecLoop (headers : List Str) : ℕ → Option (Option Flt × ℤ) → Str → List Str →
    Except PyErr (List TecOut)
  | 0, _, _, _ => .error .diverges
  | n + 1, zone, line, ls => do
    let zone ← (if startsWith line "ZONE".toList then do
        let z ← tecZoneOf line
        .ok (some z)
      else .ok zone : Except PyErr (Option (Option Flt × ℤ)))
    match zone with
    | none => .error .unboundLocalError
    | some (t, i) => do
      let (rows, ls) ← tecRows i.toNat ls
      if rows.all fun r => r.vals.length = nColumns rows then
        let out : TecOut := ⟨t, columnsOf headers rows⟩
        let line := strip (upper (ls.headD []))
        if line = [] then .ok [out]
        else do
          let outs ← tecLoop headers n (some (t, i)) line ls.tail
          .ok (out :: outs)
      else .error .valueError

/-- `read` (`_tecplot.py`, 14-55). There are no labels to put in order. -/
def readTecplot (lines : List Str) (order : Option (List Str)) : Except PyErr (List TecOut) := do
  let (line, ls) ← tecStart lines
  let headers ← readVariables line
  let outs ← tecLoop headers (ls.length + 1) none (strip (upper (ls.headD []))) ls.tail
  match order with
  | none => .ok outs
  | some _ => .error .typeError

end Verif.Model
