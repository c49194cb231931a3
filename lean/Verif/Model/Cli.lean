import Verif.Py.Str

/-!
# Command line tools on files

Model of `/repo/toughio/_cli/_merge.py` and `/repo/toughio/_cli/_save2incon.py`.
A file is its text, `none` a file that does not exist. Universal newlines are
assumed to be translated. Parsing of the command line is not modelled.
-/

namespace Verif.Model
open Verif.Py

/-- `list(f)` for a file opened in text mode: the lines with their newlines. -/
def splitLines : Str → List Str
  | [] => []
  | c :: s =>
    if c = '\n' then [c] :: splitLines s
    else match splitLines s with
      | [] => [[c]]
      | l :: ls => (c :: l) :: ls

/-- `line.upper()[:5] in {"ENDFI", "ENDCY"}` (`_merge.py`, 50). -/
def isEndLine (l : Str) : Bool := ["ENDFI".toList, "ENDCY".toList].contains ((upper l).take 5)

/-- `line.upper()[:5] in {"ROCKS", "PARAM", "ENDFI", "ENDCY"}` (`_merge.py`, 30). -/
def isKnownLine (l : Str) : Bool :=
  ["ROCKS".toList, "PARAM".toList, "ENDFI".toList, "ENDCY".toList].contains ((upper l).take 5)

/-- `file[0].startswith(kw)` (`_merge.py`, 37 and 44), `IndexError` for a file
without lines. -/
def firstStarts (ls : List Str) (kw : String) : Except PyErr Bool :=
  match ls with
  | [] => .error .indexError
  | l :: _ => .ok (startsWith l kw.toList)

/-- The value of `i` after `for i, line in enumerate(lines): if ...: break`
(`_merge.py`, 48-51): the first end line, otherwise the last line. Lines are
never empty here (`count < 3` was refused before). -/
def endIndex : List Str → Nat
  | [] => 0
  | [_] => 0
  | l :: ls => if isEndLine l then 0 else endIndex ls + 1

/-- The text that `merge` writes (`_merge.py`, 6-64). -/
def merge (input mesh incon : Option Str) : Except PyErr Str :=
  match input, mesh with
  | none, _ => .error .valueError
  | _, none => .error .valueError
  | some input, some mesh => do
    let inputFile := splitLines input
    if (inputFile.filter isKnownLine).length < 3 then .error .valueError
    else
      let meshFile := splitLines mesh
      let b ← firstStarts meshFile "ELEME"
      if !b then .error .valueError
      else
        let inconFile ← match incon with
          | none => .ok []
          | some s =>
            let f := splitLines s
            match firstStarts f "INCON" with
            | .error e => .error e
            | .ok b => if !b then .error .valueError else .ok f
        let i := endIndex inputFile
        .ok (inputFile.take i ++ meshFile ++ inconFile ++ inputFile.drop i).flatten

/-- The loop of `save2incon` (`_save2incon.py`, 20-29) from a line on: what has
been written and how it ended. -/
def saveLoop (reset : Bool) : Bool → List Str → Str → Str × Except PyErr Unit
  | _, [], out => (out, .ok ())
  | first, l :: ls, out =>
    if first && !startsWith l "INCON".toList then (out, .error .valueError)
    else if reset && startsWith l "+++".toList then (out, .ok ())
    else saveLoop reset false ls (out ++ l)

/-- `save2incon` (`_save2incon.py`, 6-32): the new content of the output file
(`none` if it is not touched) and how it ended. The output file is assumed not to
be the input file. -/
def save2incon (reset : Bool) (save : Option Str) : Option Str × Except PyErr Unit :=
  match save with
  | none => (none, .error .valueError)
  | some s =>
    match saveLoop reset true (splitLines s) [] with
    | (out, .ok ()) => (some (if reset then out ++ ['\n'] else out), .ok ())
    | (out, .error e) => (some out, .error e)

end Verif.Model
