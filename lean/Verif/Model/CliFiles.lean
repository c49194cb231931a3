import Verif.Model.Cli
import Verif.Model.MeshObject

/-!
# Command line tools on the files of a disk

Model of `/repo/toughio/_cli/_merge.py`, `/repo/toughio/_cli/_save2incon.py` and
`/repo/toughio/_cli/_co2tab.py` with the names of the files that are read and
written. A name is resolved as by the operating system: several slashes count as
one and parts `.` do not count. Simplifications: `..` and links are not resolved,
the output file can always be opened for writing, and it is no directory. Parsing
of the command line is not modelled.
-/

namespace Verif.Model
open Verif.Py Verif.Mesh

/-- The parts of a path between slashes. -/
def splitSlash : Str → List Str
  | [] => [[]]
  | c :: s =>
    if c = '/' then [] :: splitSlash s
    else match splitSlash s with
      | [] => [[c]]
      | l :: ls => (c :: l) :: ls

/-- What a path names: whether it begins at the root, and the parts that count. -/
structure Place where
  root : Bool
  parts : List Str
  deriving DecidableEq

/-- The place that a path names. -/
def diskPlace (p : Str) : Place :=
  ⟨p.head? = some '/', (splitSlash p).filter fun s => s ≠ [] && s ≠ ['.']⟩

/-- The files with their texts and the directories. -/
structure Disk where
  file : Place → Option Str
  isDir : Place → Bool

/-- The text of a file, `none` if there is no file of this name. An empty path and one that
ends with a slash name no file. -/
def Disk.read (d : Disk) (p : Str) : Option Str :=
  if p = [] ∨ p.getLast? = some '/' then none else d.file (diskPlace p)

/-- `os.path.isdir(p)`. An empty path names no directory. -/
def Disk.hasDir (d : Disk) (p : Str) : Bool := p ≠ [] && d.isDir (diskPlace p)

/-- The disk once a file has this text. -/
def Disk.write (d : Disk) (p : Str) (t : Str) : Disk :=
  { d with file := fun q => if q = diskPlace p then some t else d.file q }

/-- `head + ("/" if head else "") + name` with `head = os.path.split(infile)[0]` (`_merge.py`,
13-15). -/
def besideName (infile : Str) (name : String) : Str :=
  let head := pathHead infile
  head ++ (if head ≠ [] then ['/'] else []) ++ name.toList

/-- `merge` (`_merge.py`, 6-62): the disk afterwards. All files are read before the output
file is opened. -/
def mergeFiles (d : Disk) (infile outfile : Str) : Except PyErr Disk := do
  let text ← merge (d.read infile) (d.read (besideName infile "MESH")) (d.read (besideName infile "INCON"))
  .ok (d.write outfile text)

/-- `save2incon` (`_save2incon.py`, 6-31): the disk afterwards and how it ended. The output
file is emptied (line 17) before the SAVE file is opened (line 19). -/
def saveFiles (d : Disk) (reset : Bool) (infile outfile : Str) : Disk × Except PyErr Unit :=
  match d.read infile with
  | none => (d, .error .valueError)
  | some _ =>
    let d' := d.write outfile []
    match save2incon reset (d'.read infile) with
    | (some t, r) => (d'.write outfile t, r)
    | (none, r) => (d', r)

/-- `co2tab` (`_co2tab.py`, 6-22) with the text of the file that is installed. -/
def co2tab (d : Disk) (table : Str) (path : Str) : Except PyErr Disk :=
  if !d.hasDir path then .error .valueError
  else .ok (d.write (pathJoin path "CO2TAB".toList) table)

end Verif.Model
