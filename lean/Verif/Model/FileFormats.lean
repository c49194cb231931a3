import Verif.Model.Registry

/-!
# The registered formats

The formats that the program registers for meshes and for outputs, and how a reader or
writer is chosen. A reader or writer stands for itself by the name of its format.
-/

namespace Verif.Model
open Verif.Py

/-- One call of `register`. -/
abbrev Registration := String × List String × Bool

/-- The dictionaries after some calls of `register`; the last entry says whether there is a
writer. -/
def registry (l : List Registration) : Registry Str Str :=
  l.foldl (fun r e => registerFormat r e.1.toList (e.2.1.map (·.toList)) (some e.1.toList)
    (if e.2.2 then some e.1.toList else none)) ⟨[], [], []⟩

/-- The formats of meshes, in the order of `/repo/toughio/_mesh/__init__.py`, 3 (the `register`
of each `__init__.py`). -/
def meshFormats : Registry Str Str :=
  registry [("avsucd", [], true), ("flac3d", [".f3grid"], true), ("pickle", [".pickle", ".pkl"], true),
    ("tecplot", [".dat", ".tec"], true), ("tough", [], true)]

/-- The formats of outputs, in the order of `/repo/toughio/_io/output/__init__.py`, 1. -/
def outputFormats : Registry Str Str :=
  registry [("csv", [".csv"], true), ("petrasim", [], true), ("save", [], false), ("tecplot", [".tec"], true),
    ("tough", [], false)]

/-- `file_format if file_format else filetype_from_filename(…)` (`_mesh/_helpers.py`, 88-92 and
142-146, `_io/output/_helpers.py`, 140-144). -/
def chooseFormat (file_format : Option Str) (p : Str) (r : Registry Str Str) : Str :=
  match file_format with
  | some f => if f ≠ [] then f else filetypeFromFilename p r.exts
  | none => filetypeFromFilename p r.exts

/-- The reader of a mesh file (`_mesh/_helpers.py`, 94-106); `none` is meshio's. -/
def meshReader (file_format : Option Str) (p : Str) : Option Str :=
  meshFormats.readers.lookup (chooseFormat file_format p meshFormats)

/-- The writer of a mesh file (`_mesh/_helpers.py`, 148-156); `none` is meshio's. -/
def meshWriter (file_format : Option Str) (p : Str) : Option Str :=
  meshFormats.writers.lookup (chooseFormat file_format p meshFormats)

/-- The writer of an output file (`_io/output/_helpers.py`, 140-146). -/
def outputWriter (file_format : Option Str) (p : Str) : Except PyErr Str :=
  dictGet outputFormats.writers (chooseFormat file_format p outputFormats)

end Verif.Model
