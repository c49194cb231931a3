import Verif.Model.Resave
import Verif.Model.MeshTough

/-!
# The materials of meshes of Tecplot files that are saved for TOUGH or FLAC3D

Model of `_materials` (`/repo/toughio/_mesh/_properties.py`, 7-28) and of the material of a record of
the ELEME block (`_mesh/tough/_helpers.py`, 31-36), and of the names of groups of `_translate_groups`
(`_mesh/flac3d/_flac3d.py`, 487-508), for a mesh that was loaded from a Tecplot file
(`_mesh/tecplot/_tecplot.py`, 86-157; `_mesh/_helpers.py`, 93-101). Such a mesh has no names of
materials, and all its cell data are floats.
-/

namespace Verif.Mesh
open Verif.Py Verif.Model

/-- A float as the material of a record: `"{:>5}".format(str(mat))` (`_helpers.py`, 36). -/
def floatMaterialVal (x : Flt) : Val := .str (padLeft 5 (fltStr x))

/-- What is written for the materials of the cells. -/
def TecMesh.materialVals (r : TecMesh) : List Val :=
  match r.cellData.lookup "material".toList with
  | some xs => xs.map floatMaterialVal
  | none => r.cells.map fun _ => materialVal (.number 1)

/-- A float as the name of a group: `str(k)`, but `None` for zero (`_flac3d.py`, 501-502). -/
def floatLabel (x : Flt) : Str := if x = .fin false 0 ∨ x = .fin true 0 then "None".toList else fltStr x

/-- The names of the groups of the cells. -/
def TecMesh.groupLabels (r : TecMesh) : List Str :=
  match r.cellData.lookup "material".toList with
  | some xs => xs.map floatLabel
  | none => []

end Verif.Mesh
