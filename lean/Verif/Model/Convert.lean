import Verif.Model.Resave

/-!
# Saving meshes in another format

Model of `read` and `write` (`/repo/toughio/_mesh/_helpers.py`, 84-156) if a mesh is loaded from
an AVS-UCD file and saved as a Tecplot file, or the other way round. The simplifications are those
of `Verif/Model/Resave.lean`.
-/

namespace Verif.Mesh
open Verif.Py Verif.Model

/-- A mesh loaded from an AVS-UCD file (`_avsucd.py`, 48-155) is saved as a Tecplot file
(`_tecplot.py`, 322-441). -/
def saveAvsAsTec (version : Str) (r : AvsRead) : Except PyErr (List Str) := do
  let ps ← r.points.mapM tecPointOf
  writeTecMesh (ps.any (·.2)) version ⟨ps.map (·.1), r.cells, r.pointData, r.allCellData⟩

/-- A mesh loaded from a Tecplot file (`_tecplot.py`, 94-166) is saved as an AVS-UCD file
(`_avsucd.py`, 158-218). -/
def saveTecAsAvs (version : Str) (r : TecMesh) : Except PyErr (List Str) := do
  let cells ← r.cells.mapM fun c => c.mapM vertexOf
  writeAvsRows version r.points [⟨r.type, cells⟩] (flatArrays r.pointData) (flatArrays r.cellData)

end Verif.Mesh
