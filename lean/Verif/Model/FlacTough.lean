import Verif.Model.ConvertFlac
import Verif.Model.MeshTough

/-!
# Saving meshes of FLAC3D and AVS-UCD files for TOUGH

Model of `read` and `write` (`/repo/toughio/_mesh/_helpers.py`, 84-156) if a mesh is loaded from
a FLAC3D or AVS-UCD file and saved as a MESH file.

Simplifications: those of `Verif/Model/ConvertFlac.lean` and `Verif/Model/MeshTough.lean`; the
numbers of coordinates are given by `val`. Other cell data of an AVS-UCD file, which may only go to
the INCON file, are left out.
-/

namespace Verif.Mesh
open Verif.Py Verif.Model

/-- A mesh with numbers for coordinates, which is written for TOUGH (`_tough.py`, 37-110) with the
cell data `material` (`_properties.py`, 7-28). -/
noncomputable def FlacMesh.writeTough (val : Flt → ℝ) (fl : ℝ → Flt) (a : ToughArgs) (labelLength : Option ℤ)
    (m : FlacMesh) : Except PyErr (List Str × Option (List Str)) :=
  Mesh.writeTough fl a
    (⟨m.points.map fun q => ⟨val q.x, val q.y, val q.z⟩, m.cells, [], [], m.fieldData⟩ : Mesh ℝ ℤ) labelLength
    (m.cellData.lookup "material".toList) none []

/-- A mesh loaded from a FLAC3D file (`_flac3d.py`, 76-222) is saved for TOUGH. -/
noncomputable def saveFlacAsTough (val : Flt → ℝ) (fl : ℝ → Flt) (a : ToughArgs) (labelLength : Option ℤ) (r : FlacRead) :
    Except PyErr (List Str × Option (List Str)) := do
  let m ← r.mesh
  m.writeTough val fl a labelLength

/-- A mesh loaded from an AVS-UCD file (`_avsucd.py`, 48-155) is saved for TOUGH. -/
noncomputable def saveAvsAsTough (val : Flt → ℝ) (fl : ℝ → Flt) (a : ToughArgs) (labelLength : Option ℤ) (r : AvsRead) :
    Except PyErr (List Str × Option (List Str)) := do
  let m ← r.flacMesh
  m.writeTough val fl a labelLength

end Verif.Mesh
