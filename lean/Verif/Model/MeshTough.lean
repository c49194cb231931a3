import Verif.Model.Geometry
import Verif.Model.MeshObject
import Mathlib.Analysis.SpecialFunctions.Trigonometric.Basic

/-!
# Writing a mesh for TOUGH

Model of `write` in `/repo/toughio/_mesh/tough/_tough.py` (37-110) with `Mesh.write_tough`
(`/repo/toughio/_mesh/_mesh.py`, 350-375): from the points and cells of a mesh to the lines of
the files.

Simplification: centres, volumes and the quantities of connections are calculated over the real
numbers, and each is made a float at the end, by a function `fl` of which nothing is assumed.
The arguments have the right types (47-54).
-/

namespace Verif.Mesh
open Verif.Py Verif.Model

/-- The keywords of `write` (`_tough.py`, 37-45). -/
structure ToughArgs where
  nodal : NodalDistance
  names : List (Material × Material)
  ends : List Material
  coord : Bool
  incon : Bool

/-- The entries of `mesh.materials`. -/
def materialList : Materials → List Material
  | .names l => l.map .name
  | .numbers l => l.map .number

/-- `zip(labels, materials, volumes, nodes)` (`_helpers.py`, 29), with the boundary
conditions. -/
def toughCells (fl : ℝ → Flt) (labels : List Str) (mats : List Material) (vols : List ℝ) (bounds : List Bool)
    (nodes : List (P3 ℝ)) : List MeshCell :=
  (labels.zip (mats.zip (vols.zip (bounds.zip nodes)))).map fun e =>
    ⟨e.1, e.2.1, fl e.2.2.1, e.2.2.2.1, fl e.2.2.2.2.x, fl e.2.2.2.2.y, fl e.2.2.2.2.z⟩

/-- A connection with the labels of its cells (`_tough.py`, 320-321). -/
def toughConn (fl : ℝ → Flt) (labels : List Str) (r : ConnRow) : Except PyErr MeshConn := do
  let l1 ← itemAt labels r.cell1
  let l2 ← itemAt labels r.cell2
  .ok ⟨l1, l2, r.isot, fl r.d1, fl r.d2, fl r.area, fl r.angle⟩

/-- `write` (`_tough.py`, 37-110): the lines of the MESH file, and those of the INCON file if it
is written. `mats` and `boundary` are the cell data `material` and `boundary_condition`,
`inconData` the others; `volsOf` is `mesh.volumes`, and `areasOf` is `mesh.face_areas` for the
faces of the cells. Boundary conditions of another length cannot be a mask of the volumes
(`IndexError`). -/
noncomputable def writeToughOf {D : Type} (fl : ℝ → Flt) (a : ToughArgs) (m : Mesh ℝ D)
    (volsOf : Except PyErr (List ℝ)) (areasOf : List (List (List ℕ)) → Except PyErr (List (List ℝ)))
    (labelLength : Option ℤ) (mats : Option (List ℤ)) (boundary : Option (List Bool)) (inconData : List (Str × Arr)) :
    Except PyErr (List Str × Option (List Str)) := do
  let n := nCells m.cells
  let labels ← labeler n labelLength
  let nodes ← centers m
  let vols ← volsOf
  let fs ← faces m.cells
  let normals ← faceNormals m.points fs
  let areas ← areasOf fs
  let incon ← meshInconFile a.incon n labelLength inconData
  let bounds := boundary.getD (List.replicate n false)
  if bounds.length ≠ n then .error .indexError
  else do
    let rows ← connRowsOf a.nodal m.points nodes fs normals areas bounds
    let conns ← rows.mapM (toughConn fl labels)
    let lines ← meshFile a.names a.ends a.coord
      (toughCells fl labels (materialList (materials n mats m.fieldData)) vols bounds nodes) conns
    .ok (lines, incon)

/-- `write` for a `Mesh` (`_tough.py`, 37-110). -/
noncomputable def writeTough {D : Type} (fl : ℝ → Flt) (a : ToughArgs) (m : Mesh ℝ D) (labelLength : Option ℤ)
    (mats : Option (List ℤ)) (boundary : Option (List Bool)) (inconData : List (Str × Arr)) :
    Except PyErr (List Str × Option (List Str)) :=
  writeToughOf fl a m (volumes m) (faceAreas m.points) labelLength mats boundary inconData

/-- `write` for a `CylindricMesh`, which has its own `volumes` and `face_areas`
(`_tough.py`, 37-110; `_cylindric_grid.py`, 40-73). -/
noncomputable def writeCylTough (fl : ℝ → Flt) (a : ToughArgs) (m : CylMesh ℝ) (labelLength : Option ℤ)
    (mats : Option (List ℤ)) (boundary : Option (List Bool)) (inconData : List (Str × Arr)) :
    Except PyErr (List Str × Option (List Str)) :=
  writeToughOf fl a m.mesh (cylVolumes Real.pi m) (fun _ => cylFaceAreas Real.pi m) labelLength mats boundary inconData

end Verif.Mesh
