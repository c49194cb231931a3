import Verif.Model.Connections
import Verif.Model.TecplotMesh
import Mathlib.Data.Char

/-!
# Conversion from and to meshio

Model of `Mesh.to_meshio` and `from_meshio` (`/repo/toughio/_mesh/_mesh.py`, 247-281 and
838-904), `get_old_meshio_cells` and `get_new_meshio_cells`
(`/repo/toughio/_mesh/_common.py`, 101-178); `get_material_key` is
in `Verif/Model/TecplotMesh.lean`.

`meshio.Mesh` is a plain record here: its constructor stores the arguments. Up to
version 3 it has one array of cells for every cell type (old style), from version 4 on
a list of blocks (new style).

Simplifications: the sets of points and cells are left out (see `Verif/Model/MeshioSets.lean`); the type checks of
`from_meshio` are left out; a cell data array has one row of an arbitrary type for every
cell, `num` makes such a row of a material number; that `from_meshio` changes the
dictionaries of its argument is left out (they are the ones of the result).
-/

namespace Verif.Mesh
open Verif.Py Verif.Model

/-- A `meshio.Mesh` from version 4 on. -/
structure MioNew (K D : Type) where
  points : List (P3 K)
  cells : List CellBlock
  pointData : List (Str × List D)
  cellData : List (Str × List (List D))
  fieldData : List (Str × ℤ × ℤ)
  deriving DecidableEq

/-- Old-style cells. -/
abbrev OldCells := List (CellType × List (List ℕ))

/-- Old-style cell data. -/
abbrev OldData (D : Type) := List (CellType × List (Str × List D))

/-- A `meshio.Mesh` before version 4. -/
structure MioOld (K D : Type) where
  points : List (P3 K)
  cells : OldCells
  pointData : List (Str × List D)
  cellData : OldData D
  fieldData : List (Str × ℤ × ℤ)
  deriving DecidableEq

section Styles
variable {D : Type}

/-- The loop that collects something for every cell type (`_common.py`, 120-127; it
fills both dictionaries `old_cells` and `cell_blocks`). -/
def collect {α : Type} (items : List (CellType × α)) : List (CellType × List α) :=
  items.foldl (fun d e => match d.lookup e.1 with
    | none => dictSet d e.1 [e.2]
    | some l => dictSet d e.1 (l ++ [e.2])) []

/-- `numpy.concatenate` of arrays of cells. (An array without rows counts as one with
the right number of columns.) -/
def concatCells (bs : List (List (List ℕ))) : Except PyErr (List (List ℕ)) :=
  if rectangular bs.flatten then .ok bs.flatten else .error .valueError

/-- The cells of `get_old_meshio_cells` (`_common.py`, 120-128). -/
def oldCells (cells : List CellBlock) : Except PyErr OldCells :=
  (collect (cells.map fun c => (c.type, c.data))).mapM fun e => do
    let d ← concatCells e.2
    .ok (e.1, d)

/-- `numpy.concatenate([cell_data[k][i] for i in iblock])` (`_common.py`, 134). -/
def concatAt (pieces : List (List D)) (iblock : List ℕ) : Except PyErr (List D) := do
  let ps ← rowsAt pieces iblock
  .ok ps.flatten

/-- The cell data of `get_old_meshio_cells` (`_common.py`, 130-141). -/
def oldData (cells : List CellBlock) (cd : List (Str × List (List D))) : Except PyErr (OldData D) :=
  if cd = [] then .ok []
  else (collect (cells.zipIdx.map fun c => (c.1.type, c.2))).mapM fun e => do
    let d ← cd.mapM fun kv => do
      let v ← concatAt kv.2 e.2
      .ok (kv.1, v)
    .ok (e.1, d)

/-- The cells of `get_new_meshio_cells` (`_common.py`, 168). -/
def newCells (cells : OldCells) : List CellBlock := cells.map fun e => ⟨e.1, e.2⟩

/-- The cell data of `get_new_meshio_cells` (`_common.py`, 170-176). -/
def newData (cells : OldCells) (cd : OldData D) : Except PyErr (List (Str × List (List D))) :=
  (unique (cd.flatMap fun e => e.2.map (·.1))).mapM fun k => do
    let vs ← cells.mapM fun c => do
      let d ← dictGet cd c.1
      dictGet d k
    .ok (k, vs)

end Styles

section Convert
variable {K D : Type}

/-- `{k: self.split(v) for k, v in self.cell_data.items()}` (`_mesh.py`, 261). -/
def splitData (m : Mesh K D) : Except PyErr (List (Str × List (List D))) :=
  m.cellData.mapM fun kv => do
    let ps ← split m.cells kv.2
    .ok (kv.1, ps)

/-- `Mesh.to_meshio` with version 4 (`_mesh.py`, 257-270). -/
def toMeshio (m : Mesh K D) : Except PyErr (MioNew K D) := do
  let cd ← splitData m
  .ok ⟨m.points, m.cells, m.pointData, cd, m.fieldData⟩

/-- `Mesh.to_meshio` with version 3 (`_mesh.py`, 257-261, 271-281). -/
def toMeshioOld (m : Mesh K D) : Except PyErr (MioOld K D) := do
  let cd ← splitData m
  let cells ← oldCells m.cells
  let cd ← oldData m.cells cd
  .ok ⟨m.points, cells, m.pointData, cd, m.fieldData⟩

/-- `numpy.concatenate(v)` for cell data; it refuses an empty list. -/
def concatPieces (ps : List (List D)) : Except PyErr (List D) :=
  if ps = [] then .error .valueError else .ok ps.flatten

/-- The cell data of `from_meshio` (`_mesh.py`, 871-874). `renameMaterial` is
`cell_data["material"] = cell_data.pop(key)`. -/
def joinData (cd : List (Str × List (List D))) : Except PyErr (List (Str × List D)) :=
  (renameMaterial cd).mapM fun kv => do
    let v ← concatPieces kv.2
    .ok (kv.1, v)

/-- The number of the default material (`_mesh.py`, 896-900). -/
def freshMaterial (field : List (Str × ℤ × ℤ)) : Except PyErr ℤ :=
  if field = [] then .ok 1
  else do
    let i ← maxInt ((field.filter fun e => e.2.2 = 3).map (·.2.1))
    .ok (i + 1)

/-- The default material (`_mesh.py`, 895-902). -/
def addMaterial (num : ℤ → D) (material : Str) (m : Mesh K D) : Except PyErr (Mesh K D) :=
  if "material".toList ∈ m.cellData.map (·.1) then .ok m
  else do
    let i ← freshMaterial m.fieldData
    .ok { m with
      cellData := dictSet m.cellData "material".toList (List.replicate (nCells m.cells) (num i))
      fieldData := dictSet m.fieldData material (i, 3) }

/-- `from_meshio` with version 4 (`_mesh.py`, 838-904). -/
def fromMeshio (num : ℤ → D) (material : Str) (m : MioNew K D) : Except PyErr (Mesh K D) := do
  let cd ← if m.cellData = [] then .ok [] else joinData m.cellData
  addMaterial num material ⟨m.points, m.cells, m.pointData, cd, m.fieldData⟩

/-- `from_meshio` with version 3 (`_mesh.py`, 838-904). -/
def fromMeshioOld (num : ℤ → D) (material : Str) (m : MioOld K D) : Except PyErr (Mesh K D) := do
  let cd ← if m.cellData = [] then .ok [] else do
    let cd ← newData m.cells m.cellData
    joinData cd
  addMaterial num material ⟨m.points, newCells m.cells, m.pointData, cd, m.fieldData⟩

end Convert

end Verif.Mesh
