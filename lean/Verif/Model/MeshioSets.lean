import Verif.Model.Meshio

/-!
# Sets of points and cells in conversions from and to meshio

Model of the sets in `Mesh.to_meshio` and `from_meshio` (`/repo/toughio/_mesh/_mesh.py`, 257-281
and 879-893) and in the constructor (70-71). The rest of the conversions is in
`Verif/Model/Meshio.lean`.
-/

namespace Verif.Mesh
open Verif.Py Verif.Model

/-- The sets of a mesh (`_mesh.py`, 70-71); `S` is the type of one of them. -/
structure Sets (S : Type) where
  points : List (Str × S)
  cells : List (Str × S)
  deriving DecidableEq

/-- The sets of a `meshio.Mesh`: `none` if it has no such attribute. Up to version 3 there are
`node_sets` only, from version 4 on `point_sets` and `cell_sets`. -/
structure MioSets (S : Type) where
  pointSets : Option (List (Str × S))
  nodeSets : Option (List (Str × S))
  cellSets : Option (List (Str × S))
  deriving DecidableEq

variable {K D S : Type}

/-- The sets of `Mesh.to_meshio` with version 4 (`_mesh.py`, 263-270). -/
def setsToMeshio (s : Sets S) : MioSets S := ⟨some s.points, none, some s.cells⟩

/-- The sets of `Mesh.to_meshio` with version 3 (`_mesh.py`, 273-279). -/
def setsToMeshioOld (s : Sets S) : MioSets S := ⟨none, some s.points, none⟩

/-- The sets of `from_meshio` (`_mesh.py`, 885-892). -/
def setsFromMeshio (s : MioSets S) : Sets S :=
  ⟨match s.pointSets with
    | some p => p
    | none =>
      match s.nodeSets with
      | some p => p
      | none => [],
    match s.cellSets with
    | some c => c
    | none => []⟩

/-- `Mesh.to_meshio` and `from_meshio` of a mesh with sets, version 4. -/
def throughMeshio (num : ℤ → D) (material : Str) (m : Mesh K D) (s : Sets S) : Except PyErr (Mesh K D × Sets S) := do
  let mm ← toMeshio m
  let m' ← fromMeshio num material mm
  .ok (m', setsFromMeshio (setsToMeshio s))

/-- `Mesh.to_meshio` and `from_meshio` of a mesh with sets, version 3. -/
def throughMeshioOld (num : ℤ → D) (material : Str) (m : Mesh K D) (s : Sets S) : Except PyErr (Mesh K D × Sets S) := do
  let mm ← toMeshioOld m
  let m' ← fromMeshioOld num material mm
  .ok (m', setsFromMeshio (setsToMeshioOld s))

end Verif.Mesh
