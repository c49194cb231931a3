import Verif.Model.TecplotMesh
import Verif.Model.Flac3dBin

/-!
# Saving meshes that were loaded

Model of `Mesh.write` (`/repo/toughio/_mesh/_mesh.py`) and `write` (`_helpers.py`, 130-170) on
what the readers of the formats return.

Simplifications: integers, such as materials, become the floats with their values; numbers
of vertices that are negative and points of FLAC3D files without three coordinates are refused.
-/

namespace Verif.Mesh
open Verif.Py Verif.Model

/-- An integer as a number of an array. -/
def intFlt (k : ℤ) : Flt := .fin (decide (k < 0)) k.natAbs

/-- The cell data of a mesh that was loaded: the material is put at the end under this
name (`_helpers.py`, 98-101). -/
def AvsRead.allCellData (r : AvsRead) : List (Str × NArray) :=
  r.cellData ++ [("material".toList, match r.material with
    | .inl mats => ⟨none, mats.map fun k => [intFlt k]⟩
    | .inr a => a)]

/-- A mesh loaded from an AVS-UCD file is saved as one. -/
def saveAvsRead (version : Str) (r : AvsRead) : Except PyErr (List Str) :=
  writeAvsRows version r.points r.cells r.pointData r.allCellData

/-- A point with its coordinates, and whether there are only two. -/
def tecPointOf : List Flt → Except PyErr (P3 Flt × Bool)
  | [x, y] => .ok (⟨x, y, .fin false 0⟩, true)
  | [x, y, z] => .ok (⟨x, y, z⟩, false)
  | _ => .error .valueError

/-- The number of a vertex. -/
def vertexOf (k : ℤ) : Except PyErr ℕ := if k < 0 then .error .valueError else .ok k.toNat

/-- Variables as arrays. -/
def flatArrays (d : List (Str × List Flt)) : List (Str × NArray) :=
  d.map fun e => (e.1, ⟨none, e.2.map fun x => [x]⟩)

/-- A mesh loaded from a Tecplot file is saved as one. -/
def saveTecRead (version : Str) (r : TecMesh) : Except PyErr (List Str) := do
  let ps ← r.points.mapM tecPointOf
  let cells ← r.cells.mapM fun c => c.mapM vertexOf
  writeTecMesh (ps.any (·.2)) version
    ⟨ps.map (·.1), [⟨r.type, cells⟩], flatArrays r.pointData, flatArrays r.cellData⟩

/-- A mesh loaded from a FLAC3D file: the groups are the material. -/
def FlacRead.mesh (r : FlacRead) : Except PyErr FlacMesh := do
  let ps ← r.points.mapM fun x => match x with
    | [x, y, z] => .ok (⟨x, y, z⟩ : P3 Flt)
    | _ => .error .valueError
  .ok ⟨ps, r.cells, match r.group with
      | none => []
      | some gs => [("material".toList, gs.map fun g : ℕ => (g : ℤ))],
    r.fieldData.map fun e => (e.1, (e.2.1 : ℤ), (e.2.2 : ℤ))⟩

/-- A mesh loaded from a FLAC3D file is saved as a text file. -/
def saveFlacRead (p : ℕ) (pos : P3 Flt → P3 Flt → P3 Flt → P3 Flt → Bool) (version date : Str) (r : FlacRead) :
    Except PyErr (List Str) := do
  let m ← r.mesh
  writeFlac p pos version date m

/-- A mesh loaded from a FLAC3D file is saved as a binary file. -/
def saveFlacBinRead (pos : P3 Flt → P3 Flt → P3 Flt → P3 Flt → Bool) (r : FlacRead) : Except PyErr (List ℕ) := do
  let m ← r.mesh
  writeFlacBin pos m

end Verif.Mesh
