import Verif.Model.Convert

/-!
# Saving meshes of FLAC3D in another format

Model of `read` and `write` (`/repo/toughio/_mesh/_helpers.py`, 84-156) if a mesh is loaded from
a FLAC3D file and saved as an AVS-UCD or Tecplot file, or loaded from an AVS-UCD file and saved
for FLAC3D.

Simplifications: those of `Verif/Model/Resave.lean`; if other cell data of an AVS-UCD file have a
name of the material, the file is refused.
-/

namespace Verif.Mesh
open Verif.Py Verif.Model

/-- The cell data of a mesh of FLAC3D as arrays of numbers. -/
def FlacMesh.arrays (m : FlacMesh) : List (Str × NArray) :=
  m.cellData.map fun e => (e.1, ⟨none, e.2.map fun k => [intFlt k]⟩)

/-- A mesh loaded from a FLAC3D file (`_flac3d.py`, 76-222) is saved as an AVS-UCD file
(`_avsucd.py`, 158-218). -/
def saveFlacAsAvs (version : Str) (r : FlacRead) : Except PyErr (List Str) := do
  let m ← r.mesh
  writeAvs version ⟨m.points, m.cells, [], m.arrays⟩

/-- A mesh loaded from a FLAC3D file (`_flac3d.py`, 76-222) is saved as a Tecplot file
(`_tecplot.py`, 322-441). -/
def saveFlacAsTec (version : Str) (r : FlacRead) : Except PyErr (List Str) := do
  let m ← r.mesh
  writeTecMesh false version ⟨m.points, m.cells, [], m.arrays⟩

/-- A mesh loaded from an AVS-UCD file (`_avsucd.py`, 48-155) as one for FLAC3D: it has materials,
but no names of them. -/
def AvsRead.flacMesh (r : AvsRead) : Except PyErr FlacMesh := do
  let ps ← r.points.mapM fun x => match x with
    | [x, y, z] => .ok (⟨x, y, z⟩ : P3 Flt)
    | _ => .error .valueError
  if r.cellData.any (fun e => e.1 ∈ materialKeys) then .error .valueError
  else match r.material with
    | .inl mats => .ok ⟨ps, r.cells, [("material".toList, mats)], []⟩
    | .inr _ => .error .valueError

/-- A mesh loaded from an AVS-UCD file is saved as a text file for FLAC3D
(`_flac3d.py`, 313-339). -/
def saveAvsAsFlac (p : ℕ) (pos : P3 Flt → P3 Flt → P3 Flt → P3 Flt → Bool) (version date : Str) (r : AvsRead) :
    Except PyErr (List Str) := do
  let m ← r.flacMesh
  writeFlac p pos version date m

/-- A mesh loaded from an AVS-UCD file is saved as a binary file for FLAC3D
(`_flac3d.py`, 313-339). -/
def saveAvsAsFlacBin (pos : P3 Flt → P3 Flt → P3 Flt → P3 Flt → Bool) (r : AvsRead) : Except PyErr (List ℕ) := do
  let m ← r.flacMesh
  writeFlacBin pos m

end Verif.Mesh
