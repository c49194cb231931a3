import Verif.Spec.Resave
import Verif.Spec.Convert

/-!
# Specification: mesh files of FLAC3D that are converted
-/

namespace Verif.Spec
open Verif.Py Verif.Model Verif.Mesh

/-- A mesh of FLAC3D with its materials as numbers. -/
def plainMesh (m : FlacMesh) : AvsMesh where
  points := m.points
  cells := m.cells
  pointData := []
  cellData := match materialOfCells m with
    | none => []
    | some mat => [("material".toList, ⟨none, mat.map fun k => [.fin (decide (k < 0)) k.natAbs]⟩)]

/-- The materials of the cells of one dimension in increasing order. -/
def materialsOfDim (m : FlacMesh) (mat : List ℤ) (d : ℕ) : List ℤ :=
  (mat.dedup.insertionSort (· ≤ ·)).filter fun k => (d, k) ∈ groupKeys m.cells mat

/-- Files for FLAC3D keep everything of the mesh but the names of materials: there is a zone, the
zones come before the faces, all cells have their corners only, the zones are right-handed, the
coordinates are written with all digits, and the materials are numbered from one, first those
of zones. -/
structure FlacKept (num : Flt → Flt) (pos : P3 Flt → P3 Flt → P3 Flt → P3 Flt → Bool) (m : FlacMesh) : Prop where
  zones : cornersOf 3 m.cells ≠ []
  corners : typedCells m.cells = cornersOf 3 m.cells ++ cornersOf 2 m.cells
  right : ∀ e ∈ cornersOf 3 m.cells, RightHanded pos m.points e
  digits : ∀ q ∈ m.points, num q.x = q.x ∧ num q.y = q.y ∧ num q.z = q.z
  numbers : ∀ mat, materialOfCells m = some mat → ∃ n : ℕ,
    materialsOfDim m mat 3 ++ materialsOfDim m mat 2 = (List.range n).map fun i : ℕ => (i : ℤ) + 1

end Verif.Spec
