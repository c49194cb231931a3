import Verif.Spec.ConvertFlac

/-!
# Specification: meshes that are saved for TOUGH by way of other formats (C103)
-/

namespace Verif.Spec
open Verif.Py Verif.Model Verif.Mesh

/-- A mesh of zones only that files for FLAC3D keep, but for its materials: all zones have their
corners only and are right-handed, and the coordinates are written with all digits. -/
structure ZonesKept (num : Flt → Flt) (pos : P3 Flt → P3 Flt → P3 Flt → P3 Flt → Bool) (m : FlacMesh) : Prop where
  zones : typedCells m.cells ≠ []
  solid : ∀ e ∈ typedCells m.cells, dimOf e.1 = 3
  corners : typedCells m.cells = cornersOf 3 m.cells
  right : ∀ e ∈ cornersOf 3 m.cells, RightHanded pos m.points e
  digits : ∀ q ∈ m.points, num q.x = q.x ∧ num q.y = q.y ∧ num q.z = q.z
  data : ∀ e ∈ m.cellData, e.1 = "material".toList

/-- All materials have names, and names have different numbers. -/
structure MaterialsNamed (m : FlacMesh) : Prop where
  different : (m.fieldData.map (·.2.1)).Nodup
  named : ∀ e ∈ m.cellData, ∀ k ∈ e.2, ∃ name, (name, k, 3) ∈ m.fieldData

/-- The mesh of which the coordinates are the numbers, with the same cells and names. -/
structure OfNumbers {D : Type} (val : Flt → ℝ) (points : List (P3 Flt)) (cells : List CellBlock)
    (fieldData : List (Str × ℤ × ℤ)) (n : Mesh ℝ D) : Prop where
  points : List.Forall₂ (fun p q => q.x = val p.x ∧ q.y = val p.y ∧ q.z = val p.z) points n.points
  cells : n.cells = cells
  names : n.fieldData = fieldData

end Verif.Spec
