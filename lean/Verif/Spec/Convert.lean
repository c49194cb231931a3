import Verif.Spec.Resave

/-!
# Specification: mesh files that are converted
-/

namespace Verif.Spec
open Verif.Py Verif.Model Verif.Mesh

/-- AVS-UCD files keep everything of the mesh: no block is empty, the data have names without
blanks, numbers of 15 digits and not one column, and there is a material, which comes last, is
called so and is made of integers. -/
structure AvsKept (m : AvsMesh) : Prop where
  blocks : ∀ b ∈ m.cells, b.data ≠ []
  names : ∀ e ∈ m.pointData ++ otherData m, underscored e.1 = e.1
  columns : ∀ e ∈ m.pointData ++ otherData m, e.2.width ≠ some 1
  digits : ∀ e ∈ m.pointData ++ otherData m, ∀ r ∈ e.2.rows, ∀ x ∈ r, quant 14 x = x
  material : ∃ mats : List ℤ, m.cellData = otherData m ++
    [("material".toList, ⟨none, mats.map fun k => [.fin (decide (k < 0)) k.natAbs]⟩)]

/-- Tecplot files keep everything of the mesh: the cells are of one type that has a zone of its
own, the third coordinate is zero if it is left out, and the data are flat arrays whose names are
not those of coordinates. -/
structure TecKept (flat : Bool) (m : AvsMesh) : Prop where
  shape : ∃ t ∈ [CellType.triangle, .quad, .tetra, .hexahedron], ∀ b ∈ m.cells, b.type = t
  plane : flat = true → ∀ p ∈ m.points, p.z = .fin false 0
  columns : ∀ e ∈ m.pointData ++ m.cellData, e.2.width = none
  coordinates : ∀ e ∈ m.pointData ++ m.cellData, ¬ IsCoordinate e.1

end Verif.Spec
