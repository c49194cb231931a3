import Verif.Spec.Connections

/-!
# Specification of meshes that differ in their blocks of cells only (C102)
-/

namespace Verif.Spec
open Verif.Py Verif.Mesh

/-- No block of cells is empty. -/
def FullBlocks (cells : List CellBlock) : Prop := ∀ b ∈ cells, b.data ≠ []

instance (cells : List CellBlock) : Decidable (FullBlocks cells) := by unfold FullBlocks; infer_instance

/-- Two meshes with the same points, the same cells one by one, and the same data and names. -/
structure SameCells {K D : Type} (m m' : Mesh.Mesh K D) : Prop where
  points : m.points = m'.points
  cells : typedCells m.cells = typedCells m'.cells
  pointData : m.pointData = m'.pointData
  cellData : m.cellData = m'.cellData
  fieldData : m.fieldData = m'.fieldData

end Verif.Spec
