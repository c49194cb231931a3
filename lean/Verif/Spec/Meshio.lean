import Verif.Spec.Connections
import Verif.Spec.Mesh
import Verif.Spec.TecplotMesh

/-!
# Conversion from and to meshio: specification
-/

namespace Verif.Spec
open Verif.Py Verif.Model Verif.Mesh

variable {K D : Type}

/-- A mesh whose cell data have different names and one row for every cell, at most one
of them a material. -/
structure DataReady (m : Mesh.Mesh K D) : Prop where
  names : (m.cellData.map (·.1)).Nodup
  sizes : ∀ e ∈ m.cellData, e.2.length = (typedCells m.cells).length
  material : (m.cellData.filter fun e => IsMaterialName e.1).length ≤ 1

/-- Some cell data are a material. -/
def HasMaterial (m : Mesh.Mesh K D) : Prop := ∃ e ∈ m.cellData, IsMaterialName e.1

/-- The groups of dimension three determine the number of a new material. -/
def NumberFor (field : List (Str × ℤ × ℤ)) (i : ℤ) : Prop :=
  (field = [] ∧ i = 1) ∨
    ((∃ e ∈ field, e.2.2 = 3 ∧ e.2.1 + 1 = i) ∧ ∀ e ∈ field, e.2.2 = 3 → e.2.1 < i)

/-- The data and the names of a mesh after conversion: the material has its name; a
missing material has been added with a new number. -/
def Completed (num : ℤ → D) (material : Str) (m : Mesh.Mesh K D) (moved : List D → List D)
    (m' : Mesh.Mesh K D) : Prop :=
  (HasMaterial m ∧ m'.cellData.Perm (m.cellData.map fun e => (materialRenamed e.1, moved e.2)) ∧
    m'.fieldData = m.fieldData) ∨
  (¬ HasMaterial m ∧ ∃ i, NumberFor m.fieldData i ∧
    m'.cellData.Perm (("material".toList, List.replicate (typedCells m.cells).length (num i)) ::
      m.cellData.map fun e => (e.1, moved e.2)) ∧
    Registered material i m.fieldData m'.fieldData)

/-- `new` has the entries of `old` at the places `ord`. -/
def Moved {α : Type} (ord : List ℕ) (old new : List α) : Prop :=
  List.Forall₂ (fun i x => old[i]? = some x) ord new

/-- The order of cells that are put together by type: every cell is there once, and cells
of the same type keep their order. -/
def TypeOrder (cells : List CellBlock) (ord : List ℕ) : Prop :=
  ord.Perm (List.range (typedCells cells).length) ∧
    ord.Pairwise fun i j => ∀ a b, (typedCells cells)[i]? = some a → (typedCells cells)[j]? = some b →
      a.1 = b.1 → i < j

end Verif.Spec
