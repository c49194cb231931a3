import Verif.Spec.Extract
import Verif.Spec.MeshTough

/-!
# Specification of extracting outputs for a mesh that was written (C93)
-/

namespace Verif.Spec
open Verif.Py Verif.Model Verif.Mesh

/-- The digits after the point of the centres in a MESH file; with the block COORD they have more. -/
def centerDigits (coord : Bool) : ℕ := if coord then 13 else 3

/-- `c` is the centre of the cell of the mesh that is called `l`, with the digits of the file. -/
def LabelCenter (fl : ℝ → Flt) (coord : Bool) (pts : List (P3 ℝ)) (cells : List CellBlock) (labels : List Str)
    (l : Str) (c : P3 Flt) : Prop :=
  ∃ (i : ℕ) (vs : List ℕ) (p : P3 ℝ), labels[i]? = some l ∧ (allCells cells)[i]? = some vs ∧ IsCenter pts vs p ∧
    c = ⟨quant (centerDigits coord) (fl p.x), quant (centerDigits coord) (fl p.y), quant (centerDigits coord) (fl p.z)⟩

/-- A mesh and arguments for which a MESH file can be written: solid cells with proper faces, two of
them neighbours; a material and a boundary condition for each cell, if any are given; full names in the
arguments; and every number fits its column. -/
structure Writable {D : Type} (fl : ℝ → Flt) (a : ToughArgs) (m : Mesh.Mesh ℝ D) (fs : List (List (List ℕ)))
    (mats : Option (List ℤ)) (boundary : Option (List Bool)) : Prop where
  solid : SolidMesh m.points m.cells
  faces : Verif.Mesh.faces m.cells = .ok fs
  proper : ProperFaces fs
  pair : ∃ i j, Neighbours fs i j
  count : nCells m.cells ≤ capacity 9
  given : ∀ l, mats = some l → l.length = nCells m.cells
  conditions : ∀ l, boundary = some l → l.length = nCells m.cells
  names : ∀ e ∈ a.names, Filled e.1 ∧ bare e.2 = e.2
  ends : ∀ x ∈ a.ends, Filled x
  cellsFit : ∀ vols, volumes m = .ok vols → ∀ (i : ℕ) c,
    CellOf fl m.points m.cells (materialList (materials (nCells m.cells) mats m.fieldData)) vols
      (boundary.getD (List.replicate (nCells m.cells) false)) i c → CellFits a.names a.coord c
  connsFit : ∀ labels, labeler (nCells m.cells) none = .ok labels → ∀ c,
    ConnOf fl a.nodal m.points m.cells fs labels (boundary.getD (List.replicate (nCells m.cells) false)) c → MeshConnFits c

end Verif.Spec
