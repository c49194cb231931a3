import Verif.Model.Pyvista
import Verif.Spec.Connections

/-!
# What conversion from and to pyvista means
-/

namespace Verif.Spec
open Verif.Py Verif.Mesh

/-- The cell types with their numbers in VTK and their numbers of vertices. -/
def vtkTable : List (CellType × ℕ × ℕ) :=
  [(.other "empty".toList, 0, 0), (.other "vertex".toList, 1, 1), (.other "line".toList, 3, 2),
    (.triangle, 5, 3), (.quad, 9, 4), (.tetra, 10, 4), (.hexahedron, 12, 8), (.wedge, 13, 6), (.pyramid, 14, 5),
    (.other "penta_prism".toList, 15, 10), (.other "hexa_prism".toList, 16, 12),
    (.other "line3".toList, 21, 3), (.other "triangle6".toList, 22, 6), (.other "quad8".toList, 23, 8),
    (.other "tetra10".toList, 24, 10), (.other "hexahedron20".toList, 25, 20), (.other "wedge15".toList, 26, 15),
    (.other "pyramid13".toList, 27, 13), (.other "quad9".toList, 28, 9), (.other "hexahedron27".toList, 29, 27),
    (.other "quad6".toList, 30, 6), (.other "wedge12".toList, 31, 12), (.other "wedge18".toList, 32, 18),
    (.other "hexahedron24".toList, 33, 24), (.other "triangle7".toList, 34, 7), (.other "line4".toList, 35, 4)]

/-- A cell of a type known to VTK with the right number of vertices, and the VTK cell. -/
def IsVtkCell (e : CellType × List ℕ) (v : ℕ × List ℕ) : Prop :=
  (e.1, v.1, e.2.length) ∈ vtkTable ∧ v.2 = e.2

/-- The cell that stands for a VTK cell: in pixels and voxels the vertices are in another
order than in quadrangles and hexahedra, a polygon has its number of vertices in the name. -/
inductive Represents : ℕ × List ℕ → CellType × List ℕ → Prop
  | known (t : CellType) (code n : ℕ) (c : List ℕ) (h : (t, code, n) ∈ vtkTable) : Represents (code, c) (t, c)
  | pixel (p q r s : ℕ) : Represents (8, [p, q, r, s]) (.quad, [p, q, s, r])
  | voxel (p q r s t u v w : ℕ) :
    Represents (11, [p, q, r, s, t, u, v, w]) (.hexahedron, [p, q, s, r, t, u, w, v])
  | polygon (c : List ℕ) : Represents (7, c) (.other ("polygon".toList ++ natStr c.length), c)

/-- The array of cells: for every cell the number of its vertices, and the vertices. -/
def padded (vs : List (ℕ × List ℕ)) : List ℕ := vs.flatMap fun v => v.2.length :: v.2

/-- The places of the cells in the array of cells, from `a` on. -/
def cellStarts (a : ℕ) : List (ℕ × List ℕ) → List ℕ
  | [] => []
  | v :: vs => a :: cellStarts (a + v.2.length + 1) vs

/-- The places of the cells in the array of vertices alone, from `a` on, and its end. -/
def vertexStarts (a : ℕ) : List (ℕ × List ℕ) → List ℕ
  | [] => [a]
  | v :: vs => a :: vertexStarts (a + v.2.length) vs

/-- The arrays for the cells `vs` before VTK 9. -/
structure HoldsOld {K D : Type} (g : VtkGrid K D) (vs : List (ℕ × List ℕ)) : Prop where
  types : g.types = vs.map (·.1)
  cells : g.cells = padded vs
  offset : g.offset = cellStarts 0 vs

/-- The arrays for the cells `vs` from VTK 9 on. -/
structure HoldsNew {K D : Type} (g : VtkGrid K D) (vs : List (ℕ × List ℕ)) : Prop where
  types : g.types = vs.map (·.1)
  cells : g.cells = padded vs
  offset : g.offset = vertexStarts 0 vs

/-- Data after conversion: blanks in names become underscores. -/
def renamed {D : Type} (d : List (Str × List D)) : List (Str × List D) :=
  d.map fun e => (e.1.map fun c => if c = ' ' then '_' else c, e.2)

/-- The mesh `r` has the cells `es` in blocks, each with cells of one type and as large as
possible. -/
def InBlocks (es : List (CellType × List ℕ)) (r : List CellBlock) : Prop :=
  typedCells r = es ∧ (∀ b ∈ r, b.data ≠ []) ∧ r.IsChain fun a b => a.type ≠ b.type

end Verif.Spec
