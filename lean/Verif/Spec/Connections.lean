import Verif.Spec.Mesh

/-!
# Specification of connections (C42)

`fs` lists the faces of every cell, each face as the list of its vertices.
-/

namespace Verif.Spec
open Verif.Mesh

/-- Face number `a` of cell `i` has the vertices `f`. -/
def FaceAt (fs : List (List (List ℕ))) (i a : ℕ) (f : List ℕ) : Prop :=
  ∃ row, fs[i]? = some row ∧ row[a]? = some f

/-- Face `a` of cell `i` and face `b` of cell `j` are two faces with the same vertices. -/
def Shared (fs : List (List (List ℕ))) (i a j b : ℕ) : Prop :=
  (i, a) ≠ (j, b) ∧ ∃ f g, FaceAt fs i a f ∧ FaceAt fs j b g ∧ f.Perm g

/-- No face belongs to three cells. -/
def AtMostTwo (fs : List (List (List ℕ))) : Prop :=
  ∀ i a j b k c, Shared fs i a j b → Shared fs i a k c → (j, b) = (k, c)

/-- Entry of a table. -/
def tableAt (out : List (List ℤ)) (i a : ℕ) : Option ℤ := (out[i]?).bind fun row => row[a]?

/-- The directed edges of a face. -/
def directedEdges (f : List ℕ) : List (ℕ × ℕ) := f.zip (f.tail ++ f.take 1)

/-- The type and the vertices of every cell. -/
def typedCells (cells : List CellBlock) : List (CellType × List ℕ) :=
  cells.flatMap fun b => b.data.map fun c => (b.type, c)

/-- The reference cells with `meshio` (VTK) vertex order. -/
def reference : CellType → Option (List (ℤ × ℤ × ℤ))
  | .tetra => some [(0, 0, 0), (1, 0, 0), (0, 1, 0), (0, 0, 1)]
  | .pyramid => some [(0, 0, 0), (1, 0, 0), (1, 1, 0), (0, 1, 0), (0, 0, 1)]
  | .wedge => some [(0, 0, 0), (1, 0, 0), (0, 1, 0), (0, 0, 1), (1, 0, 1), (0, 1, 1)]
  | .hexahedron => some [(0, 0, 0), (1, 0, 0), (1, 1, 0), (0, 1, 0),
      (0, 0, 1), (1, 0, 1), (1, 1, 1), (0, 1, 1)]
  | _ => none

/-- On which side of the plane through `a`, `b`, `c` the point `p` lies: positive on the
side from which `a`, `b`, `c` are seen counterclockwise, zero on the plane. -/
def side (a b c p : ℤ × ℤ × ℤ) : ℤ :=
  let u := (b.1 - a.1, b.2.1 - a.2.1, b.2.2 - a.2.2)
  let v := (c.1 - a.1, c.2.1 - a.2.1, c.2.2 - a.2.2)
  let w := (p.1 - a.1, p.2.1 - a.2.1, p.2.2 - a.2.2)
  (u.2.1 * v.2.2 - u.2.2 * v.2.1) * w.1 + (u.2.2 * v.1 - u.1 * v.2.2) * w.2.1 +
    (u.1 * v.2.1 - u.2.1 * v.1) * w.2.2

/-- The list of vertex numbers `f` is a face of the polyhedron with the given vertices,
listed counterclockwise seen from outside: every three following vertices of the face
span a plane on which exactly the vertices of the face lie, all others being behind. -/
def OuterFace (ps : List (ℤ × ℤ × ℤ)) (f : List ℕ) : Prop :=
  f.Nodup ∧ ∀ t ∈ (f ++ f.take 2).zip ((f ++ f.take 2).tail.zip (f ++ f.take 2).tail.tail),
    ∀ i < ps.length, i ∈ f ∧ side (ps.getD t.1 0) (ps.getD t.2.1 0) (ps.getD t.2.2 0) (ps.getD i 0) = 0 ∨
      i ∉ f ∧ side (ps.getD t.1 0) (ps.getD t.2.1 0) (ps.getD t.2.2 0) (ps.getD i 0) < 0

instance (ps : List (ℤ × ℤ × ℤ)) (f : List ℕ) : Decidable (OuterFace ps f) := by
  unfold OuterFace; infer_instance

/-- The faces form a closed surface: no directed edge occurs twice, and with every edge
the reverse occurs. -/
def ClosedSurface (fs : List (List ℕ)) : Prop :=
  (fs.flatMap directedEdges).Nodup ∧ ∀ e ∈ fs.flatMap directedEdges, e.swap ∈ fs.flatMap directedEdges

instance (fs : List (List ℕ)) : Decidable (ClosedSurface fs) := by
  unfold ClosedSurface; infer_instance

end Verif.Spec
