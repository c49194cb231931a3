import Verif.Spec.Mesh

/-!
# Specification of structured and cylindrical grids (C39-C41)
-/

namespace Verif.Mesh

/-- Translation. -/
def P3.add {K : Type} [Field K] (p q : P3 K) : P3 K := ⟨p.x + q.x, p.y + q.y, p.z + q.z⟩

/-- The determinant of three vectors. -/
def det3 {K : Type} [Field K] (a b c : P3 K) : K :=
  a.x * (b.y * c.z - b.z * c.y) - a.y * (b.x * c.z - b.z * c.x) + a.z * (b.x * c.y - b.y * c.x)

end Verif.Mesh

namespace Verif.Spec
open Verif.Py Verif.Mesh

/-- The cells of a grid in the order in which they are listed, as (column, row, level)
with level 0 at the bottom: layer after layer from top to bottom, the first axis
running fastest, or column after column, each from top to bottom. -/
def listing (layer : Bool) (nx ny nz : ℕ) : List (ℕ × ℕ × ℕ) :=
  if layer then
    (List.range nz).reverse.flatMap fun k => (List.range ny).flatMap fun j =>
      (List.range nx).map fun i => (i, j, k)
  else
    (List.range nx).flatMap fun i => (List.range ny).flatMap fun j =>
      (List.range nz).reverse.map fun k => (i, j, k)

/-- The cells of a 2D grid as (column, row). -/
def listing2 (layer : Bool) (nx ny : ℕ) : List (ℕ × ℕ) :=
  if layer then (List.range ny).flatMap fun j => (List.range nx).map fun i => (i, j)
  else (List.range nx).flatMap fun i => (List.range ny).map fun j => (i, j)

section
variable {K : Type} [Field K]

/-- The place of grid plane number `i`: the sum of the sizes before it. -/
def plane (d : List K) (i : ℕ) : K := (d.take i).sum

/-- The corner of a grid with origin `o` on three planes. -/
def corner (dx dy dz : List K) (o : P3 K) (a b c : ℕ) : P3 K :=
  ⟨o.x + plane dx a, o.y + plane dy b, o.z + plane dz c⟩

/-- The corners of a cell in the order of `meshio`: bottom face, then top face, each
counterclockwise seen from above. -/
def corners (dx dy dz : List K) (o : P3 K) (v : ℕ × ℕ × ℕ) : List (P3 K) :=
  let p := corner dx dy dz o
  let (i, j, k) := v
  [p i j k, p (i + 1) j k, p (i + 1) (j + 1) k, p i (j + 1) k,
    p i j (k + 1), p (i + 1) j (k + 1), p (i + 1) (j + 1) (k + 1), p i (j + 1) (k + 1)]

/-- The corners of a cell of a 2D grid. -/
def corners2 (dx dy : List K) (o : K × K) (v : ℕ × ℕ) : List (P3 K) :=
  let p a b : P3 K := ⟨o.1 + plane dx a, o.2 + plane dy b, 0⟩
  let (i, j) := v
  [p i j, p (i + 1) j, p (i + 1) (j + 1), p i (j + 1)]

/-- The vertices of a cell are at given places. -/
def Vertices (pts : List (P3 K)) (c : List ℕ) (ps : List (P3 K)) : Prop :=
  List.Forall₂ (fun i p => pts[i]? = some p) c ps

end

end Verif.Spec
