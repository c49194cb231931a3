import Verif.Spec.Geometry

/-!
# Specification of cells enclosed by their faces (C83)

`P v` is the point with number `v`, `cell` the vertices of a cell, and `fs` its faces,
each as the list of its vertices.
-/

namespace Verif.Spec
open Verif.Mesh

/-- The corners of a face: three following vertices, going round. -/
def faceCorners (f : List ℕ) : List (ℕ × ℕ × ℕ) :=
  (f ++ f.take 2).zip ((f ++ f.take 2).tail.zip (f ++ f.take 2).tail.tail)

/-- On which side of a corner a vertex lies: positive where the corner is seen
counterclockwise. -/
def sideOf (P : ℕ → P3 ℝ) (t : ℕ × ℕ × ℕ) (v : ℕ) : ℝ := signedVolume (P t.1) (P t.2.1) (P t.2.2) (P v)

/-- A convex cell: its faces are flat, and from every corner of a face all vertices that
are not on the face are seen on the same side. -/
structure ConvexCell (P : ℕ → P3 ℝ) (cell : List ℕ) (fs : List (List ℕ)) : Prop where
  distinct : cell.Nodup
  flat : ∀ f ∈ fs, ∀ t ∈ faceCorners f, ∀ v ∈ f, sideOf P t v = 0
  oneSide : ∀ f ∈ fs, ∀ t ∈ faceCorners f, ∀ t' ∈ faceCorners f, ∀ v ∈ cell, v ∉ f → ∀ v' ∈ cell, v' ∉ f →
    0 < sideOf P t v * sideOf P t' v'

/-- The cell is behind all its faces. -/
def BehindFaces (P : ℕ → P3 ℝ) (cell : List ℕ) (fs : List (List ℕ)) : Prop :=
  ∀ f ∈ fs, ∀ t ∈ faceCorners f, ∀ v ∈ cell, v ∉ f → sideOf P t v < 0

/-- The cell is in front of all its faces. -/
def BeforeFaces (P : ℕ → P3 ℝ) (cell : List ℕ) (fs : List (List ℕ)) : Prop :=
  ∀ f ∈ fs, ∀ t ∈ faceCorners f, ∀ v ∈ cell, v ∉ f → 0 < sideOf P t v

/-- The first vertex of a cell and its three neighbours: positive for a right-handed
cell. -/
def handedness (P : ℕ → P3 ℝ) : CellType × List ℕ → ℝ
  | (.tetra, a :: b :: c :: d :: _) => signedVolume (P a) (P b) (P c) (P d)
  | (.pyramid, a :: b :: _ :: d :: e :: _) => signedVolume (P a) (P b) (P d) (P e)
  | (.wedge, a :: b :: c :: d :: _) => signedVolume (P a) (P b) (P c) (P d)
  | (.hexahedron, a :: b :: _ :: d :: e :: _) => signedVolume (P a) (P b) (P d) (P e)
  | _ => 0

/-- The triangles of a face: all have its first vertex. -/
def fanOf : List ℕ → List (ℕ × ℕ × ℕ)
  | [] => []
  | a :: r => (r.zip r.tail).map fun e => (a, e.1, e.2)

/-- The volume enclosed by the faces, as the sum of tetrahedra with the top `o`, those
behind a face counting as positive and those before it as negative. -/
noncomputable def enclosedVolume (P : ℕ → P3 ℝ) (fs : List (List ℕ)) (o : P3 ℝ) : ℝ :=
  ((fs.flatMap fanOf).map fun t => -signedVolume (P t.1) (P t.2.1) (P t.2.2) o).sum / 6

/-- The point with number `v`. -/
def pointOf (pts : List (P3 ℝ)) (v : ℕ) : P3 ℝ := pts.getD v ⟨0, 0, 0⟩

/-- The areas times the normal vectors add up to zero. -/
def VectorsCancel (areas : List ℝ) (normals : List (P3 ℝ)) : Prop :=
  ((areas.zip normals).map fun e => e.1 * e.2.x).sum = 0 ∧ ((areas.zip normals).map fun e => e.1 * e.2.y).sum = 0 ∧
    ((areas.zip normals).map fun e => e.1 * e.2.z).sum = 0

/-- `n` is a unit vector perpendicular to the face, and all other vertices of the cell
are on the side it points away from. -/
def PointsOutward (P : ℕ → P3 ℝ) (cell f : List ℕ) (n : P3 ℝ) : Prop :=
  IsUnit3 n ∧ ∀ u ∈ f, (∀ v ∈ f, distAlong n (P u) (P v) = 0) ∧ ∀ v ∈ cell, v ∉ f → distAlong n (P u) (P v) < 0

/-- `n` is a unit vector perpendicular to the face, and all other vertices of the cell
are on the side it points to. -/
def PointsInward (P : ℕ → P3 ℝ) (cell f : List ℕ) (n : P3 ℝ) : Prop :=
  IsUnit3 n ∧ ∀ u ∈ f, (∀ v ∈ f, distAlong n (P u) (P v) = 0) ∧ ∀ v ∈ cell, v ∉ f → 0 < distAlong n (P u) (P v)

/-- Entry `k` of row `j` of a table of faces: the vertex, or −1 where there is none. -/
def facesEntry (fs : List (List ℕ)) (j k : ℕ) : ℤ :=
  match fs[j]? with
  | none => -1
  | some f => match f[k]? with
    | none => -1
    | some v => v

end Verif.Spec
