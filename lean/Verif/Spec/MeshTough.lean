import Verif.Model.MeshTough
import Verif.Spec.Connections
import Verif.Spec.Geometry
import Verif.Spec.MeshWrite

/-!
# What is to be in the files of a mesh (C80)
-/

namespace Verif.Spec
open Verif.Py Verif.Model Verif.Mesh

/-- A mesh of solid cells in blocks that are not empty, each with different points of the mesh as
its vertices. -/
structure SolidMesh (pts : List (P3 ℝ)) (cells : List CellBlock) : Prop where
  any : cells ≠ []
  blocks : ∀ b ∈ cells, b.data ≠ []
  solid : ∀ tc ∈ typedCells cells, ∃ ps, reference tc.1 = some ps ∧ ps.length = tc.2.length
  distinct : ∀ tc ∈ typedCells cells, tc.2.Nodup
  inside : ∀ tc ∈ typedCells cells, ∀ v ∈ tc.2, v < pts.length

/-- The faces of cells are shared by at most two cells, and two cells share at most one face. -/
structure ProperFaces (fs : List (List (List ℕ))) : Prop where
  two : AtMostTwo fs
  once : ∀ i a b j c d, Shared fs i a j c → Shared fs i b j d → a = b

/-- The first of two cells with a common face. -/
def Neighbours (fs : List (List (List ℕ))) (i j : ℕ) : Prop := i < j ∧ ∃ a b, Shared fs i a j b

/-- Cell number `i` as it is written: its material, volume, boundary condition and centre. -/
structure CellOf (fl : ℝ → Flt) (pts : List (P3 ℝ)) (cells : List CellBlock) (mats : List Material) (vols : List ℝ)
    (bounds : List Bool) (i : ℕ) (c : MeshCell) : Prop where
  material : mats[i]? = some c.material
  volume : ∃ v, vols[i]? = some v ∧ c.volume = fl v
  bound : bounds[i]? = some c.bound
  center : ∃ vs p, (allCells cells)[i]? = some vs ∧ IsCenter pts vs p ∧ c.x = fl p.x ∧ c.y = fl p.y ∧ c.z = fl p.z

/-- A connection as it is written: of two cells with a common face, with the area of that face,
and direction, angle and distances between the centres and that face (see C59). -/
def ConnOf (fl : ℝ → Flt) (opt : NodalDistance) (pts : List (P3 ℝ)) (cells : List CellBlock)
    (fs : List (List (List ℕ))) (labels : List Str) (bounds : List Bool) (c : MeshConn) : Prop :=
  ∃ (i j a b : ℕ) (f : Interface) (v : List ℕ) (ps : List (P3 ℝ)) (p q s : P3 ℝ) (vs ws : List ℕ) (A : ℝ),
    labels[i]? = some c.label1 ∧ labels[j]? = some c.label2 ∧ i < j ∧ Shared fs i a j b ∧
    (allCells cells)[i]? = some vs ∧ IsCenter pts vs f.c1 ∧ (allCells cells)[j]? = some ws ∧ IsCenter pts ws f.c2 ∧
    bounds[i]? = some f.bound1 ∧ bounds[j]? = some f.bound2 ∧
    FaceAt fs i a v ∧ FaceVertices pts v ps ∧ IsArea ps A ∧ c.area = fl A ∧
    ps.take 3 = [p, q, s] ∧ f.point = p ∧ (¬ IsTriangleArea p q s 0 → IsNormal p q s f.normal) ∧
    c.isot = isot f.line ∧ c.angle = fl (angle f.line) ∧
    c.d1 = fl (nodalDistances opt f).1 ∧ c.d2 = fl (nodalDistances opt f).2

end Verif.Spec
