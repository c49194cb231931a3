import Verif.Model.Geometry

/-!
# Specification: meshes that are turned about the vertical (C107)
-/

namespace Verif.Spec
open Verif.Py Verif.Mesh

/-- A point is turned about the vertical axis by the angle with cosine `c` and sine `s`. -/
def spun (c s : ℝ) (p : P3 ℝ) : P3 ℝ := ⟨c * p.x - s * p.y, s * p.x + c * p.y, p.z⟩

/-- All points of `m'` are those of `m`, turned; the cells are the same. -/
structure IsSpun {D D' : Type} (c s : ℝ) (m : Mesh.Mesh ℝ D) (m' : Mesh.Mesh ℝ D') : Prop where
  circle : c ^ 2 + s ^ 2 = 1
  points : m'.points = m.points.map (spun c s)
  cells : m'.cells = m.cells

/-- Two rows of a connection, the second one in the mesh that was turned: all but the horizontal
direction is the same. -/
structure RowSpun (r r' : ConnRow) : Prop where
  cell1 : r'.cell1 = r.cell1
  cell2 : r'.cell2 = r.cell2
  vertical : r'.isot = 3 ↔ r.isot = 3
  d1 : r'.d1 = r.d1
  d2 : r'.d2 = r.d2
  area : r'.area = r.area
  angle : r'.angle = r.angle

end Verif.Spec
