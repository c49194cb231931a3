import Verif.Model.Geometry

/-!
# Specification: meshes that are moved and scaled (C104)
-/

namespace Verif.Spec
open Verif.Py Verif.Mesh

/-- A point is scaled by `s` and moved by `v`. -/
def moved (s : ℝ) (v p : P3 ℝ) : P3 ℝ := ⟨s * p.x + v.x, s * p.y + v.y, s * p.z + v.z⟩

/-- The same mesh with all points scaled by `s` and moved by `v`. -/
structure IsMoved {D D' : Type} (s : ℝ) (v : P3 ℝ) (m : Mesh.Mesh ℝ D) (m' : Mesh.Mesh ℝ D') : Prop where
  points : m'.points = m.points.map (moved s v)
  cells : m'.cells = m.cells

/-- A distance is scaled unless the cell is at the boundary, which has a fixed distance. -/
def DistScaled (s : ℝ) (bound : Option Bool) (d d' : ℝ) : Prop :=
  (bound = some false ∧ d' = s * d) ∨ (bound = some true ∧ d' = d)

/-- Two rows of a connection, the second one in the mesh that was scaled by `s`. -/
structure RowScaled (s : ℝ) (bounds : List Bool) (r r' : ConnRow) : Prop where
  cell1 : r'.cell1 = r.cell1
  cell2 : r'.cell2 = r.cell2
  isot : r'.isot = r.isot
  d1 : DistScaled s bounds[r.cell1]? r.d1 r'.d1
  d2 : DistScaled s bounds[r.cell2]? r.d2 r'.d2
  area : r'.area = s ^ 2 * r.area
  angle : r'.angle = r.angle

end Verif.Spec
