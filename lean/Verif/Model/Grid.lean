import Verif.Model.Mesh
import Mathlib.Algebra.Order.Group.Abs

/-!
# Structured and cylindrical grids, volumes

Model of `/repo/toughio/meshmaker/_structured_grid.py`, `_cylindric_grid.py` and of
`_volumes` in `/repo/toughio/_mesh/_properties.py`. The checks of argument types are
left out: sizes and origins are lists of numbers.
-/

namespace Verif.Mesh
open Verif.Py Verif.Model

/-- The memory order `"C"` or `"F"`. -/
inductive Order
  | C | F
  deriving DecidableEq

/-- `numpy.meshgrid(x, y, z, indexing="ij")` raveled, as triples
(`_structured_grid.py`, 80-82). -/
def grid3 {α β γ : Type} (order : Order) (xs : List α) (ys : List β) (zs : List γ) :
    List (α × β × γ) :=
  match order with
  | .C => xs.flatMap fun x => ys.flatMap fun y => zs.map fun z => (x, y, z)
  | .F => zs.flatMap fun z => ys.flatMap fun y => xs.map fun x => (x, y, z)

/-- The same in 2D (`_structured_grid.py`, 133-135). -/
def grid2 {α β : Type} (order : Order) (xs : List α) (ys : List β) : List (α × β) :=
  match order with
  | .C => xs.flatMap fun x => ys.map fun y => (x, y)
  | .F => ys.flatMap fun y => xs.map fun x => (x, y)

/-- `numpy.ravel_multi_index` for a shape of three axes; indices out of range are
refused. -/
def ravel3 (order : Order) (n1 n2 n3 : ℕ) (v : ℕ × ℕ × ℕ) : Except PyErr ℕ :=
  if v.1 < n1 ∧ v.2.1 < n2 ∧ v.2.2 < n3 then
    match order with
    | .C => .ok ((v.1 * n2 + v.2.1) * n3 + v.2.2)
    | .F => .ok (v.1 + n1 * (v.2.1 + n2 * v.2.2))
  else .error .valueError

/-- `numpy.ravel_multi_index` for a shape of two axes. -/
def ravel2 (order : Order) (n1 n2 : ℕ) (v : ℕ × ℕ) : Except PyErr ℕ :=
  if v.1 < n1 ∧ v.2 < n2 then
    match order with
    | .C => .ok (v.1 * n2 + v.2)
    | .F => .ok (v.1 + n1 * v.2)
  else .error .valueError

/-- `mesh_vertices` (`_structured_grid.py`, 84-94). -/
def meshVertices3 (v : ℕ × ℕ × ℕ) : List (ℕ × ℕ × ℕ) :=
  let (i, j, k) := v
  [(i, j, k), (i + 1, j, k), (i + 1, j + 1, k), (i, j + 1, k),
    (i, j, k + 1), (i + 1, j, k + 1), (i + 1, j + 1, k + 1), (i, j + 1, k + 1)]

/-- `mesh_vertices` in 2D (`_structured_grid.py`, 137-143). -/
def meshVertices2 (v : ℕ × ℕ) : List (ℕ × ℕ) :=
  let (i, j) := v
  [(i, j), (i + 1, j), (i + 1, j + 1), (i, j + 1)]

/-- One step of the reordering loop, `cells[i1:i2] = cells[i2 - 1 : i1 - 1 : -1]`
(`_structured_grid.py`, 119-122). (If `n2` is zero there are no cells and the
slice is empty.) -/
def reverseBlock {α : Type} (n2 : ℕ) (cells : List α) (i : ℕ) : List α :=
  let i1 := i * n2
  let i2 := i1 + n2
  cells.take i1 ++ ((cells.take i2).drop i1).reverse ++ cells.drop i2

section
variable {K : Type} [Field K] [LinearOrder K]

/-- `numpy.cumsum(numpy.r_[0, ar])`. -/
def edges (d : List K) : List K := cumsum (0 :: d)

/-- `_grid_3d` (`_structured_grid.py`, 77-127). -/
def grid3d (dx dy dz : List K) (order : Order) : Except PyErr (List (P3 K) × List (List ℕ)) := do
  let nx := dx.length
  let ny := dy.length
  let nz := dz.length
  let points := (grid3 order (edges dx) (edges dy) (edges dz)).map fun p => (⟨p.1, p.2.1, p.2.2⟩ : P3 K)
  let cells ← (grid3 order (List.range nx) (List.range ny) (List.range nz)).mapM fun v =>
    (meshVertices3 v).mapM (ravel3 order (nx + 1) (ny + 1) (nz + 1))
  let cells := match order with
    | .F => cells.reverse
    | .C => cells
  let n1 := match order with
    | .F => nz
    | .C => nx * ny
  let n2 := match order with
    | .F => nx * ny
    | .C => nz
  .ok (points, (List.range n1).foldl (reverseBlock n2) cells)

/-- `_grid_2d` (`_structured_grid.py`, 130-162). -/
def grid2d (dx dy : List K) (order : Order) : Except PyErr (List (K × K) × List (List ℕ)) := do
  let nx := dx.length
  let ny := dy.length
  let points := grid2 order (edges dx) (edges dy)
  let cells ← (grid2 order (List.range nx) (List.range ny)).mapM fun v =>
    (meshVertices2 v).mapM (ravel2 order (nx + 1) (ny + 1))
  .ok (points, cells)

/-- The mesh made from points and cells (`_structured_grid.py`, 70-74). -/
def gridMesh (points : List (P3 K)) (type : CellType) (cells : List (List ℕ)) (material : Str) :
    Mesh K ℤ where
  points := points
  cells := [⟨type, cells⟩]
  pointData := []
  cellData := [("material".toList, List.replicate cells.length 1)]
  fieldData := [(material, 1, 3)]

/-- `structured_grid` (`_structured_grid.py`, 10-74). -/
def structuredGrid (dx dy : List K) (dz : Option (List K)) (origin : Option (List K)) (layer : Bool)
    (material : Str) : Except PyErr (Mesh K ℤ) :=
  let order : Order := if layer then .F else .C
  match dz with
  | none => do
    let (points, cells) ← grid2d dx dy order
    let o ← match origin with
      | none => .ok (0, 0)
      | some [a, b] => .ok (a, b)
      | some _ => .error .valueError
    .ok (gridMesh (points.map fun p => ⟨p.1 + o.1, p.2 + o.2, 0⟩) .quad cells material)
  | some dz => do
    let (points, cells) ← grid3d dx dy dz order
    let o ← match origin with
      | none => .ok (⟨0, 0, -dz.sum⟩ : P3 K)
      | some [a, b, c] => .ok ⟨a, b, c⟩
      | some _ => .error .valueError
    .ok (gridMesh (points.map fun p => ⟨p.x + o.x, p.y + o.y, p.z + o.z⟩) .hexahedron cells material)

/-! ## Volumes -/

/-- `meshio_type_to_tetra` (`_properties.py`, 118-125). -/
def tetras : CellType → Except PyErr (List (List ℕ))
  | .tetra => .ok [[0, 1, 2, 3]]
  | .pyramid => .ok [[0, 1, 3, 4], [1, 2, 3, 4]]
  | .wedge => .ok [[0, 1, 2, 5], [0, 1, 4, 5], [0, 3, 4, 5]]
  | .hexahedron => .ok [[0, 1, 3, 4], [1, 4, 5, 6], [1, 2, 3, 6], [3, 4, 6, 7], [1, 3, 4, 6]]
  | _ => .error .keyError

/-- Difference of points. -/
def P3.sub (p q : P3 K) : P3 K := ⟨p.x - q.x, p.y - q.y, p.z - q.z⟩

/-- `_cross` (`_properties.py`, 251-253). -/
def cross (a b : P3 K) : P3 K :=
  ⟨a.y * b.z - a.z * b.y, a.z * b.x - a.x * b.z, a.x * b.y - a.y * b.x⟩

/-- `_scalar_triple_product` (`_properties.py`, 256-258). -/
def tripleProduct (a b c : P3 K) : K :=
  let d := cross b c
  a.x * d.x + a.y * d.y + a.z * d.z

/-- The volume of one cell (`_properties.py`, 127-146). -/
def cellVolume (pts : List (P3 K)) (ts : List (List ℕ)) (c : List ℕ) : Except PyErr K := do
  let vs ← ts.mapM fun t => do
    let tt ← rowsAt c t
    let ps ← rowsAt pts tt
    match ps with
    | [p0, p1, p2, p3] => .ok |tripleProduct (p1.sub p0) (p2.sub p0) (p3.sub p0)|
    | _ => .error .indexError
  .ok (vs.sum / 6)

/-- `_volumes` (`_properties.py`, 116-147). `numpy.vstack` and `numpy.concatenate`
refuse an empty list. -/
def volumes {D : Type} (m : Mesh K D) : Except PyErr (List K) :=
  if m.cells = [] then .error .valueError
  else do
    let vs ← m.cells.mapM fun b =>
      if b.data = [] then .error .valueError
      else do
        let ts ← tetras b.type
        b.data.mapM (cellVolume m.points ts)
    .ok vs.flatten

/-! ## Cylindrical grids -/

/-- `CylindricMesh` (`_cylindric_grid.py`, 11-27). -/
structure CylMesh (K : Type) where
  mesh : Mesh K ℤ
  dr : List K
  /-- From top to bottom. -/
  dz : List K
  layer : Bool

/-- `cylindric_grid` (`_cylindric_grid.py`, 76-134). -/
def cylindricGrid (dr dz : List K) (originZ : Option K) (layer : Bool) (material : Str) :
    Except PyErr (CylMesh K) :=
  if ¬ ∀ r ∈ dr, 0 < r then .error .valueError
  else if ¬ ∀ z ∈ dz, 0 < z then .error .valueError
  else do
    let oz := match originZ with
      | some z => z
      | none => -dz.sum
    let mesh ← structuredGrid dr [1] (some dz) (some [0, -(1 / 2), oz]) layer material
    .ok ⟨mesh, dr, dz.reverse, layer⟩

/-- `numpy.tile(a, n)`. -/
def tile {α : Type} (a : List α) (n : ℕ) : List α := (List.replicate n a).flatten

/-- `_get_areas_heights` (`_cylindric_grid.py`, 29-38). `pi` is `numpy.pi`. -/
def areasHeights (pi : K) (m : CylMesh K) : Except PyErr (List K × List K) :=
  let r2 := (cumsum m.dr).map (· ^ 2)
  match r2 with
  | [] => .error .indexError
  | r0 :: rest =>
    let rings := r0 :: List.zipWith (· - ·) rest r2
    .ok ((tile rings m.dz.length).map (· * pi), m.dz.flatMap fun h => List.replicate m.dr.length h)

/-- `out.reshape((nz, nr)).ravel(order="F")`: the element in row `i` and column `j` is
number `i * nr + j` of `out`. -/
def ravelF {α : Type} (nz nr : ℕ) (out : List α) : Except PyErr (List α) :=
  (grid2 .F (List.range nz) (List.range nr)).mapM fun v =>
    match out[v.1 * nr + v.2]? with
    | some a => .ok a
    | none => .error .valueError

/-- `CylindricMesh.volumes` (`_cylindric_grid.py`, 66-73). -/
def cylVolumes (pi : K) (m : CylMesh K) : Except PyErr (List K) := do
  let (areas, heights) ← areasHeights pi m
  let out := List.zipWith (· * ·) areas heights
  if m.layer then .ok out else ravelF m.dz.length m.dr.length out

/-- `CylindricMesh.face_areas` (`_cylindric_grid.py`, 40-64). A row of `out` is the list
of the six areas; `.reshape((nz * nr, 6), order="F")` reorders the rows like `ravelF`. -/
def cylFaceAreas (pi : K) (m : CylMesh K) : Except PyErr (List (List K)) := do
  let nz := m.dz.length
  let dr := 0 :: m.dr
  let perimetersIn := (tile (cumsum dr.dropLast) nz).map (· * 2 * pi)
  let perimetersOut := (tile (cumsum dr.tail) nz).map (· * 2 * pi)
  let (areas, heights) ← areasHeights pi m
  let sections := List.zipWith (· * ·) (tile m.dr nz) heights
  let outer := List.zipWith (· * ·) perimetersOut heights
  let inner := List.zipWith (· * ·) perimetersIn heights
  let out := (areas.zip (sections.zip (outer.zip inner))).map fun r =>
    [r.1, r.1, r.2.1, r.2.2.1, r.2.1, r.2.2.2]
  if m.layer then .ok out else ravelF nz m.dr.length out

end

end Verif.Mesh
