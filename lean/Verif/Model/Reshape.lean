import Verif.Model.Connections
import Verif.Model.Grid

/-!
# Extruding and pruning meshes

Model of `Mesh.extrude_to_3d` and `Mesh.prune_duplicates` in
`/repo/toughio/_mesh/_mesh.py`. With `inplace` the mesh is replaced by the result; the
functions below give the result.
-/

namespace Verif.Mesh
open Verif.Py Verif.Model

section Extrude
variable {K : Type} [Field K] [LinearOrder K]

/-- The points of a mesh: `(n, 2)` or `(n, 3)` arrays. -/
inductive Points (K : Type)
  | two (ps : List (K × K))
  | three (ps : List (P3 K))

/-- The axis of extrusion. -/
inductive Axis
  | x | y | z
  deriving DecidableEq

/-- `axis not in [0, 1, 2]` (`_mesh.py`, 117-118). -/
def toAxis (n : ℤ) : Except PyErr Axis :=
  if n = 0 then .ok .x else if n = 1 then .ok .y else if n = 2 then .ok .z else .error .valueError

/-- `points[:, axis]` of one point. -/
def coord (axis : Axis) (p : P3 K) : K :=
  match axis with
  | .x => p.x
  | .y => p.y
  | .z => p.z

/-- `points[:, axis] += h` for one point. -/
def shift (axis : Axis) (h : K) (p : P3 K) : P3 K :=
  match axis with
  | .x => { p with x := p.x + h }
  | .y => { p with y := p.y + h }
  | .z => { p with z := p.z + h }

/-- A point of the plane put into space with coordinate zero along the axis
(`_mesh.py`, 127-129): for the axes 0 and 1 the columns are exchanged. -/
def lift (axis : Axis) (p : K × K) : P3 K :=
  match axis with
  | .x => ⟨0, p.2, p.1⟩
  | .y => ⟨p.1, 0, p.2⟩
  | .z => ⟨p.1, p.2, 0⟩

/-- The points at the first level (`_mesh.py`, 123-129). -/
def basePoints (axis : Axis) : Points K → Except PyErr (List (P3 K))
  | .three ps => if (ps.map (coord axis)).dedup.length ≠ 1 then .error .valueError else .ok ps
  | .two ps => .ok (ps.map (lift axis))

/-- The loop that stacks the points (`_mesh.py`, 131-134). -/
def stackPoints (axis : Axis) : List K → List (P3 K) → List (P3 K) → List (P3 K)
  | [], pts, _ => pts
  | h :: hs, pts, extra =>
    let extra := extra.map (shift axis h)
    stackPoints axis hs (pts ++ extra) extra

/-- `extruded_types` (`_mesh.py`, 142-145). -/
def extrudedType : CellType → Option CellType
  | .triangle => some .wedge
  | .quad => some .hexahedron
  | _ => none

/-- The cells of an extruded block (`_mesh.py`, 151-156): `nh` copies of the rows doubled,
the two halves of copy `i` moved by `i * npts` and `(i + 1) * npts`. -/
def extrudeRows (npts nh : ℕ) (data : List (List ℕ)) : List (List ℕ) :=
  (List.range nh).flatMap fun i =>
    data.map fun c => c.map (· + i * npts) ++ c.map (· + (i + 1) * npts)

/-- The pieces of a cell data array (`_mesh.py`, 148, 159-164): pieces of extruded blocks
are repeated, the other ones stay. -/
def extrudePieces {D : Type} (nh : ℕ) : List CellBlock → List (List D) → List (List D)
  | b :: bs, v :: vs =>
    (match extrudedType b.type with
      | some _ => tile v nh
      | none => v) :: extrudePieces nh bs vs
  | _, vs => vs

/-- `Mesh.extrude_to_3d` (`_mesh.py`, 98-174) with a list of heights (a single height is
made a list in line 120). The points of `m` are ignored in favour of `points`. -/
def extrude {D : Type} (points : Points K) (m : Mesh K D) (height : List K) (axis : ℤ) :
    Except PyErr (Mesh K D) := do
  let ax ← toAxis axis
  let base ← basePoints ax points
  let npts := base.length
  let nh := height.length
  let cellData ← m.cellData.mapM fun kv => do
    let ps ← split m.cells kv.2
    .ok (kv.1, (extrudePieces nh m.cells ps).flatten)
  .ok { points := stackPoints ax height base base
        cells := m.cells.filterMap fun b => (extrudedType b.type).map fun t =>
          ⟨t, extrudeRows npts nh b.data⟩
        pointData := m.pointData.map fun kv => (kv.1, tile kv.2 (nh + 1))
        cellData := cellData
        fieldData := m.fieldData.map fun kv => (kv.1, kv.2.1, 3) }

end Extrude

section Prune
variable {K : Type} [LinearOrder K]

/-- A point as a row. -/
def P3.row (p : P3 K) : List K := [p.x, p.y, p.z]

theorem P3.row_injective : Function.Injective (P3.row (K := K)) := by
  intro p q h
  simp only [P3.row, List.cons.injEq, and_true] at h
  exact P3.ext h.1 h.2.1 h.2.2

/-- `numpy.unique(points, axis=0)` orders rows lexicographically. -/
instance : LinearOrder (P3 K) := LinearOrder.lift' P3.row P3.row_injective

/-- The index array of `numpy.unique(l, axis=0, return_index=True)`: for every different
row the place of its first occurrence. -/
def uniqueIndex {α : Type} [LinearOrder α] (l : List α) : List ℕ := (unique l).map (l.idxOf ·)

/-- The inverse array of `numpy.unique(l, axis=0, return_inverse=True)`. -/
def uniqueInverse {α : Type} [LinearOrder α] (l : List α) : List ℕ := l.map ((unique l).idxOf ·)

/-- `order` (`_mesh.py`, 215-216). -/
def cellOrder (data : List (List ℕ)) : List ℕ := uniqueIndex (data.map sortRow)

/-- The cells of a block with duplicates removed (`_mesh.py`, 217). -/
def pruneRows (data : List (List ℕ)) : Except PyErr (List (List ℕ)) := rowsAt data (cellOrder data)

/-- The pieces of a cell data array (`_mesh.py`, 218-219). -/
def prunePieces {D : Type} : List CellBlock → List (List D) → Except PyErr (List (List D))
  | b :: bs, v :: vs => do
    let v' ← rowsAt v (cellOrder b.data)
    let vs' ← prunePieces bs vs
    .ok (v' :: vs')
  | _, vs => .ok vs

/-- The part of `Mesh.prune_duplicates` that removes duplicate points (`_mesh.py`,
196-210). -/
def prunePoints {D : Type} (m : Mesh K D) : Except PyErr (Mesh K D) :=
  if (unique m.points).length < m.points.length then do
    let pd ← m.pointData.mapM fun kv => do
      let v ← rowsAt kv.2 (uniqueIndex m.points)
      .ok (kv.1, v)
    let cells ← m.cells.mapM fun b => do
      let d ← b.data.mapM (rowsAt (uniqueInverse m.points))
      .ok (⟨b.type, d⟩ : CellBlock)
    .ok { m with points := unique m.points, pointData := pd, cells := cells }
  else .ok m

/-- The part of `Mesh.prune_duplicates` that removes duplicate cells (`_mesh.py`,
212-221). -/
def pruneCells {D : Type} (m : Mesh K D) : Except PyErr (Mesh K D) := do
  let cellData ← m.cellData.mapM fun kv => do
    let ps ← split m.cells kv.2
    let ps ← prunePieces m.cells ps
    .ok (kv.1, ps.flatten)
  let cells ← m.cells.mapM fun b => do
    let d ← pruneRows b.data
    .ok (⟨b.type, d⟩ : CellBlock)
  .ok { m with cells := cells, cellData := cellData }

/-- `Mesh.prune_duplicates` (`_mesh.py`, 176-224). -/
def prune {D : Type} (m : Mesh K D) : Except PyErr (Mesh K D) := do
  let m ← prunePoints m
  pruneCells m

end Prune

end Verif.Mesh
