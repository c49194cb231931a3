import Verif.Model.Flac3d
import Verif.Model.Output

/-!
# Conversion from and to pyvista

Model of `Mesh.to_pyvista` and `from_pyvista` (`/repo/toughio/_mesh/_mesh.py`, 283-346 and
907-1003) and of the tables of cell types (`/repo/toughio/_mesh/_common.py`, 6-80).

A `pyvista.UnstructuredGrid` is a record of its arrays. `cells` has for every cell the
number of its vertices and the vertices. Before VTK 9 `offset` holds the places of the cells
in `cells`; from VTK 9 on it holds their places in the array of vertices without the
numbers, with the length of that array at the end, and VTK finds it out from `cells`.

Simplifications: points have three coordinates; a data array has one row of an arbitrary
type for every point or cell, `num` makes such a row of a material number; that point data
become floats is left out; pyvista takes arrays of any length.
-/

namespace Verif.Mesh
open Verif.Py Verif.Model

/-- `vtk_to_meshio_type` (`_common.py`, 6-46). -/
def vtkTypes : List (ℕ × CellType) :=
  [(0, .other "empty".toList), (1, .other "vertex".toList), (3, .other "line".toList), (5, .triangle),
    (7, .other "polygon".toList), (9, .quad), (10, .tetra), (12, .hexahedron), (13, .wedge), (14, .pyramid),
    (15, .other "penta_prism".toList), (16, .other "hexa_prism".toList), (21, .other "line3".toList),
    (22, .other "triangle6".toList), (23, .other "quad8".toList), (24, .other "tetra10".toList),
    (25, .other "hexahedron20".toList), (26, .other "wedge15".toList), (27, .other "pyramid13".toList),
    (28, .other "quad9".toList), (29, .other "hexahedron27".toList), (30, .other "quad6".toList),
    (31, .other "wedge12".toList), (32, .other "wedge18".toList), (33, .other "hexahedron24".toList),
    (34, .other "triangle7".toList), (35, .other "line4".toList)]

/-- `meshio_to_vtk_type` (`_common.py`, 47). -/
def vtkCodes : List (CellType × ℕ) := vtkTypes.map fun e => (e.2, e.1)

/-- `vtk_type_to_numnodes` (`_common.py`, 50-80). -/
def vtkNodes : List (ℕ × ℕ) :=
  [(0, 0), (1, 1), (3, 2), (5, 3), (9, 4), (10, 4), (12, 8), (13, 6), (14, 5), (15, 10), (16, 12), (21, 3), (22, 6),
    (23, 8), (24, 10), (25, 20), (26, 15), (27, 13), (28, 9), (29, 27), (30, 6), (31, 12), (32, 18), (33, 24), (34, 7),
    (35, 4)]

/-- A `pyvista.UnstructuredGrid`. -/
structure VtkGrid (K D : Type) where
  offset : List ℕ
  cells : List ℕ
  types : List ℕ
  points : List (P3 K)
  pointArrays : List (Str × List D)
  cellArrays : List (Str × List D)
  deriving DecidableEq

/-- The loop of `to_pyvista` (`_mesh.py`, 306-321), from the offsets so far and
`next_offset`; it returns offsets, cells and types. -/
def vtkLoop (v9 : Bool) : List CellBlock → List ℕ → ℕ → Except PyErr (List ℕ × List ℕ × List ℕ)
  | [], offset, _ => .ok (offset, [], [])
  | b :: r, offset, next => do
    let t ← dictGet vtkCodes b.type
    let n ← dictGet vtkNodes t
    let (offset, next) ←
      if v9 then .ok (offset, next)
      else
        let offset := offset ++ (List.range b.data.length).map fun i => next + i * (n + 1)
        match offset.getLast? with
        | some l => .ok (offset, l + n + 1)
        | none => .error .indexError
    let (o, cs, ts) ← vtkLoop v9 r offset next
    .ok (o, (b.data.flatMap fun c => n :: c) ++ cs, List.replicate b.data.length t ++ ts)

/-- The offsets of VTK 9: the places of `k` cells in the array of vertices, from `o` on. -/
def connOffsets : ℕ → ℕ → List ℕ → List ℕ
  | 0, o, _ => [o]
  | _ + 1, o, [] => [o]
  | k + 1, o, n :: r => o :: connOffsets k (o + n) (r.drop n)

section Convert
variable {K D : Type}

/-- `Mesh.to_pyvista` (`_mesh.py`, 283-346). `numpy.concatenate` refuses an empty list. -/
def toPyvista (v9 : Bool) (m : Mesh K D) : Except PyErr (VtkGrid K D) := do
  let (o, cs, ts) ← vtkLoop v9 m.cells [] 0
  if m.cells = [] then .error .valueError
  else .ok ⟨if v9 then connOffsets ts.length 0 cs else o, cs, ts, m.points, m.pointData, m.cellData⟩

/-- One cell of `from_pyvista` (`_mesh.py`, 948-968); `c` is the number of cells before it. -/
def vtkCell (v9 : Bool) (cells : List ℕ) (c offset type : ℕ) : Except PyErr (CellType × List ℕ) := do
  let numnodes ← rowAt cells offset
  let start := if v9 then offset + 1 + c else offset + 1
  let cell := (cells.take (start + numnodes)).drop start
  let cell ←
    if type = 8 then rowsAt cell [0, 1, 3, 2]
    else if type = 11 then rowsAt cell [0, 1, 3, 2, 4, 5, 7, 6]
    else .ok cell
  let type := if type = 8 ∨ type = 11 then type + 1 else type
  let t ← if type ≠ 7 then dictGet vtkTypes type else .ok (.other ("polygon".toList ++ natStr numnodes))
  .ok (t, cell)

/-- `k.replace(" ", "_")`. -/
def blankless (k : Str) : Str := k.map fun c => if c = ' ' then '_' else c

/-- `{k.replace(" ", "_"): v for k, v in arrays.items()}` (`_mesh.py`, 979-982). -/
def vtkArrays (d : List (Str × List D)) : List (Str × List D) :=
  d.foldl (fun r e => dictSet r (blankless e.1) e.2) []

/-- `from_pyvista` (`_mesh.py`, 907-1003). The blocks are put together as by
`_update_cells` of FLAC3D (`_mesh.py`, 970-973). An array with rows of different lengths is
refused, as by numpy from version 1.24 on. -/
def fromPyvista (v9 : Bool) (num : ℤ → D) (material : Str) (g : VtkGrid K D) : Except PyErr (Mesh K D) :=
  if ¬ ∀ t ∈ g.types, t ∈ vtkTypes.map (·.1) ∨ t = 8 ∨ t = 11 then .error .valueError
  else do
    let cs ← (g.offset.zip g.types).zipIdx.mapM fun e => vtkCell v9 g.cells e.2 e.1.1 e.1.2
    let blocks := (cs.foldl (fun acc e => flacAdd e.1 e.2 acc) []).reverse
    if ¬ ∀ b ∈ blocks, rectangular b.data = true then .error .valueError
    else
      let m : Mesh K D := ⟨g.points, blocks, vtkArrays g.pointArrays, vtkArrays g.cellArrays, []⟩
      if "material".toList ∈ m.cellData.map (·.1) then .ok m
      else .ok { m with
        cellData := dictSet m.cellData "material".toList (List.replicate (nCells blocks) (num 1))
        fieldData := [(material, 1, 3)] }

end Convert

end Verif.Mesh
