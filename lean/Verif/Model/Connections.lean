import Verif.Model.Mesh
import Mathlib.Data.List.Sort
import Mathlib.Data.List.Dedup
import Mathlib.Data.List.Lex

/-!
# Faces and connections

Model of `_faces`, `_get_faces` and `_connections` in
`/repo/toughio/_mesh/_properties.py` and of the choice of connections in `_write_conne`
(`/repo/toughio/_mesh/tough/_tough.py`).
-/

namespace Verif.Mesh
open Verif.Py Verif.Model

/-- `meshio_type_to_faces` (`_properties.py`, 33-57), the groups of faces of a cell put
together, triangles first. -/
def faceTable : CellType → Except PyErr (List (List ℕ))
  | .tetra => .ok [[1, 2, 3], [0, 3, 2], [0, 1, 3], [0, 2, 1]]
  | .pyramid => .ok [[0, 1, 4], [1, 2, 4], [2, 3, 4], [3, 0, 4], [0, 3, 2, 1]]
  | .wedge => .ok [[0, 2, 1], [3, 4, 5], [0, 1, 4, 3], [1, 2, 5, 4], [0, 3, 5, 2]]
  | .hexahedron => .ok [[0, 3, 2, 1], [4, 5, 6, 7], [0, 1, 5, 4], [1, 2, 6, 5], [2, 3, 7, 6], [0, 4, 7, 3]]
  | _ => .error .keyError

/-- `_faces` (`_properties.py`, 31-63): the faces of every cell. -/
def faces (cells : List CellBlock) : Except PyErr (List (List (List ℕ))) := do
  let fs ← cells.mapM fun b => b.data.mapM fun c => do
    let t ← faceTable b.type
    t.mapM (rowsAt c)
  .ok fs.flatten

/-- `numpy.full(n, x)` with the first entries overwritten by `l`. -/
def padTo {α : Type} (n : ℕ) (x : α) (l : List α) : List α := l.take n ++ List.replicate (n - l.length) x

/-- `Mesh.faces` (`_mesh.py`, 768-777): six rows of four entries for every cell, first the
triangles, then the quadrangles, filled up with −1. (Faces come from `faceTable`: at most
six, of three or four vertices.) -/
def facesArray (cells : List CellBlock) : Except PyErr (List (List (List ℤ))) := do
  let fs ← faces cells
  .ok (fs.map fun row => padTo 6 (List.replicate 4 (-1)) (row.map fun f => padTo 4 (-1) (f.map Int.ofNat)))

/-- `_get_faces` (`_properties.py`, 218-238): the faces with `n` vertices, each with the
number of its cell and its number in the cell. (Faces come from `faceTable`, so they
have three or four vertices.) -/
def getFaces (n : ℕ) (fs : List (List (List ℕ))) : List (List ℕ × ℕ × ℕ) :=
  fs.zipIdx.flatMap fun r =>
    (r.1.zipIdx.filter fun f => f.1.length = n).map fun f => (f.1, r.2, f.2)

/-- `numpy.sort` of one row. -/
def sortRow (f : List ℕ) : List ℕ := f.insertionSort (· ≤ ·)

/-- `numpy.unique(l, axis=0)`: the different rows in lexicographic order. -/
def unique {α : Type} [LinearOrder α] (l : List α) : List α :=
  l.dedup.insertionSort (· ≤ ·)

/-- The lists `tmp1` and `tmp2` of one face type, zipped (`_properties.py`, 160-174): for
every different sorted face, the cells and face numbers at which it occurs. -/
def faceGroups (occ : List (List ℕ × ℕ × ℕ)) : List (List (ℕ × ℕ)) :=
  (unique (occ.map fun o : List ℕ × ℕ × ℕ => sortRow o.1)).map fun u =>
    (occ.filter fun o => sortRow o.1 = u).map (·.2)

/-- `out[i, j] = v`. -/
def setEntry (out : List (List ℤ)) (i j : ℕ) (v : ℤ) : List (List ℤ) :=
  out.modify i fun row => row.set j v

/-- A group of two occurrences. -/
def twoOf : List (ℕ × ℕ) → Option ((ℕ × ℕ) × ℕ × ℕ)
  | [p, q] => some (p, q)
  | _ => none

/-- `_connections` (`_properties.py`, 150-184), from the faces of the cells. A face
number is below 6, so no index is out of range. -/
def connectionsOf (fs : List (List (List ℕ))) : List (List ℤ) :=
  let groups := faceGroups (getFaces 3 fs) ++ faceGroups (getFaces 4 fs)
  (groups.filterMap twoOf).foldl
    (fun out e => setEntry (setEntry out e.1.1 e.1.2 e.2.1) e.2.1 e.2.2 e.1.1)
    (List.replicate fs.length (List.replicate 6 (-1)))

/-- `Mesh.connections` (`_mesh.py`, 793-806) for a mesh with points in space. -/
def connections (cells : List CellBlock) : Except PyErr (List (List ℤ)) := do
  let fs ← faces cells
  .ok (connectionsOf fs)

/-- The loops of `_write_conne` (`tough/_tough.py`, 313-340): first cell, second cell and
face number of every connection written; `seen` is `cell_list`. -/
def connRows : List (List ℤ) → ℕ → List ℕ → List (ℕ × ℕ × ℕ)
  | [], _, _ => []
  | row :: rest, i, seen =>
    (row.zipIdx.filterMap fun e =>
      if 0 ≤ e.1 ∧ e.1.toNat ∉ seen then some (i, e.1.toNat, e.2) else none) ++
      connRows rest (i + 1) (i :: seen)

/-- The connections written to the file. -/
def writtenConnections (out : List (List ℤ)) : List (ℕ × ℕ × ℕ) := connRows out 0 []

end Verif.Mesh
