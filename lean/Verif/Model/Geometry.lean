import Verif.Model.Connections
import Verif.Model.Grid
import Mathlib.Data.Real.Sqrt

/-!
# Faces and connections in space

Model of `_face_normals`, `_face_areas`, `_qualities` in
`/repo/toughio/_mesh/_properties.py` and of the quantities computed by `_write_conne`
(`/repo/toughio/_mesh/tough/_tough.py`). Coordinates are real numbers. Where numpy
divides by zero (a face without area, two cells with the same centre, an interface
parallel to the line between the centres) and goes on with NaN or an infinity, the
model has the value zero; no statement is made about these cases.
-/

namespace Verif.Mesh
open Verif.Py Verif.Model

/-- `numpy.dot` of two vectors, and `_dot` (`_tough.py`, 442-444). -/
def dot (a b : P3 ℝ) : ℝ := a.x * b.x + a.y * b.y + a.z * b.z

/-- `numpy.linalg.norm`. -/
noncomputable def norm3 (a : P3 ℝ) : ℝ := √(dot a a)

/-- `a * k`. -/
def scale (k : ℝ) (a : P3 ℝ) : P3 ℝ := ⟨a.x * k, a.y * k, a.z * k⟩

/-- `a + b`. -/
def P3.plus (a b : P3 ℝ) : P3 ℝ := ⟨a.x + b.x, a.y + b.y, a.z + b.z⟩

/-- `_get_triangle_normals` for one face (`_properties.py`, 241-248). -/
noncomputable def triangleNormal (pts : List (P3 ℝ)) (islice f : List ℕ) : Except PyErr (P3 ℝ) := do
  let t ← rowsAt f islice
  let ps ← rowsAt pts t
  match ps with
  | [p0, p1, p2] => .ok (cross (p1.sub p0) (p2.sub p0))
  | _ => .error .indexError

/-- The faces in the order of `faces_dict`: all triangles, then all quadrangles. -/
def facesInOrder (fs : List (List (List ℕ))) : List (List ℕ × ℕ × ℕ) :=
  getFaces 3 fs ++ getFaces 4 fs

/-- `out = [[] for _ in range(n)]`, then `out[i].append(x)` for all pairs
(`_properties.py`, 79-83, 109-113). -/
def gather {α : Type} (n : ℕ) (l : List (ℕ × α)) : List (List α) :=
  l.foldl (fun out e => out.modify e.1 (· ++ [e.2])) (List.replicate n [])

/-- `_face_normals` (`_properties.py`, 66-83). Nothing can be concatenated for a mesh
without faces. -/
noncomputable def faceNormals (pts : List (P3 ℝ)) (fs : List (List (List ℕ))) :
    Except PyErr (List (List (P3 ℝ))) :=
  if facesInOrder fs = [] then .error .valueError
  else do
    let normals ← (facesInOrder fs).mapM fun o => triangleNormal pts [0, 1, 2] o.1
    let units := normals.map fun v => scale (1 / norm3 v) v
    .ok (gather fs.length (((facesInOrder fs).map (·.2.1)).zip units))

/-- The area of one face (`_properties.py`, 90-105): for a quadrangle a second triangle
is added. -/
noncomputable def faceArea (pts : List (P3 ℝ)) (f : List ℕ) : Except PyErr ℝ := do
  let v ← triangleNormal pts [0, 1, 2] f
  if f.length = 4 then do
    let w ← triangleNormal pts [0, 2, 3] f
    .ok ((norm3 v + norm3 w) * 0.5)
  else .ok (norm3 v * 0.5)

/-- `_face_areas` (`_properties.py`, 86-113). -/
noncomputable def faceAreas (pts : List (P3 ℝ)) (fs : List (List (List ℕ))) :
    Except PyErr (List (List ℝ)) :=
  if facesInOrder fs = [] then .error .valueError
  else do
    let areas ← (facesInOrder fs).mapM fun o => faceArea pts o.1
    .ok (gather fs.length (((facesInOrder fs).map (·.2.1)).zip areas))

/-! ## Connections -/

/-- What is known of a connection: the two centres, a point and the normal vector of
the common face, its area, and whether the cells are at the boundary
(`_tough.py`, 317-340). -/
structure Interface where
  c1 : P3 ℝ
  c2 : P3 ℝ
  point : P3 ℝ
  normal : P3 ℝ
  area : ℝ
  bound1 : Bool
  bound2 : Bool

/-- `lines` (`_tough.py`, 348). -/
noncomputable def Interface.line (f : Interface) : P3 ℝ := f.c2.sub f.c1

/-- `_isot` (`_tough.py`, 425-439). -/
noncomputable def isot (l : P3 ℝ) : ℕ :=
  let mask := [decide (l.x ≠ 0), decide (l.y ≠ 0), decide (l.z ≠ 0)]
  if mask.count true = 1 then mask.idxOf true + 1 else 1

/-- `angles` (`_tough.py`, 350) with `gravity = [0, 0, -1]`. -/
noncomputable def angle (l : P3 ℝ) : ℝ := dot l ⟨0, 0, -1⟩ / norm3 l

/-- `_intersection_line_plane` (`_tough.py`, 403-411). -/
noncomputable def lineMeetsPlane (c l p n : P3 ℝ) : P3 ℝ :=
  c.plus (scale (dot (p.sub c) n / dot l n) l)

/-- `_distance_point_plane` (`_tough.py`, 414-422). -/
noncomputable def pointToPlane (c p n : P3 ℝ) (mask : Bool) : ℝ :=
  if mask then 1e-9 else |dot (c.sub p) n|

/-- The option `nodal_distance`. -/
inductive NodalDistance
  | line | orthogonal
  deriving DecidableEq

/-- `d1` and `d2` (`_tough.py`, 352-362). -/
noncomputable def nodalDistances (opt : NodalDistance) (f : Interface) : ℝ × ℝ :=
  match opt with
  | .line =>
    let fp := lineMeetsPlane f.c1 f.line f.point f.normal
    (if f.bound1 then 1e-9 else norm3 (f.c1.sub fp), if f.bound2 then 1e-9 else norm3 (f.c2.sub fp))
  | .orthogonal =>
    (pointToPlane f.c1 f.point f.normal f.bound1, pointToPlane f.c2 f.point f.normal f.bound2)

/-- The entry of a list, `IndexError` beyond the end. -/
def itemAt {α : Type} (l : List α) (i : ℕ) : Except PyErr α :=
  match l[i]? with
  | some x => .ok x
  | none => .error .indexError

/-- The interface of one connection (`_tough.py`, 320-336): cells `i` and `j`, face `a`
of cell `i`. -/
noncomputable def interfaceOf (pts nodes : List (P3 ℝ)) (fs : List (List (List ℕ)))
    (normals : List (List (P3 ℝ))) (areas : List (List ℝ)) (bounds : List Bool)
    (w : ℕ × ℕ × ℕ) : Except PyErr Interface := do
  let c1 ← itemAt nodes w.1
  let c2 ← itemAt nodes w.2.1
  let row ← itemAt fs w.1
  let face ← itemAt row w.2.2
  let v ← itemAt face 0
  let p ← itemAt pts v
  let ns ← itemAt normals w.1
  let n ← itemAt ns w.2.2
  let as ← itemAt areas w.1
  let a ← itemAt as w.2.2
  let b1 ← itemAt bounds w.1
  let b2 ← itemAt bounds w.2.1
  .ok ⟨c1, c2, p, n, a, b1, b2⟩

/-- What is written of a connection: the cells, `ISOT`, the two distances, the area and
`BETAX`. -/
structure ConnRow where
  cell1 : ℕ
  cell2 : ℕ
  isot : ℕ
  d1 : ℝ
  d2 : ℝ
  area : ℝ
  angle : ℝ

/-- The rows of `_write_conne` (`_tough.py`, 311-366) for the table of connections
`out`, with the normal vectors and areas of the faces. Without any connection
`numpy.diff(centers, axis=1)` fails (`AxisError` is a `ValueError`). -/
noncomputable def connRowsOf (opt : NodalDistance) (pts nodes : List (P3 ℝ)) (fs : List (List (List ℕ)))
    (normals : List (List (P3 ℝ))) (areas : List (List ℝ)) (bounds : List Bool) : Except PyErr (List ConnRow) := do
  let ws := writtenConnections (connectionsOf fs)
  let is ← ws.mapM (interfaceOf pts nodes fs normals areas bounds)
  if ws = [] then .error .valueError
  else .ok (List.zipWith (fun w (f : Interface) =>
    ⟨w.1, w.2.1, isot f.line, (nodalDistances opt f).1, (nodalDistances opt f).2, f.area,
      angle f.line⟩) ws is)

/-- The rows with `mesh.face_normals` and `mesh.face_areas` (`_tough.py`, 70-73). -/
noncomputable def conneRows (opt : NodalDistance) (pts nodes : List (P3 ℝ))
    (fs : List (List (List ℕ))) (bounds : List Bool) : Except PyErr (List ConnRow) := do
  let normals ← faceNormals pts fs
  let areas ← faceAreas pts fs
  connRowsOf opt pts nodes fs normals areas bounds

/-! ## Qualities -/

/-- `_qualities` and `Mesh.qualities` (`_properties.py`, 187-215; `_mesh.py`, 808-816):
the smallest cosine of a cell. A cell without neighbours has no smallest cosine. -/
noncomputable def qualities (pts nodes : List (P3 ℝ)) (fs : List (List (List ℕ))) :
    Except PyErr (List ℝ) := do
  let normals ← faceNormals pts fs
  let ws := writtenConnections (connectionsOf fs)
  let angles ← ws.mapM fun w => do
    let c1 ← itemAt nodes w.1
    let c2 ← itemAt nodes w.2.1
    let ns ← itemAt normals w.1
    let n ← itemAt ns w.2.2
    let l := c2.sub c1
    .ok |dot (scale (1 / norm3 l) l) n|
  if ws = [] then .error .valueError
  else
    (gather fs.length ((ws.zip angles).flatMap fun e => [(e.1.1, e.2), (e.1.2.1, e.2)])).mapM
      fun l => match l with
        | [] => .error .valueError
        | a :: r => .ok (r.foldl min a)

end Verif.Mesh
