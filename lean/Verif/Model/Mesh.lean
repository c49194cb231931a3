import Verif.Model.IO
import Mathlib.Algebra.Order.Field.Basic
import Mathlib.Algebra.BigOperators.Group.List.Basic

/-!
# Meshes

Model of `/repo/toughio/_mesh/_mesh.py`, `_properties.py` and the box filter.

Simplifications, used by all files of this part:
* coordinates are elements of a linearly ordered field `K` (no rounding, no NaN,
  no infinity); the theorems hold for every such field, so for `ℚ` and `ℝ`;
* points have three coordinates unless said otherwise;
* vertex numbers are natural numbers (numpy also accepts negative ones);
* an array with one row per point or cell is the list of its rows; rows are of an
  arbitrary type.
-/

namespace Verif.Mesh
open Verif.Py Verif.Model

/-- A point in space. -/
@[ext] structure P3 (K : Type) where
  x : K
  y : K
  z : K
  deriving DecidableEq

/-- The cell types with a meaning for the program; any other `meshio` type is `other`. -/
inductive CellType
  | triangle | quad | tetra | pyramid | wedge | hexahedron
  | other (name : Str)
  deriving DecidableEq

/-- `CellBlock` (`_mesh.py`, 27). -/
structure CellBlock where
  type : CellType
  data : List (List ℕ)
  deriving DecidableEq

/-- `Mesh` (`_mesh.py`, 30-72), without sets and labels. -/
structure Mesh (K D : Type) where
  points : List (P3 K)
  cells : List CellBlock
  pointData : List (Str × List D)
  cellData : List (Str × List D)
  fieldData : List (Str × ℤ × ℤ)
  deriving DecidableEq

/-- `Mesh.n_cells` (`_mesh.py`, 737-740). -/
def nCells (cells : List CellBlock) : ℕ := (cells.map (·.data.length)).sum

/-- `numpy.cumsum`. -/
def cumsum {α : Type} [Add α] : List α → List α
  | [] => []
  | x :: xs => x :: (cumsum xs).map (x + ·)

/-- `numpy.split(arr, idx)`: the slices between consecutive indices. -/
def npSplit {α : Type} (arr : List α) (idx : List ℕ) : List (List α) :=
  let div := 0 :: (idx ++ [arr.length])
  List.zipWith (fun st en => (arr.take en).drop st) div div.tail

/-- `Mesh.split` (`_mesh.py`, 226-245). -/
def split {α : Type} (cells : List CellBlock) (arr : List α) : Except PyErr (List (List α)) :=
  if arr.length ≠ nCells cells then .error .valueError
  else .ok (npSplit arr (cumsum (cells.map (·.data.length))).dropLast)

section Centers
variable {K : Type} [Field K]

/-- `points[i]` for every `i` of a cell. -/
def rowsAt {α : Type} (pts : List α) (c : List ℕ) : Except PyErr (List α) :=
  c.mapM fun i => match pts[i]? with
    | some p => .ok p
    | none => .error .indexError

/-- `.mean(axis=1)` for one cell. (numpy gives NaN for a cell without vertices; no
statement is made about such a cell.) -/
def mean (ps : List (P3 K)) : P3 K where
  x := (ps.map (·.x)).sum / (ps.length : K)
  y := (ps.map (·.y)).sum / (ps.length : K)
  z := (ps.map (·.z)).sum / (ps.length : K)

/-- `Mesh.centers` (`_mesh.py`, 758-761). `numpy.concatenate` refuses an empty list. -/
def centers {D : Type} (m : Mesh K D) : Except PyErr (List (P3 K)) :=
  if m.cells = [] then .error .valueError
  else do
    let cs ← m.cells.mapM fun b => b.data.mapM fun c => do
      let ps ← rowsAt m.points c
      .ok (mean ps)
    .ok cs.flatten

end Centers

section Filter
variable {K : Type} [Field K] [LinearOrder K]

/-- A coordinate or an infinity. -/
inductive Ext (K : Type)
  | ninf
  | fin (k : K)
  | pinf

/-- `b + dx` for a finite `dx`. -/
def Ext.add : Ext K → K → Ext K
  | .ninf, _ => .ninf
  | .fin k, d => .fin (k + d)
  | .pinf, _ => .pinf

/-- `x >= b`. -/
def Ext.below (b : Ext K) (x : K) : Bool :=
  match b with
  | .ninf => true
  | .fin k => decide (k ≤ x)
  | .pinf => false

/-- `x <= b`. -/
def Ext.above (b : Ext K) (x : K) : Bool :=
  match b with
  | .ninf => false
  | .fin k => decide (x ≤ k)
  | .pinf => true

/-- One axis of the box: `xmin`, `xmax` and `mask_x` (`_box.py`, 12-23). A length of
zero is falsy. -/
def maskAxis (x0 dx : Option K) (x : K) : Bool :=
  let lo : Ext K := match x0 with
    | some v => .fin v
    | none => .ninf
  let hi : Ext K := match dx with
    | some d => if d ≠ 0 then lo.add d else .pinf
    | none => .pinf
  lo.below x && hi.above x

/-- The arguments of the box filter. -/
structure Box (K : Type) where
  x0 : Option K := none
  y0 : Option K := none
  z0 : Option K := none
  dx : Option K := none
  dy : Option K := none
  dz : Option K := none

/-- `numpy.arange(n)[mask]`. -/
def whereTrue (mask : List Bool) : List ℕ :=
  (mask.zipIdx.filter (·.1)).map (·.2)

/-- `filter_` of the box filter (`_filter/box/_box.py`, 10-26). -/
def boxFilter {D : Type} (m : Mesh K D) (b : Box K) : Except PyErr (List ℕ) := do
  let cs ← centers m
  let mask := cs.map fun c =>
    (maskAxis b.x0 b.dx c.x && maskAxis b.y0 b.dy c.y) && maskAxis b.z0 b.dz c.z
  .ok (whereTrue mask)

/-- Squared distance (`distance` in `Mesh.near`, `_mesh.py`, 634-637). -/
def dist2 (p q : P3 K) : K :=
  (q.x - p.x) * (q.x - p.x) + (q.y - p.y) * (q.y - p.y) + (q.z - p.z) * (q.z - p.z)

/-- `numpy.argmin` of one row: the first place of the least element; it refuses an
empty row. -/
def argmin : List K → Except PyErr ℕ
  | [] => .error .valueError
  | x :: xs =>
    .ok ((xs.zipIdx 1).foldl (fun (best : ℕ × K) e => if e.1 < best.2 then (e.2, e.1) else best)
      (0, x)).1

/-- A query point as a row of coordinates (`points.shape[1]` must be 3). -/
def toP3 : List K → Except PyErr (P3 K)
  | [x, y, z] => .ok ⟨x, y, z⟩
  | _ => .error .valueError

/-- `Mesh.near` for a list of query points (`_mesh.py`, 618-651). -/
def nearAll {D : Type} (m : Mesh K D) (queries : List (List K)) : Except PyErr (List ℕ) := do
  let qs ← queries.mapM toP3
  let cs ← centers m
  qs.mapM fun q => argmin (cs.map (dist2 q))

/-- `Mesh.near` for one query point. -/
def near {D : Type} (m : Mesh K D) (query : List K) : Except PyErr ℕ := do
  let idx ← nearAll m [query]
  match idx with
  | i :: _ => .ok i
  | [] => .error .indexError

end Filter

/-- An entry of the selection given to `set_material`. -/
inductive Sel
  | int (i : ℤ)
  | pyBool (b : Bool)
  | npBool (b : Bool)
  | other
  deriving DecidableEq

/-- `isinstance(c, ints)`; `bool` is a subclass of `int`. -/
def Sel.isInt : Sel → Bool
  | .int _ => true
  | .pyBool _ => true
  | _ => false

/-- `isinstance(c, (bool, numpy.bool_))`. -/
def Sel.isBool : Sel → Bool
  | .pyBool _ => true
  | .npBool _ => true
  | _ => false

/-- The integer value. -/
def Sel.toInt : Sel → ℤ
  | .int i => i
  | .pyBool b => if b then 1 else 0
  | .npBool b => if b then 1 else 0
  | .other => 0

/-- The truth value of a mask entry. -/
def Sel.toBool : Sel → Bool
  | .pyBool b => b
  | .npBool b => b
  | _ => false

/-- `data[idx] = v` for a list of indices. -/
def assignAt {α : Type} (data : List α) (idx : List ℕ) (v : α) : Except PyErr (List α) :=
  if idx.all (· < data.length) then .ok (idx.foldl (fun d i => d.set i v) data)
  else .error .indexError

/-- `data[sel] = v` for a list of integers or of Python booleans. A list of Python
booleans is a mask, which must have the length of the array; booleans mixed with
integers count as integers. -/
def assignSel {α : Type} (data : List α) (sel : List Sel) (v : α) : Except PyErr (List α) :=
  if sel.all Sel.isBool then
    if sel.length = data.length then assignAt data (whereTrue (sel.map Sel.toBool)) v
    else .error .indexError
  else assignAt data (sel.map fun s => s.toInt.toNat) v

/-- `data.max()`. -/
def maxInt : List ℤ → Except PyErr ℤ
  | [] => .error .valueError
  | x :: xs => .ok (xs.foldl max x)

/-- The last part of `set_material` (`_mesh.py`, 577-586). `assign` is `data[cells] = imat`,
the only place where the mesh is modified before an exception is possible. -/
def setMaterialData (n : ℕ) (data : Option (List ℤ)) (field : List (Str × ℤ × ℤ)) (material : Str)
    (assign : List ℤ → ℤ → Except PyErr (List ℤ)) :
    Except PyErr (Option (List ℤ) × List (Str × ℤ × ℤ)) := do
  match data with
  | none => .error .keyError
  | some data =>
    let imat ← match dictGet field material with
      | .ok v => .ok v.1
      | .error _ => (· + 1) <$> maxInt data
    let data' ← assign data imat
    if data'.length ≠ n then .error .valueError
    else .ok (some data', dictSet field material (imat, 3))

/-- `Mesh.set_material` (`_mesh.py`, 551-586) as a function of the number of cells, of
`cell_data["material"]` and of `field_data`, the only parts it uses or changes.
`cells` is a list (or a numpy array). -/
def setMaterial (n : ℕ) (data : Option (List ℤ)) (field : List (Str × ℤ × ℤ)) (material : Str)
    (cells : List Sel) : Except PyErr (Option (List ℤ) × List (Str × ℤ × ℤ)) :=
  if cells.all Sel.isInt then
    if cells = [] then .error .valueError
    else if cells.any (fun c => decide (c.toInt < 0)) || cells.any (fun c => decide ((n : ℤ) ≤ c.toInt)) then
      .error .valueError
    else setMaterialData n data field material fun d v => assignSel d cells v
  else if cells.all Sel.isBool then
    if cells.length ≠ n then .error .valueError
    else
      let idx := whereTrue (cells.map Sel.toBool)
      if idx = [] then .ok (data, field)
      else setMaterialData n data field material fun d v => assignAt d idx v
  else .error .typeError

/-- The value of `Mesh.materials`: names or numbers. -/
inductive Materials
  | names (l : List Str)
  | numbers (l : List ℤ)
  deriving DecidableEq

/-- `{v[0]: k for k, v in field_data.items()}`. -/
def fieldDict (field : List (Str × ℤ × ℤ)) : List (ℤ × Str) :=
  field.foldl (fun d e => dictSet d e.2.1 e.1) []

/-- `_materials` (`_properties.py`, 7-28). -/
def materials (n : ℕ) (data : Option (List ℤ)) (field : List (Str × ℤ × ℤ)) : Materials :=
  match data with
  | some out =>
    if field ≠ [] then
      match out.mapM (dictGet (fieldDict field)) with
      | .ok l => .names l
      | .error _ => .numbers out
    else .numbers out
  | none => .numbers (List.replicate n 1)

end Verif.Mesh
