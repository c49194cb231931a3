import Verif.Model.Grid
import Verif.Model.Opts
import Verif.Model.Output

/-!
# Interpolation between cells and points

Model of `Mesh.cell_data_to_point_data` and `Mesh.point_data_to_cell_data`
(`/repo/toughio/_mesh/_mesh.py`, 588-616) and of `interpolate_data`
(`/repo/toughio/_mesh/_common.py`, 225-236).

An array of data has one row for every cell or point; a row is a number or a vector. The
rows of one array are of the same kind in numpy. The mean of no number is NaN in numpy and
zero here; no statement is made about it.
-/

namespace Verif.Mesh
open Verif.Py Verif.Model

/-- A row of an array. -/
inductive Row (K : Type)
  | num (x : K)
  | vec (xs : List K)
  deriving DecidableEq

section Interpolate
variable {K : Type} [Field K] [LinearOrder K]

/-- The numbers in a row. -/
def Row.entries : Row K → List K
  | .num x => [x]
  | .vec xs => xs

/-- Whether a row is a vector. -/
def Row.isVec : Row K → Bool
  | .num _ => false
  | .vec _ => true

/-- `numpy.mean(a)`: without `axis` the mean of all entries. -/
def npMean (a : List (Row K)) : K :=
  (a.flatMap Row.entries).sum / ((a.flatMap Row.entries).length : K)

/-- `numpy.average(a, weights=w)`, where `two` tells whether `a` has two axes. Without
`axis` the shapes must be the same; weights must not sum to zero. -/
def npAverage (two : Bool) (a : List (Row K)) (w : List K) : Except PyErr K :=
  if two || a.length ≠ w.length then .error .typeError
  else if w.sum = 0 then .error .zeroDivisionError
  else .ok ((List.zipWith (· * ·) (a.flatMap Row.entries) w).sum / w.sum)

/-- The values of `interpolate_data` for one array (`_common.py`, 228-234). -/
def interpolateOne (v : List (Row K)) (entities : List (List ℕ)) (weights : List (List K)) :
    Except PyErr (List (Row K)) :=
  if weights = [] then
    entities.mapM fun e => do
      let a ← rowsAt v e
      .ok (.num (npMean a))
  else
    (entities.zip weights).mapM fun e => do
      let a ← rowsAt v e.1
      let x ← npAverage (v.any Row.isVec) a e.2
      .ok (.num x)

/-- `interpolate_data` (`_common.py`, 225-236). `None` for the weights is the empty list:
both are falsy. -/
def interpolateData (data : List (Str × List (Row K))) (entities : List (List ℕ))
    (weights : List (List K)) : Except PyErr (List (Str × List (Row K))) :=
  data.mapM fun kv => do
    let v ← interpolateOne kv.2 entities weights
    .ok (kv.1, v)

/-- `points[c].append(i)` and `weights[c].append(volumes[i])` (`_mesh.py`, 600-601). -/
def appendCell (vols : List K) (i : ℕ) (out : List (List ℕ × List K)) (c : ℕ) :
    Except PyErr (List (List ℕ × List K)) :=
  if c < out.length then do
    let w ← rowAt vols i
    .ok (out.modify c fun e => (e.1 ++ [i], e.2 ++ [w]))
  else .error .indexError

/-- The loops over the cells (`_mesh.py`, 592-602). -/
def pointCells (n : ℕ) (cells : List (List ℕ)) (vols : List K) :
    Except PyErr (List (List ℕ × List K)) :=
  cells.zipIdx.foldlM (fun out c => c.1.foldlM (appendCell vols c.2) out) (List.replicate n ([], []))

/-- `Mesh.cell_data_to_point_data` (`_mesh.py`, 588-606). -/
def cellToPoint (m : Mesh K (Row K)) : Except PyErr (Mesh K (Row K)) := do
  let vols ← volumes m
  let pc ← pointCells m.points.length (m.cells.flatMap (·.data)) vols
  let pd ← interpolateData m.cellData (pc.map (·.1)) (pc.map (·.2))
  .ok { m with pointData := updateDict m.pointData pd, cellData := [] }

/-- `Mesh.point_data_to_cell_data` (`_mesh.py`, 608-616). -/
def pointToCell (m : Mesh K (Row K)) : Except PyErr (Mesh K (Row K)) := do
  let cd ← interpolateData m.pointData (m.cells.flatMap (·.data)) []
  .ok { m with cellData := updateDict m.cellData cd, pointData := [] }

end Interpolate

end Verif.Mesh
