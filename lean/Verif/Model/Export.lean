import Verif.Model.Voxelize
import Verif.Model.Series
import Verif.Model.ReadOutput
import Verif.Model.Registry
import Mathlib.Data.Prod.Lex

/-!
# The command `toughio-export`

Model of `/repo/toughio/_cli/_export.py` and `/repo/toughio/meshmaker/_triangulate.py`. The
result is what is written: a mesh, or a time series.

Simplifications: the values of an output are numbers of a field, times are of an arbitrary
type; SAVE files, which are not read as a list, are left out. Points with two columns get
zero as third coordinate. `delaunay` is the triangulation of scipy and `argsort` that of
numpy. The file that is read is `none` if it does not exist, the outputs in it may be an
exception. The messages and the writing of the files are left out.
-/

namespace Verif.Mesh
open Verif.Py Verif.Model

/-- `--file-format`. -/
inductive ExportFormat
  | tecplot
  | vtk
  | vtu
  | xdmf
  deriving DecidableEq

/-- `format_to_ext` (`_export.py`, 10-15). -/
def exportExt : ExportFormat → Str
  | .tecplot => ".dat".toList
  | .vtk => ".vtk".toList
  | .vtu => ".vtu".toList
  | .xdmf => ".xdmf".toList

/-- The options of the command (`_export.py`, 205-284) but for the mesh. -/
structure ExportArgs (K : Type) where
  infile : Str
  timeStep : Option ℤ
  outputFile : Option Str
  format : ExportFormat
  voxelize : Bool
  origin : Option (List K)
  layer : Bool

/-- The option `--mesh`: not given, no such file, a file that cannot be read, or a mesh. -/
inductive MeshArg (K : Type)
  | absent
  | missing
  | unreadable
  | mesh (m : Mesh K (Row K))

/-- The labels of an output. -/
inductive OutLabels
  | element (ls : List Str)
  | unlabelled
  | connection (ls : List (Str × Str))

/-- An output; `tecplot` tells whether its format is that of Tecplot. -/
structure ExportOut (K T : Type) where
  tecplot : Bool
  time : T
  labels : OutLabels
  data : List (Str × List K)

/-- What is written: a mesh with its format, or a time series. -/
inductive Exported (K T : Type)
  | mesh (file : Str) (format : ExportFormat) (m : Mesh K (Row K))
  | series (file : Str) (f : SeriesFile K K T (List CellBlock) (List (Str × List (List K))))
  deriving DecidableEq

section
variable {K T : Type} [Field K] [LinearOrder K]

/-- `X`, `Y` or `Z` (`_export.py`, 294-310). -/
def coordColumn (data : List (Str × List K)) (n : ℕ) (k : Str) : List K :=
  match dictGet data k with
  | .ok v => v
  | .error _ => List.replicate n 0

/-- `numpy.column_stack` of three columns. -/
def pointStack (x y z : List K) : Except PyErr (List (P3 K)) :=
  if x.length = y.length ∧ y.length = z.length then
    .ok ((x.zip (y.zip z)).map fun v => ⟨v.1, v.2.1, v.2.2⟩)
  else .error .valueError

/-- `_get_points` (`_export.py`, 287-344). -/
def getPoints (data : List (Str × List K)) : Except PyErr (List (P3 K) × List ℕ) :=
  match data with
  | [] => .error .stopIteration
  | (_, v) :: _ =>
    let n := v.length
    let x := coordColumn data n "X".toList
    let y := coordColumn data n "Y".toList
    let z := coordColumn data n "Z".toList
    if "X".toList ∉ data.map (·.1) ∧ "Y".toList ∉ data.map (·.1) ∧ "Z".toList ∉ data.map (·.1) then
      .error .valueError
    else
      let nx := (unique x).length
      let ny := (unique y).length
      let nz := (unique z).length
      let zeros := List.replicate n 0
      if ny = 1 ∧ nz = 1 then do let p ← pointStack x zeros zeros; .ok (p, [0])
      else if nx = 1 ∧ nz = 1 then do let p ← pointStack zeros y zeros; .ok (p, [1])
      else if nx = 1 ∧ ny = 1 then do let p ← pointStack zeros zeros z; .ok (p, [2])
      else if nx = 1 then do let p ← pointStack zeros y z; .ok (p, [1, 2])
      else if ny = 1 then do let p ← pointStack x zeros z; .ok (p, [0, 2])
      else if nz = 1 then do let p ← pointStack x y zeros; .ok (p, [0, 1])
      else do let p ← pointStack x y z; .ok (p, [0, 1, 2])

/-- The key `(z, y, x)` (`_export.py`, 112). -/
def sortKey (p : P3 K) : Lex (K × Lex (K × K)) := toLex (p.z, toLex (p.y, p.x))

/-- `idx` (`_export.py`, 107-115). -/
def voxelOrder (points : List (P3 K)) : List ℕ :=
  (points.zipIdx.insertionSort fun a b => sortKey a.1 ≤ sortKey b.1).map (·.2)

/-- `label not in {"X", "Y", "Z"}`. -/
def notCoordinate (k : Str) : Bool := k ≠ "X".toList ∧ k ≠ "Y".toList ∧ k ≠ "Z".toList

/-- The data of an output without the coordinates. -/
def plainData (data : List (Str × List K)) : List (Str × List K) := data.filter fun kv => notCoordinate kv.1

/-- `{k: v[idx] ...}`. -/
def dataAt (idx : List ℕ) (data : List (Str × List K)) : Except PyErr (List (Str × List K)) :=
  data.mapM fun kv => do
    let v ← rowsAt kv.2 idx
    .ok (kv.1, v)

/-- `add_cell_data` or `add_point_data` (`_mesh.py`, 511-549) for every array; `n` is the
number of cells or points. -/
def addArrays (n : ℕ) (d : List (Str × List (Row K))) (data : List (Str × List K)) :
    Except PyErr (List (Str × List (Row K))) :=
  data.foldlM (fun d kv => if kv.2.length ≠ n then .error .valueError else .ok (dictSet d kv.1 (kv.2.map .num))) d

/-- A mesh with integer data as a mesh with rows. -/
def rowMesh (m : Mesh K ℤ) : Mesh K (Row K) where
  points := m.points
  cells := m.cells
  pointData := m.pointData.map fun kv => (kv.1, kv.2.map fun i => .num (i : K))
  cellData := m.cellData.map fun kv => (kv.1, kv.2.map fun i => .num (i : K))
  fieldData := m.fieldData

/-- `voxelize(points, args.origin, layer=args.layer)`: the origin is unpacked after the
check of the points (`_voxelize.py`, 57-63). -/
def voxelizeAt (points : List (P3 K)) (origin : Option (List K)) (layer : Bool) : Except PyErr (Mesh K ℤ) :=
  match origin with
  | some [a, b, c] => Mesh.voxelize points ⟨a, b, c⟩ layer "dfalt".toList
  | some _ => .error .valueError
  | none =>
    if (unique (points.map (·.x))).length * (unique (points.map (·.y))).length * (unique (points.map (·.z))).length ≠
        points.length then .error .valueError
    else .error .typeError

/-- `points[:, axis]` for one point. -/
def columnsAt (axis : List ℕ) (p : P3 K) : List K := axis.filterMap ([p.x, p.y, p.z][·]?)

/-- The point of a row. -/
def padPoint (row : List K) : P3 K := ⟨row.getD 0 0, row.getD 1 0, row.getD 2 0⟩

/-- `triangulate` (`_triangulate.py`, 10-50) for rows of `dim` numbers. -/
def triangulate (delaunay : List (List K) → Except PyErr (List (List ℕ))) (dim : ℕ) (rows : List (List K))
    (material : Str) : Except PyErr (Mesh K ℤ) :=
  if dim ≠ 2 ∧ dim ≠ 3 then .error .valueError
  else do
    let cells ← delaunay rows
    .ok (gridMesh (rows.map padPoint) (if dim = 2 then .triangle else .tetra) cells material)

/-- The mesh if there is none, with `idx` if it is voxelized (`_export.py`, 81-131). -/
def baseMesh (delaunay : List (List K) → Except PyErr (List (List ℕ))) (a : ExportArgs K)
    (data : List (Str × List K)) : Except PyErr (Mesh K (Row K) × Option (List ℕ)) := do
  let (points, axis) ← getPoints data
  if a.voxelize ∨ axis.length = 1 then
    if axis.length = 1 ∧ a.origin.map List.length ≠ some 3 then .error .valueError
    else do
      let m ← voxelizeAt points a.origin a.layer
      .ok (rowMesh m, some (voxelOrder points))
  else do
    let m ← triangulate delaunay axis.length (points.map (columnsAt axis)) "dfalt".toList
    .ok (rowMesh m, none)

/-- `output[args.time_step]` or `output[-1]` (`_export.py`, 54-61). -/
def chosenOutput {α : Type} (step : Option ℤ) (outs : List α) : Except PyErr α :=
  match step with
  | none =>
    match outs.getLast? with
    | some o => .ok o
    | none => .error .indexError
  | some s =>
    if ¬ (-(outs.length : ℤ) ≤ s ∧ s < outs.length) then .error .valueError
    else
      let i := if s < 0 then s + outs.length else s
      match outs[i.toNat]? with
      | some o => .ok o
      | none => .error .indexError

/-- `reorder_labels(data, mesh.labels)` (`_export.py`, 155). Tecplot outputs do not come
here. The labels of connections are rows of an array and no keys. -/
def reorderOut (labels : List Str) (o : ExportOut K T) : Except PyErr (ExportOut K T) :=
  match o.labels with
  | .element ls => do
    let r ← reorderLabels (⟨none, ls, o.data⟩ : Output Str K) labels
    .ok { o with labels := .element r.labels, data := r.data }
  | .unlabelled => .error .typeError
  | .connection ls => if ls.length ≠ labels.length then .error .valueError else .error .typeError

/-- The name of the file (`_export.py`, 159-163). -/
def exportName (a : ExportArgs K) : Str :=
  a.outputFile.getD ((splitext a.infile).1 ++ exportExt a.format)

/-- One output on a mesh made from it (`_export.py`, 84-136). -/
def exportFresh (delaunay : List (List K) → Except PyErr (List (List ℕ))) (a : ExportArgs K)
    (data : List (Str × List K)) : Except PyErr (Mesh K (Row K)) := do
  let b ← baseMesh delaunay a data
  match b.2 with
  | some idx => do
    let data ← dataAt idx (plainData data)
    let d ← addArrays (nCells b.1.cells) b.1.cellData data
    .ok { b.1 with cellData := d }
  | none => do
    let d ← addArrays b.1.points.length b.1.pointData (plainData data)
    .ok { b.1 with pointData := d }

/-- One output (`_export.py`, 66-156, 169-170). `readOn` is `mesh.read_output`. The setting of
`cell_dada` has no effect. -/
def exportOne (delaunay : List (List K) → Except PyErr (List (List ℕ)))
    (readOn : Mesh K (Row K) → ExportOut K T → Except PyErr (Mesh K (Row K))) (a : ExportArgs K) (mesh : MeshArg K)
    (o : ExportOut K T) : Except PyErr (Mesh K (Row K)) :=
  if o.tecplot then exportFresh delaunay a o.data
  else
    match mesh with
    | .absent => exportFresh delaunay a o.data
    | .missing => .error .valueError
    | .unreadable => .error .valueError
    | .mesh m => readOn { m with pointData := [], fieldData := [] } o

/-- All outputs on a mesh made from the first (`_export.py`, 84-131, 172-200). -/
def seriesFresh (delaunay : List (List K) → Except PyErr (List (List ℕ))) (argsort : List T → List ℕ)
    (ofNat : ℕ → T) (a : ExportArgs K) (data : List (Str × List K)) (outs : List (ExportOut K T)) :
    Except PyErr (SeriesFile K K T (List CellBlock) (List (Str × List (List K)))) := do
  let b ← baseMesh delaunay a data
  match b.2 with
  | some idx => do
    let data ← outs.mapM fun o => dataAt idx (plainData o.data)
    writeSeries argsort ofNat b.1.points b.1.cells none (some data) (some (outs.map (·.time)))
  | none =>
    writeSeries argsort ofNat b.1.points b.1.cells (some (outs.map fun o => plainData o.data)) none
      (some (outs.map (·.time)))

/-- All outputs on a given mesh (`_export.py`, 155, 179-192). `len` is the label length of
the mesh. -/
def seriesOn (argsort : List T → List ℕ) (ofNat : ℕ → T) (len : Option ℤ) (m : Mesh K (Row K))
    (outs : List (ExportOut K T)) :
    Except PyErr (SeriesFile K K T (List CellBlock) (List (Str × List (List K)))) := do
  let labels ← labeler (nCells m.cells) len
  let outs ← outs.mapM (reorderOut labels)
  writeSeries argsort ofNat m.points m.cells none (some (outs.map fun o => plainData o.data))
    (some (outs.map (·.time)))

/-- All outputs (`_export.py`, 62-63, 66-156, 172-200). -/
def exportAll (delaunay : List (List K) → Except PyErr (List (List ℕ))) (argsort : List T → List ℕ)
    (ofNat : ℕ → T) (len : Option ℤ) (a : ExportArgs K) (mesh : MeshArg K) (outs : List (ExportOut K T)) :
    Except PyErr (SeriesFile K K T (List CellBlock) (List (Str × List (List K)))) :=
  match outs.head?, outs.getLast? with
  | some first, some last =>
    if last.tecplot then seriesFresh delaunay argsort ofNat a first.data outs
    else
      match mesh with
      | .absent => seriesFresh delaunay argsort ofNat a first.data outs
      | .missing => .error .valueError
      | .unreadable => .error .valueError
      | .mesh m => seriesOn argsort ofNat len m outs
  | _, _ => .error .indexError

/-- `export` (`_export.py`, 18-202). -/
def exportCmd (delaunay : List (List K) → Except PyErr (List (List ℕ))) (argsort : List T → List ℕ)
    (ofNat : ℕ → T) (readOn : Mesh K (Row K) → ExportOut K T → Except PyErr (Mesh K (Row K))) (len : Option ℤ)
    (a : ExportArgs K) (mesh : MeshArg K) (infile : Option (Except PyErr (List (ExportOut K T)))) :
    Except PyErr (Exported K T) :=
  match infile with
  | none => .error .valueError
  | some outs =>
    if mesh matches .missing then .error .valueError
    else if (mesh matches .absent) ∧ a.voxelize ∧ a.origin.map List.length ≠ some 3 then .error .valueError
    else do
      let outs ← outs
      if a.format ≠ .xdmf then do
        let o ← chosenOutput a.timeStep outs
        let m ← exportOne delaunay readOn a mesh o
        .ok (.mesh (exportName a) a.format m)
      else do
        let f ← exportAll delaunay argsort ofNat len a mesh outs
        .ok (.series (exportName a) f)

end

/-- `mesh.read_output(output)` for the output of the command. -/
noncomputable def readExport {T : Type} (len : Option ℤ) (m : Mesh ℝ (Row ℝ)) (o : ExportOut ℝ T) :
    Except PyErr (Mesh ℝ (Row ℝ)) :=
  match o.labels with
  | .element ls => applyResults m len (.element ⟨none, ls, o.data.map fun kv => (kv.1, kv.2.map .num)⟩)
  | .unlabelled => applyResults m len (.unlabelled ⟨none, [], []⟩)
  | .connection ls => applyResults m len (.connection ⟨none, ls, o.data⟩)

end Verif.Mesh
