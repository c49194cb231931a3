import Verif.Model.Meshio

/-!
# Time series

Model of `write_time_series` and `read_time_series`
(`/repo/toughio/_mesh/_helpers.py`, 159-299). The XDMF file is a record of what meshio's
writer is given, and its reader gives it back: points, cells and for every step the
time, the point data and the cell data. From version 3 on cells and cell data are new
style, before old style.

Simplifications: the type checks are left out; `None` is an absent argument; `argsort`
is `numpy.argsort`, which may order equal times in any way; `ofNat` makes a time of a
number.
-/

namespace Verif.Mesh
open Verif.Py Verif.Model

/-- A data dictionary. -/
abbrev Data (D : Type) := List (Str × List D)

/-- An XDMF file with cells of type `C` and cell data of type `E`. -/
structure SeriesFile (K D T C E : Type) where
  points : List (P3 K)
  cells : C
  steps : List (T × Data D × E)
  deriving DecidableEq

section Series
variable {K D T : Type}

/-- `[{}] * nt` for absent data (269-270). -/
def orEmpty (nt : ℕ) (l : List (Data D)) : List (Data D) := if l = [] then List.replicate nt [] else l

/-- The check of the number of times (266). -/
def badTimes (ts : Option (List T)) (nt : ℕ) : Bool :=
  match ts with
  | none => false
  | some l => l.length ≠ nt

/-- The sorted steps with the cell data cut into parts (257-283). -/
def seriesSteps (argsort : List T → List ℕ) (ofNat : ℕ → T) (cells : List CellBlock)
    (pd cd : Option (List (Data D))) (ts : Option (List T)) :
    Except PyErr (List (T × Data D × List (Str × List (List D)))) := do
  let pd := pd.getD []
  let cd := cd.getD []
  if pd = [] ∧ cd = [] then .error .valueError else
  let nt := if pd ≠ [] then pd.length else cd.length
  if pd ≠ [] ∧ pd.length ≠ nt then .error .valueError else
  if cd ≠ [] ∧ cd.length ≠ nt then .error .valueError else
  if badTimes ts nt then .error .valueError else
  let pd := orEmpty nt pd
  let cd := orEmpty nt cd
  let ts := ts.getD ((List.range nt).map ofNat)
  let sizes := cumsum (cells.dropLast.map (·.data.length))
  let cd := cd.map fun c => c.map fun kv => (kv.1, npSplit kv.2 sizes)
  let idx := argsort ts
  let pd ← rowsAt pd idx
  let cd ← rowsAt cd idx
  let ts ← rowsAt ts idx
  .ok (ts.zip (pd.zip cd))

/-- `write_time_series` with new-style cells (297-299). -/
def writeSeries (argsort : List T → List ℕ) (ofNat : ℕ → T) (points : List (P3 K)) (cells : List CellBlock)
    (pd cd : Option (List (Data D))) (ts : Option (List T)) :
    Except PyErr (SeriesFile K D T (List CellBlock) (List (Str × List (List D)))) := do
  let steps ← seriesSteps argsort ofNat cells pd cd ts
  .ok ⟨points, cells, steps⟩

/-- `write_time_series` with old-style cells (291-296). The cells are converted once for
every step. -/
def writeSeriesOld (argsort : List T → List ℕ) (ofNat : ℕ → T) (points : List (P3 K)) (cells : List CellBlock)
    (pd cd : Option (List (Data D))) (ts : Option (List T)) :
    Except PyErr (SeriesFile K D T OldCells (OldData D)) := do
  let steps ← seriesSteps argsort ofNat cells pd cd ts
  let tmp ← steps.mapM fun s => do
    let c ← oldCells cells
    let d ← oldData cells s.2.2
    .ok (c, d)
  match tmp with
  | [] => .error .indexError
  | t :: _ => .ok ⟨points, t.1, List.zipWith (fun s t => (s.1, s.2.1, t.2)) steps tmp⟩

/-- `numpy.concatenate(cdata[k])` for every `k` (209-212). -/
def joinStep (s : T × Data D × List (Str × List (List D))) : Except PyErr (T × Data D × Data D) := do
  let cd ← s.2.2.mapM fun kv => do
    let v ← concatPieces kv.2
    .ok (kv.1, v)
  .ok (s.1, s.2.1, cd)

/-- `read_time_series` with new-style cells (199-214). -/
def readSeries (f : SeriesFile K D T (List CellBlock) (List (Str × List (List D)))) :
    Except PyErr (SeriesFile K D T (List CellBlock) (Data D)) := do
  let steps ← f.steps.mapM joinStep
  .ok ⟨f.points, f.cells, steps⟩

/-- `read_time_series` with old-style cells (186-198, 209-214). -/
def readSeriesOld (f : SeriesFile K D T OldCells (OldData D)) :
    Except PyErr (SeriesFile K D T (List CellBlock) (Data D)) := do
  let steps ← f.steps.mapM fun s => do
    let cd ← newData f.cells s.2.2
    .ok (s.1, s.2.1, cd)
  let steps ← steps.mapM joinStep
  .ok ⟨f.points, newCells f.cells, steps⟩

end Series

end Verif.Mesh
