import Verif.Model.Geometry
import Verif.Model.Interpolate
import Verif.Model.Labels

/-!
# Results on a mesh

Model of `Mesh.read_output` (`/repo/toughio/_mesh/_mesh.py`, 408-467) for outputs that have
been read already.

Simplifications: coordinates and values are real numbers; the arrays of an output have one
row for each label, a shorter one is refused after all labels have been looked up (the code
meets it in between). The vector between two cells with the same centre is NaN in numpy and
zero here; no statement is made about it. That `reorder_labels` changes the output itself is
left out.
-/

namespace Verif.Mesh
open Verif.Py Verif.Model

/-- An output of either type. Tecplot files have no labels: `numpy.array(None)`. -/
inductive Results
  | element (o : Output Str (Row ℝ))
  | unlabelled (o : Output Unit (Row ℝ))
  | connection (o : Output (Str × Str) ℝ)

/-- `out[time_step]` (`_mesh.py`, 437-440). -/
def atStep (outs : List Results) (step : ℤ) : Except PyErr Results :=
  if ¬ (-(outs.length : ℤ) ≤ step ∧ step < outs.length) then .error .valueError
  else
    let i := if step < 0 then step + outs.length else step
    match outs[i.toNat]? with
    | some o => .ok o
    | none => .error .indexError

/-- `line` of one connection, with the cells at its ends (`_mesh.py`, 456-458). -/
noncomputable def connLine (centers : List (P3 ℝ)) (map : List (Str × ℕ)) (ls : Str × Str) :
    Except PyErr (ℕ × ℕ × P3 ℝ) := do
  let i1 ← dictGet map ls.1
  let i2 ← dictGet map ls.2
  let c1 ← rowAt centers i1
  let c2 ← rowAt centers i2
  let line := c1.sub c2
  .ok (i1, i2, scale (1 / norm3 line) line)

/-- `data[k][iv].append(v[i] * line)` (`_mesh.py`, 460-462). -/
noncomputable def flowOf (l : ℕ × ℕ × P3 ℝ) (v : ℝ) : ℕ × P3 ℝ :=
  (if 0 < v then l.1 else l.2.1, scale v l.2.2)

/-- `numpy.sum(vv, axis=0)` (`_mesh.py`, 465). -/
noncomputable def sumVectors (vs : List (P3 ℝ)) : P3 ℝ := vs.foldl P3.plus ⟨0, 0, 0⟩

/-- The vectors of one variable (`_mesh.py`, 450-467). -/
noncomputable def flowVectors (n : ℕ) (lines : List (ℕ × ℕ × P3 ℝ)) (v : List ℝ) : Except PyErr (List (Row ℝ)) :=
  if v.length < lines.length then .error .indexError
  else
    let parts := gather n (List.zipWith flowOf lines v)
    .ok (parts.map fun vs =>
      let s := sumVectors (⟨0, 0, 0⟩ :: vs)
      .vec [s.x, s.y, s.z])

/-- `Mesh.read_output` for one output (`_mesh.py`, 442-467). `len` is `label_length`. -/
noncomputable def applyResults (m : Mesh ℝ (Row ℝ)) (len : Option ℤ) : Results → Except PyErr (Mesh ℝ (Row ℝ))
  | .element o =>
    if o.labels.length ≠ nCells m.cells then .error .valueError
    else do
      let labels ← labeler (nCells m.cells) len
      let r ← reorderLabels o labels
      .ok { m with cellData := updateDict m.cellData r.data }
  | .unlabelled _ => .error .typeError
  | .connection o => do
    let cs ← centers m
    let labels ← labeler (nCells m.cells) len
    let lines ← o.labels.mapM (connLine cs (labelMap labels))
    let data ← o.data.mapM fun kv => do
      let v ← flowVectors (nCells m.cells) lines kv.2
      .ok (kv.1, v)
    .ok { m with cellData := updateDict m.cellData data }

/-- `Mesh.read_output` for a list of outputs (`_mesh.py`, 408-467). -/
noncomputable def readResults (m : Mesh ℝ (Row ℝ)) (len : Option ℤ) (outs : List Results) (step : ℤ) :
    Except PyErr (Mesh ℝ (Row ℝ)) := do
  let o ← atStep outs step
  applyResults m len o

end Verif.Mesh
