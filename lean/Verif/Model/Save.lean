import Verif.Model.File
import Verif.Model.Output
import Verif.Model.History

/-!
# SAVE files

Model of `read` of `/repo/toughio/_io/output/save/_save.py`.
-/

namespace Verif.Model
open Verif.Py Verif.Mesh

/-- An entry of an array: a number, or a row of `userx`. -/
inductive SaveCell
  | one (v : Val)
  | many (l : List Val)
  deriving DecidableEq

/-- The argument `labels_order`: absent, a list or a numpy array. -/
inductive LabelsOrder
  | absent
  | list (l : List Val)
  | array (l : List Val)

/-- `d[k]` where the key may be absent. -/
def present {α : Type} (x : Option α) : Except PyErr α :=
  match x with
  | some x => .ok x
  | none => .error .keyError

/-- `v["porosity"]`. -/
def porosityOf (c : Incon) : Except PyErr SaveCell :=
  match c.porosity with
  | .none => .error .keyError
  | v => .ok (.one v)

/-- `labels_order if labels_order else default` (`_save.py`, 34-36). The truth of an
array with several entries is a `ValueError`. Simplification: an array without entries is
false, an array with one entry is true. -/
def orderOr (given : LabelsOrder) (default : List Val) : Except PyErr (List Val) :=
  match given with
  | .absent => .ok default
  | .list [] => .ok default
  | .list l => .ok l
  | .array [] => .ok default
  | .array [l] => .ok [l]
  | .array _ => .error .valueError

/-- `{"X{}".format(i + 1): x for i, x in enumerate(numpy.transpose(variables))}`
(`_save.py`, 20); the names differ. -/
def saveVariables (vals : List (List Val)) : List (Str × List SaveCell) :=
  (List.range (vals.headD []).length).map fun i =>
    ('X' :: natStr (i + 1), (vals.filterMap (·[i]?)).map .one)

/-- `read` (`_save.py`, 12-38). Simplification: lists of different lengths, of which older
versions of numpy make arrays of lists, are refused. -/
def readSave (given : LabelsOrder) (lines : List Str) : Except PyErr (Output Val SaveCell) := do
  let p ← readFile none lines
  let (ics, order) ← present p.initialConditions
  let vals ← ics.mapM fun e => present e.2.values
  if rectangular vals then
    let por ← ics.mapM fun e => porosityOf e.2
    let userx := ics.filterMap (·.2.userx)
    if rectangular userx then
      let data := dictSet (saveVariables vals) "porosity".toList por
      let data := if userx.isEmpty then data else dictSet data "userx".toList (userx.map .many)
      let ls ← orderOr given order
      reorderLabels ⟨none, ics.map (·.1), data⟩ ls
    else .error .valueError
  else .error .valueError

end Verif.Model
