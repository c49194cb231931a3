import Verif.Model.Save
import Verif.Spec.MeshBlocks
import Verif.Spec.File

/-!
# Specification of SAVE files
-/

namespace Verif.Spec
open Verif.Py Verif.Model

/-- Every cell has its own label, `k` variables and a porosity. -/
structure SaveOk (k : ℕ) (es : List (Val × Incon)) : Prop where
  cells : es ≠ []
  labels : (es.map (·.1)).Nodup
  values : ∀ e ∈ es, (e.2.values.map List.length) = some k
  porosity : ∀ e ∈ es, e.2.porosity ≠ .none

/-- No cell has user fields, or every cell has `u` of them. -/
def UserxOk (u : Option ℕ) (es : List (Val × Incon)) : Prop := ∀ e ∈ es, e.2.userx.map List.length = u

/-- The output for a list of cells: labels, variables, porosity and user fields. -/
def saveResult (k : ℕ) (u : Option ℕ) (es : List (Val × Incon)) : Output Val SaveCell where
  time := none
  labels := es.map (·.1)
  data := (List.range k).map (fun i => ('X' :: natStr (i + 1), es.map fun e => .one ((e.2.values.getD []).getD i .none)))
    ++ ("porosity".toList, es.map fun e => .one e.2.porosity) ::
    (if u.isSome then [("userx".toList, es.map fun e => .many (e.2.userx.getD []))] else [])

/-- The order that is asked for: none, or a list of as many known labels. -/
def OrderFor (keys : List Val) (given : LabelsOrder) (ls : List Val) : Prop :=
  match given with
  | .absent => ls = keys
  | .list [] => ls = keys
  | .list l => ls = l ∧ l.length = keys.length ∧ ∀ x ∈ l, x ∈ keys
  | .array _ => False

/-- A line that opens no block. -/
def NoBlock (l : Str) : Prop := ∀ kw ∈ keywords, startsWith l kw.toList = false

instance (l : Str) : Decidable (NoBlock l) := by unfold NoBlock; infer_instance

end Verif.Spec
