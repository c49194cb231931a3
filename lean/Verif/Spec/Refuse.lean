import Verif.Model.MeshBlocks

/-!
# Specification of what the input file writer refuses (C85)
-/

namespace Verif.Spec
open Verif.Py Verif.Model

/-- Why a value cannot be written in a column of a kind: only numbers in an `f`
column, no integer and no truth value in a text column. -/
def refusal (k : Kind) (v : Val) : Option PyErr :=
  match k, v with
  | .f, .none => some .valueError
  | .f, .str _ => some .valueError
  | .s, .int _ => some .valueError
  | .S, .int _ => some .valueError
  | .s, .bool _ => some .valueError
  | .S, .bool _ => some .valueError
  | _, _ => none

/-- The values are texts, of which the longest has `n` characters. -/
def Longest (n : ℕ) (keys : List Val) : Prop :=
  (∃ s : Str, .str s ∈ keys ∧ s.length = n) ∧ ∀ k ∈ keys, ∃ s : Str, k = .str s ∧ s.length ≤ n

/-- The value is no text. -/
def NoText : Val → Bool
  | .str _ => false
  | _ => true

/-- Why a rate or an enthalpy does not go with the times: with a table of times it
is missing or a table of as many values, at least two; without it is no table. -/
def tableRefusal (times x : SoL) : Option PyErr :=
  match times, x with
  | .many _, .one .none => none
  | .many _, .one _ => some .typeError
  | .many t, .many l => if t.length = l.length ∧ 2 ≤ l.length then none else some .valueError
  | .one _, .many _ => some .valueError
  | .one _, .one _ => none

/-- Why an entry does not go with a list of `n` types: it is missing or a list of
`n` values. -/
def entryRefusal {α : Type} (n : ℕ) (f : Fld α) : Option PyErr :=
  match f with
  | .none => none
  | .scalar => some .typeError
  | .list l => if l.length = n then none else some .valueError

end Verif.Spec
