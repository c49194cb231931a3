import Verif.Model.File

/-!
# Specification of default rock parameters (C54)
-/

namespace Verif.Spec
open Verif.Py Verif.Model

/-- `x` is the rock's own value if the rock has one, else the value of
`default` if it has one, else `last`. -/
def Takes {α : Type} (own dflt : Option α) (last x : α) : Prop :=
  match own, dflt with
  | some v, _ => x = v
  | none, some v => x = v
  | none, none => x = last

end Verif.Spec
