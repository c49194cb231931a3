import Verif.Model.File
import Verif.Spec.File
import Verif.Spec.Cli

/-!
# Specification of the tools on files of the library (C84)
-/

namespace Verif.Spec
open Verif.Py Verif.Model

/-- The parameters without the mesh and without its initial conditions. -/
def withoutMesh (p : Params) : Params :=
  { p with elements := [], coordinates := false, connections := [], initialConditions := [] }

/-- Every line ends with its only newline. -/
def CleanLines (ls : List Str) : Prop := ∀ l ∈ ls, l.getLast? = some '\n' ∧ '\n' ∉ l.dropLast

instance (ls : List Str) : Decidable (CleanLines ls) := by unfold CleanLines; infer_instance

/-- The line is no header of a block. -/
def NoHeader (l : Str) : Prop := ∀ kw ∈ keywords, ¬ Opens kw l

instance (l : Str) : Decidable (NoHeader l) := by unfold NoHeader; infer_instance

/-- The line has a character that is not white space. -/
def NotBlank (l : Str) : Prop := strip l ≠ []

instance (l : Str) : Decidable (NotBlank l) := by unfold NotBlank; infer_instance

end Verif.Spec
