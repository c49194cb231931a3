import Verif.Py.Str

/-!
# Specification of file formats by extension (C53)
-/

namespace Verif.Spec
open Verif.Py

/-- `e` is the extension of the file name `p`: the last part of its last component
from a dot on, the component having something other than dots before that dot. -/
def HasExt (p e : Str) : Prop :=
  ∃ dir stem suffix : Str, p = dir ++ (stem ++ '.' :: suffix) ∧ e = '.' :: suffix ∧
    (dir = [] ∨ dir.getLast? = some '/') ∧ '/' ∉ stem ∧ '/' ∉ suffix ∧ '.' ∉ suffix ∧
    ∃ c ∈ stem, c ≠ '.'

/-- The format registered last for an extension; a registration is a format with
its extensions. -/
def lastRegistered (regs : List (Str × List Str)) (e : Str) : Option Str :=
  ((regs.filter fun r => e ∈ r.2).getLast?).map (·.1)

end Verif.Spec
