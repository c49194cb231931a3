import Verif.Model.File

/-!
# Specification of files that cannot be read (C86)
-/

namespace Verif.Spec
open Verif.Py Verif.Model

/-- The column where field `i` begins. -/
def column (fmt : List Tok) (i : ℕ) : ℕ := ((fmt.take i).map (·.w)).sum

/-- The text in a column of numbers is neither blank nor a number; in a column of
floats the letter `e` may be left out before a sign and three digits. -/
def BadField (t : Tok) (txt : Str) : Prop :=
  strip txt ≠ [] ∧
    ((t.kind = .d ∧ pyInt (strip txt) = none) ∨
      ((t.kind = .f ∨ t.kind = .e) ∧ pyFloat (strip txt) = none ∧
        pyFloat ((strip txt).take ((strip txt).length - 4) ++ ['e'] ++ (strip txt).drop ((strip txt).length - 4)) = none))

instance (t : Tok) (txt : Str) : Decidable (BadField t txt) := by unfold BadField; infer_instance

/-- Reading block by block, what was read goes from `s` to `s'` and the lines left
from `ls` to `ls'`. -/
inductive Reaches (given : Option ℕ) : FileRead → List Str → FileRead → List Str → Prop
  | here (s : FileRead) (ls : List Str) : Reaches given s ls s ls
  | block {s s' s'' : FileRead} {line : Str} {ls ls' ls'' : List Str} (he : startsWith line "ENDCY".toList = false)
    (h : dispatch given s line ls = .ok (s', ls')) (hr : Reaches given s' ls' s'' ls'') : Reaches given s (line :: ls) s'' ls''

end Verif.Spec
