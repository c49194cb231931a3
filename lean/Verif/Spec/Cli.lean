import Verif.Py.Str

/-!
# Specification of the command line tools on files (C51, C52)
-/

namespace Verif.Spec
open Verif.Py

/-- `ls` are the lines of the text `s`: none is empty, a newline is the last
character of its line, and only the last line may lack it. -/
def IsLines (s : Str) (ls : List Str) : Prop :=
  ls.flatten = s ∧ (∀ l ∈ ls, l ≠ [] ∧ '\n' ∉ l.dropLast) ∧
    ∀ l ∈ ls.dropLast, l.getLast? = some '\n'

instance (s : Str) (ls : List Str) : Decidable (IsLines s ls) := by
  unfold IsLines; infer_instance

/-- The text ends with a complete line. -/
def Complete (s : Str) : Prop := s = [] ∨ s.getLast? = some '\n'

instance (s : Str) : Decidable (Complete s) := by unfold Complete; infer_instance

/-- The line begins with the keyword, in capital or small letters. -/
def Begins (kw : String) (l : Str) : Prop := (upper l).take kw.length = kw.toList

instance (kw : String) (l : Str) : Decidable (Begins kw l) := by unfold Begins; infer_instance

/-- An end record. -/
def EndRecord (l : Str) : Prop := Begins "ENDFI" l ∨ Begins "ENDCY" l

instance (l : Str) : Decidable (EndRecord l) := by unfold EndRecord; infer_instance

/-- A line that counts for the validity of an input file. -/
def Counted (l : Str) : Prop := Begins "ROCKS" l ∨ Begins "PARAM" l ∨ EndRecord l

instance (l : Str) : Decidable (Counted l) := by unfold Counted; infer_instance

/-- The beginning of a text. -/
def Opens (kw : String) (s : Str) : Prop := s.take kw.length = kw.toList

instance (kw : String) (s : Str) : Decidable (Opens kw s) := by unfold Opens; infer_instance

end Verif.Spec
