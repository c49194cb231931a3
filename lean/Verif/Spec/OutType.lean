import Verif.Model.Output

/-!
# Specification of the recognition of output files
-/

namespace Verif.Spec
open Verif.Py

/-- First line of a file without blanks around it. -/
def line1 (lines : List Str) : Str := strip ((lines[0]?).getD [])

/-- Second line of a file without blanks around it. -/
def line2 (lines : List Str) : Str := strip ((lines[1]?).getD [])

/-- A standard TOUGH output starts with a banner, on the first line after a `1`,
or on the second line when the first one is blank. -/
def IsTough (lines : List Str) : Prop :=
  (line1 lines = [] ∧ "@@@@@".toList <+: line2 lines) ∨ "1      @@@@@".toList <+: line1 lines

/-- A SAVE file starts with `INCON`. -/
def IsSave (lines : List Str) : Prop := "INCON".toList <+: line1 lines

/-- A Tecplot file has an equal sign on its first line. -/
def HasEqual (lines : List Str) : Prop := '=' ∈ line1 lines

/-- A Petrasim file starts with `TIME`. -/
def IsPetrasim (lines : List Str) : Prop := "TIME".toList <+: line1 lines

/-- The first column of a CSV file, without quotes and blanks around it. -/
def FirstColumn (lines : List Str) (name : Str) : Prop :=
  ∃ col, (col = line1 lines ∨ ∃ r, line1 lines = col ++ ',' :: r) ∧ ',' ∉ col ∧
    strip (col.filter (· ≠ '"')) = name

end Verif.Spec
