import Verif.Spec.Blocks

/-!
# Specification of the layout of records

Columns are counted from zero: `columns line 10 10` is what TOUGH reads in
columns 11 to 20.
-/

namespace Verif.Spec
open Verif.Py Verif.Model

/-- The text in columns `a`, ..., `a + w - 1` of a line. -/
def columns (line : Str) (a w : ℕ) : Str := (line.drop a).take w

/-- A text right-aligned in `w` characters. -/
def RightAligned (w : ℕ) (s txt : Str) : Prop := txt = List.replicate (w - s.length) ' ' ++ s

/-- The text in a column shows a value: blanks for a missing value, text on the
left, numbers on the right and in the notation of the column. -/
def Shows (t : Tok) (txt : Str) : Val → Prop
  | .none => txt = List.replicate t.w ' '
  | .str s => txt = s ++ List.replicate (t.w - s.length) ' '
  | .bool b => RightAligned t.w (if b then ['1'] else ['0']) txt
  | .int i => match t.kind with
    | .e => RightAligned t.w (fmtE t.p (fltOfInt i)) txt
    | .f => RightAligned t.w (fmtF t.p (fltOfInt i)) txt
    | _ => RightAligned t.w (intStr i) txt
  | .flt x => RightAligned t.w (fmtE t.p x) txt

/-- The line shows the values at the given columns. -/
def Layout (line : Str) (cols : List (ℕ × Tok × Val)) : Prop :=
  ∀ c ∈ cols, Shows c.2.1 (columns line c.1 c.2.1.w) c.2.2

/-- A list of values in equal columns from column `a` on. -/
def series (a : ℕ) (t : Tok) (vs : List Val) : List (ℕ × Tok × Val) :=
  vs.zipIdx.map fun e => (a + t.w * e.2, t, e.1)

end Verif.Spec
