import Verif.Model.Listing
import Verif.Spec.Csv

/-!
# Specification of the main output files of TOUGH

The files are written by the simulator. Here is what they look like: for every time a
line with `TOTAL TIME`, a line starting with the time, and later a table, whose end is
marked by a line with `@@@@@`.
-/

namespace Verif.Spec
open Verif.Py Verif.Model

/-- A text without blanks. -/
def Word (s : Str) : Prop := s ≠ [] ∧ ∀ c ∈ s, isSpace c = false

instance (s : Str) : Decidable (Word s) := by unfold Word; infer_instance

/-- A word in a line with the number of blanks before it, not counting one that is
always there. -/
structure Spaced where
  gap : ℕ
  text : Str

/-- The text of words in a line. -/
def spacedText (l : List Spaced) : Str := l.flatMap fun c => blanks (c.gap + 1) ++ c.text

/-- A row of a table: blanks, the labels with `sep` between them, the index, the
values, blanks. -/
structure ListingRow where
  indent : ℕ
  labels : List Str
  sep : Str
  index : Spaced
  cells : List Spaced
  trail : ℕ

/-- The labels of a row. -/
def joinLabels (sep : Str) : List Str → Str
  | [] => []
  | [s] => s
  | s :: r => s ++ (sep ++ joinLabels sep r)

/-- The line of a row. -/
def ListingRow.line (r : ListingRow) : Str :=
  blanks r.indent ++ (joinLabels r.sep r.labels ++ (spacedText (r.index :: r.cells) ++
    (blanks r.trail ++ ['\n'])))

/-- A line between the rows of a table, such as units, repeated headers and empty
lines. -/
def BetweenRows (l : Str) : Prop :=
  (strip (l.take 10) = [] ∨ "ELEM".toList <+: strip l) ∧ ¬ "@@@@@".toList <+: l.drop 1

instance (l : Str) : Decidable (BetweenRows l) := by unfold BetweenRows; infer_instance

/-- A label of `L` characters in a table: digits after the fifth character, no blank at
the beginning, no `ELEM` there. -/
def TableLabel (L : ℕ) (s : Str) : Prop :=
  s.length = L ∧ (∀ c ∈ s.drop 5, isDigit c = true) ∧ (∀ c ∈ s.head?, isSpace c = false) ∧
    '@' ∉ s ∧ ¬ "ELEM".toList <+: s

instance (L : ℕ) (s : Str) : Decidable (TableLabel L s) := by unfold TableLabel; infer_instance

/-- A row of the table of a file with labels of `L` characters, `m` labels and `n`
values in each row. Two labels are two characters apart. -/
def RowFits (L m n : ℕ) (r : ListingRow) : Prop :=
  r.indent < 10 ∧ r.labels.length = m ∧ (∀ s ∈ r.labels, TableLabel L s) ∧ r.sep.length = 2 ∧
    (∀ c ∈ r.sep, isDigit c = false) ∧ (∀ c ∈ r.index :: r.cells, Word c.text) ∧ r.cells.length = n

instance (L m n : ℕ) (r : ListingRow) : Decidable (RowFits L m n r) := by
  unfold RowFits; infer_instance

/-- What is printed for one time. `table` holds the lines of the table: a row, or another
line. -/
structure ListingStep where
  /-- the line with `TOTAL TIME` -/
  total : Str
  timeGap : ℕ
  timeText : Str
  timeRest : Str
  /-- lines between the time and the table -/
  before : List Str
  headGap : ℕ
  head : Str
  heads : List Spaced
  vars : List Spaced
  table : List (ListingRow ⊕ Str)
  /-- the line with `@@@@@` -/
  last : Str
  /-- lines after the table -/
  after : List Str

/-- A line of a table. -/
def tableLine : ListingRow ⊕ Str → Str
  | .inl r => r.line
  | .inr l => l

/-- The rows of the table. -/
def ListingStep.rows (s : ListingStep) : List ListingRow := s.table.filterMap Sum.getLeft?

/-- The lines printed for one time. -/
def ListingStep.lines (s : ListingStep) : List Str :=
  s.total :: (blanks s.timeGap ++ (s.timeText ++ s.timeRest)) ::
    (s.before ++ (blanks s.headGap ++ (s.head ++ (spacedText (s.heads ++ s.vars) ++ ['\n']))) ::
      (s.table.map tableLine ++ s.last :: s.after))

/-- What is printed for one time is as expected: `L` characters in a label, `m` labels
and the values of `vars` in each of the `n` rows. The table starts with a line whose first
word starts with `key`. -/
def StepFits (key : Str) (L m n : ℕ) (vars : List Str) (s : ListingStep) : Prop :=
  "TOTAL TIME".toList <+: strip s.total ∧
  Word s.timeText ∧ (∀ c ∈ s.timeRest.head?, isSpace c = true) ∧ (pyFloat s.timeText).isSome = true ∧
  (∀ l ∈ s.before, ¬ key <+: strip l) ∧
  Word s.head ∧ key <+: s.head ∧ s.heads.length = m ∧ (∀ c ∈ s.heads ++ s.vars, Word c.text) ∧
  s.vars.map (·.text) = vars ∧
  (∀ r ∈ s.rows, RowFits L m vars.length r) ∧ s.rows.length = n ∧
  (∀ l, .inr l ∈ s.table → BetweenRows l) ∧
  "@@@@@".toList <+: s.last.drop 1 ∧ ∀ l ∈ s.after, ¬ "TOTAL TIME".toList <+: strip l

/-- The number a text in a table stands for (see C05), NaN if there is none. -/
def cellNumber (s : Str) : Flt :=
  match str2float s with
  | .ok x => x
  | .error _ => .nan

/-- What there is to be read at one time: the time, the labels and for every variable
the numbers in its column. -/
def ListingStep.output (s : ListingStep) : Output (List Str) Flt where
  time := pyFloat s.timeText
  labels := s.rows.map (·.labels)
  data := s.vars.zipIdx.map fun v =>
    (v.1.text, s.rows.filterMap fun r => (r.cells[v.2]?).map fun c => cellNumber c.text)

end Verif.Spec
