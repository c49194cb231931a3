import Verif.Model.History
import Verif.Spec.Listing

/-!
# Specification of history files
-/

namespace Verif.Spec
open Verif.Py Verif.Model

/-- Only blanks. -/
def OnlyBlanks (s : Str) : Prop := ∀ c ∈ s, isSpace c = true

instance (s : Str) : Decidable (OnlyBlanks s) := by unfold OnlyBlanks; infer_instance

/-- A line of words with blanks between them. -/
structure WordLine where
  lead : Str
  first : Str
  rest : List (Str × Str)
  trail : Str

/-- The text of the line. -/
def WordLine.text (l : WordLine) : Str := l.lead ++ (l.first ++ (l.rest.flatMap (fun e => e.1 ++ e.2) ++ l.trail))

/-- Its words. -/
def WordLine.words (l : WordLine) : List Str := l.first :: l.rest.map (·.2)

/-- There are blanks between the words and nowhere else. -/
structure WordLine.Ok (l : WordLine) : Prop where
  lead : OnlyBlanks l.lead
  first : Word l.first
  rest : ∀ e ∈ l.rest, e.1 ≠ [] ∧ OnlyBlanks e.1 ∧ Word e.2
  trail : OnlyBlanks l.trail

/-- A text between blanks. -/
structure Padded where
  left : Str
  text : Str
  right : Str

/-- The text with its blanks. -/
def Padded.str (p : Padded) : Str := p.left ++ (p.text ++ p.right)

/-- Blanks around a text without commas. -/
structure Padded.Ok (p : Padded) : Prop where
  left : OnlyBlanks p.left
  right : OnlyBlanks p.right
  comma : ',' ∉ p.text

/-- Texts separated by commas. -/
def commaLine : List Padded → Str
  | [] => []
  | [p] => p.str
  | p :: r => p.str ++ ',' :: commaLine r

/-- A name in quotation marks, with blanks around the name and around the marks. -/
structure QuotedName where
  before : Str
  name : Padded
  after : Str

/-- The text of the name. -/
def QuotedName.str (q : QuotedName) : Str := q.before ++ '"' :: (q.name.str ++ '"' :: q.after)

/-- The name has neither commas nor quotation marks, and no blanks at its ends. -/
structure QuotedName.Ok (q : QuotedName) : Prop where
  before : OnlyBlanks q.before
  after : OnlyBlanks q.after
  name : q.name.Ok
  quote : '"' ∉ q.name.text
  ends : strip q.name.text = q.name.text

/-- Quoted names separated by commas. -/
def quotedLine (qs : List QuotedName) : Str := commaLine (qs.map fun q => ⟨[], q.str, []⟩)

/-- Column `j` of a table. -/
def tableColumn (rows : List (List Flt)) (j : ℕ) : List Flt := rows.filterMap (·[j]?)

/-- The columns of a table under their names; the first one is the time. -/
def historyTable (names : List Str) (rows : List (List Flt)) : List (Str × List Flt) :=
  ("TIME".toList :: names).zipIdx.map fun e => (e.1, tableColumn rows e.2)

/-- The texts of a row are those of numbers. -/
def Numbers (ts : List Str) (xs : List Flt) : Prop := ts.map pyFloat = xs.map some

/-- What ends the table: the end of the file or an empty line. -/
def TableEnd (ls : List Str) : Prop := ∀ l ∈ ls.head?, OnlyBlanks l

instance (ls : List Str) : Decidable (TableEnd ls) := by unfold TableEnd; infer_instance

end Verif.Spec
