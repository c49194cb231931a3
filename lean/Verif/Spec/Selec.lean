import Verif.Spec.Opts

/-!
# Specification of what the SELEC and INDOM blocks give back
-/

namespace Verif.Spec
open Verif.Py Verif.Model

/-- An integer that fits a column of five characters, or nothing. -/
def Int5 : Val → Prop
  | .none => True
  | .int i => Fits (dCol 5) (.int i)
  | _ => False

instance (v : Val) : Decidable (Int5 v) := by
  unfold Int5; split <;> infer_instance

/-- Selection integers: distinct indices 1..16, integers of five characters. -/
def IntsOk (d : List (ℤ × Val)) : Prop :=
  (d.map (·.1)).Nodup ∧ ∀ e ∈ d, 1 ≤ e.1 ∧ e.1 ≤ 16 ∧ Int5 e.2

instance (d : List (ℤ × Val)) : Decidable (IntsOk d) := by unfold IntsOk; infer_instance

/-- The rows of the selection floats. -/
def rowsOf : Floats → List (List Val)
  | .absent | .none | .row [] => []
  | .row l => [l]
  | .rows l => l

/-- Rows of at most eight numbers that fit their columns. -/
def RowsFit (rows : List (List Val)) : Prop :=
  rows.length < 10 ^ 5 ∧ ∀ r ∈ rows, r.length ≤ 8 ∧ ∀ v ∈ r, Fits (eCol 10 3) v

instance (rows : List (List Val)) : Decidable (RowsFit rows) := by unfold RowsFit; infer_instance

/-- What comes back of the rows: a single row comes back as a row. -/
def floatsBack (rows : List (List Val)) : Floats :=
  match rows.map fun r => dropTrailing (r.map (num 3)) with
  | [r] => .row r
  | l => .rows l

/-- The entries of a rock dictionary that the INDOM block holds: rocks with at
least one value in their initial condition. -/
def indomRows (l : List (Val × Option (List Val))) : List (Val × List Val) :=
  l.filterMap fun e => e.2.bind fun ic => if ic.any (· ≠ .none) then some (e.1, ic) else none

/-- A name that Python does not read as a number. -/
def NotNumber : Val → Prop
  | .str s => ¬ NumberText s
  | _ => False

instance (v : Val) : Decidable (NotNumber v) := by
  unfold NotNumber; split <;> infer_instance

/-- A rock and its initial condition fit the INDOM block: the name fits and is
not a number; at most eight values; if there are more than four, one of those
after the fourth is present. -/
def IndomFits (e : Val × List Val) : Prop :=
  NameFits 5 e.1 ∧ NotNumber e.1 ∧ InitFits e.2 ∧
    (4 < e.2.length → ∃ v ∈ e.2.drop 4, IsNumber v)

instance (e : Val × List Val) : Decidable (IndomFits e) := by unfold IndomFits; infer_instance

/-- Rocks with more than four values come before those with at most four. -/
def LongFirst (l : List (Val × List Val)) : Prop :=
  l.Pairwise fun a b => 4 < b.2.length → 4 < a.2.length

instance (l : List (Val × List Val)) : Decidable (LongFirst l) := by
  unfold LongFirst; infer_instance

end Verif.Spec
