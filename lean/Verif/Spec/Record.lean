import Verif.Model.Record
import Verif.Spec.Quant

/-!
# Specification of record storage

What a column can hold and what comes back, stated without the reader or the
writer.
-/

namespace Verif.Spec
open Verif.Py Verif.Model

/-- The value fits its column: text has at most `w` characters and no outer
blanks; an integer prints in at most `w` characters and has at most six digits
(`format(i, 'g')` keeps six); a real prints in at most `w` characters. Text in a
raw column (`S`) must fill the column. Only integers are considered for fixed
point columns (`f`); the library writes nothing else there. -/
def Fits (t : Tok) : Val → Prop
  | .none => t.kind ≠ .f
  | .str s => match t.kind with
    | .s => s.length ≤ t.w ∧ strip s = s
    | .S => s.length = t.w ∧ s ≠ []
    | .d | .e => s = []
    | .f => False
  | .bool b => match t.kind with
    | .d => (intStr (if b then 1 else 0)).length ≤ t.w
    | _ => False
  | .int i => match t.kind with
    | .d => (intStr i).length ≤ t.w ∧ i.natAbs < 10 ^ 6
    | .e => (fmtE t.p (fltOfInt i)).length ≤ t.w
    | .f => (fmtF t.p (fltOfInt i)).length ≤ t.w ∧ i.natAbs < 10 ^ 6
    | _ => False
  | .flt x => match t.kind with
    | .e => (fmtE t.p x).length ≤ t.w
    | _ => False

/-- What is read back from a column in which a fitting value was written. -/
def stored (t : Tok) : Val → Val
  | .none => if t.kind = .S ∧ t.w ≠ 0 then .str (blanks t.w) else .none
  | .str s => if s = [] then .none else .str s
  | .bool b => .int (if b then 1 else 0)
  | .int i => match t.kind with
    | .e => .flt (quant t.p (fltOfInt i))
    | .f => .flt (fltOfInt i)
    | _ => .int i
  | .flt x => .flt (quant t.p x)

/-- Every value of a record fits its column. -/
def AllFit : List Tok → List Val → Prop
  | _, [] => True
  | [], _ :: _ => True
  | t :: ts, v :: vs => Fits t v ∧ AllFit ts vs

/-- What is read back from a record: stored values, columns without a value
being missing, values without a column being dropped. -/
def storedAll : List Tok → List Val → List Val
  | [], _ => []
  | t :: ts, [] => stored t .none :: storedAll ts []
  | t :: ts, v :: vs => stored t v :: storedAll ts vs

/-- Total width of a format. -/
def width (ts : List Tok) : ℕ := (ts.map (·.w)).sum

/-- The longest prefix whose last entry is present. -/
def IsPruned (l r : List Val) : Prop :=
  ∃ k, l = r ++ List.replicate k .none ∧ r.getLast? ≠ some .none

/-- A list without its missing trailing entries. -/
def dropTrailing (l : List Val) : List Val := (l.reverse.dropWhile (· = .none)).reverse

instance (t : Tok) (v : Val) : Decidable (Fits t v) := by
  unfold Fits; split <;> (try split) <;> infer_instance

instance : (ts : List Tok) → (vs : List Val) → Decidable (AllFit ts vs)
  | [], [] => isTrue trivial
  | _ :: _, [] => isTrue trivial
  | [], _ :: _ => isTrue trivial
  | t :: ts, v :: vs =>
    have : Decidable (AllFit ts vs) := instDecidableAllFit ts vs
    inferInstanceAs (Decidable (Fits t v ∧ AllFit ts vs))

end Verif.Spec
