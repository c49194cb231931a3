import Verif.Model.Hist
import Verif.Spec.Selec

/-!
# Specification of what TIMES, FOFT, COFT, GOFT, DIFFU and OUTPU give back
-/

namespace Verif.Spec
open Verif.Py Verif.Model

/-- A list of output times: numbers that fit, fewer than 100000. -/
def TimesFit (l : List Val) : Prop :=
  l.length < 10 ^ 5 ∧ ∀ v ∈ l, IsNumber v ∧ Fits (eCol 10 4) v

instance (l : List Val) : Decidable (TimesFit l) := by unfold TimesFit; infer_instance

/-- A row of diffusion coefficients: at most eight that fit, one at least
present. -/
def DiffuFits (r : List Val) : Prop :=
  r.length ≤ 8 ∧ (∃ v ∈ r, IsNumber v) ∧ ∀ v ∈ r, Fits (eCol 10 3) v

instance (r : List Val) : Decidable (DiffuFits r) := by unfold DiffuFits; infer_instance

/-- At most two integers. -/
def RowOk (r : List Val) : Prop := r.length ≤ 2 ∧ ∀ v ∈ r, Int5 v

instance (r : List Val) : Decidable (RowOk r) := by unfold RowOk; infer_instance

/-- Arguments of an output variable: none, one or two integers, or several such
rows. -/
def ArgsOk : Args → Prop
  | .one v => Int5 v
  | .list l => l ≠ [] ∧ RowOk l
  | .rows l => l ≠ [] ∧ ∀ r ∈ l, RowOk r

instance (a : Args) : Decidable (ArgsOk a) := by unfold ArgsOk; split <;> infer_instance

/-- What comes back of one row of arguments. -/
def rowBack (r : List Val) : Args :=
  match dropTrailing r with
  | [] => .one .none
  | [v] => .one v
  | l => .list l

/-- What comes back of the arguments: one row stands for itself. -/
def argsBack : Args → Args
  | .one v => .one v
  | .list l => rowBack l
  | .rows [r] => rowBack r
  | .rows l => .rows (l.map dropTrailing)

/-- A text of one to `w` characters without outer blanks. -/
def TextFits (w : ℕ) (s : Str) : Prop := s ≠ [] ∧ s.length ≤ w ∧ strip s = s

instance (w : ℕ) (s : Str) : Decidable (TextFits w s) := by unfold TextFits; infer_instance

/-- Number of lines an output variable takes. -/
def argCount : Args → ℕ
  | .rows l => l.length
  | _ => 1

/-- The output variables fit: names without regard to case distinct. -/
def VarsFit (vars : List (Str × Args)) : Prop :=
  (vars.map fun e => lower e.1).Nodup ∧ (∀ e ∈ vars, TextFits 20 e.1 ∧ ArgsOk e.2) ∧
    (vars.map fun e => argCount e.2).sum < 10 ^ 15

instance (vars : List (Str × Args)) : Decidable (VarsFit vars) := by unfold VarsFit; infer_instance

/-- An output format: not an integer. -/
def FormatFits (f : Str) : Prop := TextFits 20 f ∧ strIsDigit f = false

instance (f : Str) : Decidable (FormatFits f) := by unfold FormatFits; infer_instance

end Verif.Spec
