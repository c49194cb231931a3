import Verif.Spec.Blocks
import Verif.Model.Opts

/-!
# Specification of what the option blocks give back
-/

namespace Verif.Spec
open Verif.Py Verif.Model

/-- An integer or a real number. -/
def IsNumber : Val → Prop
  | .int _ | .flt _ => True
  | _ => False

instance (v : Val) : Decidable (IsNumber v) := by
  unfold IsNumber; split <;> infer_instance

/-- The number asked for, or the default if none (or zero) is asked for. -/
def asked (x : Option ℤ) (d : ℤ) : ℤ := if x.getD 0 = 0 then d else x.getD 0

/-- The value of a key, missing if the key is absent. -/
def valueAt (d : List (ℤ × Val)) (k : ℤ) : Val := (d.lookup k).getD .none

/-- Option digits: distinct indices `1..n`, each value unset or a digit. -/
def DigitsOk (n : ℕ) (d : List (ℤ × Val)) : Prop :=
  (d.map (·.1)).Nodup ∧ ∀ e ∈ d, 1 ≤ e.1 ∧ e.1 ≤ n ∧
    (e.2 = .none ∨ ∃ k : Fin 10, e.2 = .int (k : ℕ))

instance (n : ℕ) (d : List (ℤ × Val)) : Decidable (DigitsOk n d) := by
  unfold DigitsOk; infer_instance

/-- The entries that are set, by increasing index. -/
def setEntries (n : ℕ) (d : List (ℤ × Val)) : List (ℤ × Val) :=
  ((List.range n).map fun k : ℕ => ((k : ℤ) + 1, valueAt d ((k : ℤ) + 1))).filter (·.2 ≠ .none)

end Verif.Spec

namespace Verif.Spec
open Verif.Py Verif.Model

/-- The options other than the time steps fit their columns. -/
def OptionsFit (o : Options) : Prop :=
  (∀ v ∈ [o.nIteration, o.verbosity], Fits (dCol 2) v) ∧
  (∀ v ∈ [o.nCycle, o.nSecond, o.nCyclePrint], Fits (dCol 4) v) ∧
  ∀ v ∈ [o.tempDepGas, o.effStrengthVapor, o.tIni, o.tMax, o.tStepMax, o.tReduceFactor, o.gravity,
    o.meshScaleFactor, o.eps1, o.eps2, o.wUpstream, o.wNewton, o.derivativeFactor],
    Fits (eCol 10 4) v

instance (o : Options) : Decidable (OptionsFit o) := by unfold OptionsFit; infer_instance

/-- What comes back of a list of time steps: a single one becomes a scalar. -/
def stepsBack (l : List Val) : SoL :=
  match l.map (num 4) with
  | [v] => .one v
  | l => .many l

/-- What comes back of the options, `s` being the time steps. -/
def optionsBack (o : Options) (s : SoL) : Options :=
  { nIteration := stored (dCol 2) o.nIteration
    verbosity := stored (dCol 2) o.verbosity
    nCycle := stored (dCol 4) o.nCycle
    nSecond := stored (dCol 4) o.nSecond
    nCyclePrint := stored (dCol 4) o.nCyclePrint
    tempDepGas := num 4 o.tempDepGas
    effStrengthVapor := num 4 o.effStrengthVapor
    tIni := num 4 o.tIni
    tMax := num 4 o.tMax
    tSteps := s
    tStepMax := num 4 o.tStepMax
    tReduceFactor := num 4 o.tReduceFactor
    gravity := num 4 o.gravity
    meshScaleFactor := num 4 o.meshScaleFactor
    eps1 := num 4 o.eps1
    eps2 := num 4 o.eps2
    wUpstream := num 4 o.wUpstream
    wNewton := num 4 o.wNewton
    derivativeFactor := num 4 o.derivativeFactor }

/-- The values of an initial condition: at most eight numbers, wide columns. -/
def InitFits (ic : List Val) : Prop := ic.length ≤ 8 ∧ ∀ v ∈ ic, Fits (eCol 20 13) v

instance (ic : List Val) : Decidable (InitFits ic) := by unfold InitFits; infer_instance

/-- What comes back of an initial condition. -/
def initBack (ic : List Val) : List Val := dropTrailing (ic.map (num 13))

/-- A text that Python reads as a number, possibly after inserting the exponent
letter that Fortran leaves out. -/
def NumberText (s : Str) : Prop :=
  (pyFloat s).isSome ∨ (pyFloat (s.take (s.length - 4) ++ 'e' :: s.drop (s.length - 4))).isSome

instance (s : Str) : Decidable (NumberText s) := by unfold NumberText; infer_instance

end Verif.Spec
