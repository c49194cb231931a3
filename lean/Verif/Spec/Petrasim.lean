import Verif.Spec.Csv
import Mathlib.Order.WithBot
import Mathlib.Algebra.Order.Field.Rat

/-!
# Specification of Petrasim output files
-/

namespace Verif.Spec
open Verif.Py Verif.Model

/-- A text that survives between commas: no comma or end of line in it and no
blank around it. -/
def FieldText (s : Str) : Prop :=
  (∀ c ∈ s, c ≠ ',' ∧ c ≠ '\n' ∧ c ≠ '\r') ∧
    (∀ c ∈ s.head?, isSpace c = false) ∧ ∀ c ∈ s.getLast?, isSpace c = false

instance (s : Str) : Decidable (FieldText s) := by unfold FieldText; infer_instance

/-- Times: numbers with an earliest and a last one, both infinite. -/
abbrev Time := WithBot (WithTop ℚ)

/-- The time a float stands for. -/
def value : Flt → Option Time
  | .fin neg mag => some (((if neg then -(mag : ℚ) else mag : ℚ) : WithTop ℚ) : Time)
  | .inf true => some ⊥
  | .inf false => some ((⊤ : WithTop ℚ) : Time)
  | .nan => none

/-- The time of an output to thirteen digits. -/
def outTime (o : Output Str Flt) : Option Time := o.time.bind fun t => value (quant 12 t)

/-- Outputs with the variables `ks` at times that are numbers or infinite. -/
def PetraOk (ks : List Str) (outs : List (Output Str Flt)) : Prop :=
  ks ≠ [] ∧ ks.Nodup ∧ (∀ k ∈ ks, FieldText k) ∧ ∀ o ∈ outs, (outTime o).isSome = true ∧
    (o.data.map (·.1)).Perm ks ∧ Full o ∧ ∀ l ∈ o.labels, FieldText l

/-- `r` holds, for the time `q`, all that the outputs at that time contain, in the
order of the outputs. -/
def GroupBack (ks : List Str) (outs : List (Output Str Flt)) (q : Time) (r : Output Str Flt) : Prop :=
  (∃ o ∈ outs, outTime o = some q ∧ r.time = o.time.map (quant 12)) ∧
  r.labels = (outs.filter fun o => outTime o = some q).flatMap (·.labels) ∧
  (r.data.map (·.1)).Perm ks ∧
  ∀ k ∈ ks, r.data.lookup k = some ((outs.filter fun o => outTime o = some q).flatMap fun o =>
    ((o.data.lookup k).getD []).map (quant 12))

end Verif.Spec
