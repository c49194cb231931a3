import Verif.Spec.Petrasim
import Verif.Model.Tecplot

/-!
# Specification of Tecplot output files
-/

namespace Verif.Spec
open Verif.Py Verif.Model

/-- The name of a variable that survives in a Tecplot file. -/
def TecName (s : Str) : Prop :=
  s ≠ [] ∧ s.length < 18 ∧ ∀ c ∈ s, isSpace c = false ∧ c ≠ ',' ∧ c ≠ '=' ∧ c ≠ '"'

instance (s : Str) : Decidable (TecName s) := by unfold TecName; infer_instance

/-- A number whose text leaves a blank in a column of twenty characters. -/
def TecNum (x : Flt) : Prop := (fmtE 12 x).length < 20

instance (x : Flt) : Decidable (TecNum x) := by unfold TecNum; infer_instance

/-- Outputs with the variables `ks`, among them the coordinates `X` and `Y`, and at
least one row. -/
def TecOk (ks : List Str) (outs : List (Output Str Flt)) : Prop :=
  "X".toList ∈ ks ∧ "Y".toList ∈ ks ∧ ks.Nodup ∧ (∀ k ∈ ks, TecName k) ∧
  ∀ o ∈ outs, o.time.isSome = true ∧ (o.data.map (·.1)).Perm ks ∧ Full o ∧ o.labels ≠ [] ∧
    ∀ e ∈ o.data, ∀ x ∈ e.2, TecNum x

end Verif.Spec
