import Verif.Spec.Tecplot
import Verif.Spec.Again

/-!
# Specification: output files that are loaded and saved
-/

namespace Verif.Spec
open Verif.Py Verif.Model

/-- All values of the outputs are in the range of the floats. -/
def ValuesInRange {L : Type} (outs : List (Output L Flt)) : Prop :=
  ∀ o ∈ outs, ∀ e ∈ o.data, ∀ x ∈ e.2, InRange x

instance {L : Type} (outs : List (Output L Flt)) : Decidable (ValuesInRange outs) := by
  unfold ValuesInRange; infer_instance

/-- A time that was read with `q` decimals is printed with `p` decimals as the time
itself is. -/
def TimesKept {L : Type} (q p : ℕ) (outs : List (Output L Flt)) : Prop :=
  ∀ o ∈ outs, ∀ t ∈ o.time, fmtE p (quant q t) = fmtE p t

/-- All times are in the range of the floats. -/
def TimesInRange {L : Type} (outs : List (Output L Flt)) : Prop :=
  ∀ o ∈ outs, ∀ t ∈ o.time, InRange t

end Verif.Spec
