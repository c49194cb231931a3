import Verif.Model.Output

/-!
# Specification of reordering outputs
-/

namespace Verif.Spec
open Verif.Py Verif.Model

/-- Every variable has one row per label. -/
def Full {L α : Type} (o : Output L α) : Prop := ∀ e ∈ o.data, e.2.length = o.labels.length

/-- The variables of `r` are those of `o`, in the same order, and wherever a label
of `r` equals a label of `o` the rows are equal. -/
def RowsKept {L α : Type} (o r : Output L α) : Prop :=
  List.Forall₂ (fun e e' => e'.1 = e.1 ∧ e'.2.length = r.labels.length ∧
    ∀ i j : ℕ, i < r.labels.length → j < o.labels.length → r.labels[i]? = o.labels[j]? →
      e'.2[i]? = e.2[j]?) o.data r.data

end Verif.Spec
