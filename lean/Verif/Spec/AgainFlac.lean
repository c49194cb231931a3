import Verif.Spec.Again

/-!
# Specification: parameters with a FLAC block whose file does not change when it is loaded and saved
-/

namespace Verif.Spec
open Verif.Py Verif.Model

/-- The values of a FLAC block print the same once they were read. -/
def FlacTame (p : Params) : Prop :=
  ∀ f ∈ p.flac, Tame f.porosityModel ∧ Tame f.version ∧
    ∀ e ∈ p.rocks, ∀ m ∈ [(flacModels (mergeRock p.dflt e.2)).1, (flacModels (mergeRock p.dflt e.2)).2],
      Tame m.id ∧ ∀ v ∈ m.params, Tame v

instance (p : Params) : Decidable (FlacTame p) := by unfold FlacTame; infer_instance

/-- Settled but for the FLAC block, which may be there. -/
def SettledFlac (p : Params) : Prop := Settled { p with flac := none } ∧ FlacTame p

instance (p : Params) : Decidable (SettledFlac p) := by unfold SettledFlac; infer_instance

end Verif.Spec
