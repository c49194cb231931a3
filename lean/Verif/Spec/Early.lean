import Verif.Spec.Csv
import Verif.Spec.Listing

/-!
# Specification of output files that end early

A simulation that is stopped, or a file that is copied while it is written, leaves a
file with only the first lines.
-/

namespace Verif.Spec
open Verif.Py Verif.Model

/-- An output of which only the first `j` rows are known. -/
def shorten {L : Type} (j : ℕ) (o : Output L Flt) : Output L Flt :=
  ⟨o.time, o.labels.take j, o.data.map fun e => (e.1, e.2.take j)⟩

/-- What is known of outputs of which the first `k` are complete and `j` rows of the
next one are known. -/
def known {L : Type} (k j : ℕ) (outs : List (Output L Flt)) : List (Output L Flt) :=
  outs.take k ++ ((outs[k]?).map (shorten j)).toList

/-- The number of rows of the first `k` outputs. -/
def rowsBefore {L : Type} (k : ℕ) (outs : List (Output L Flt)) : ℕ :=
  ((outs.take k).map fun o => o.labels.length).sum

/-- The number of lines of the first `k` outputs: one with the time, and the rows. -/
def linesBefore {L : Type} (k : ℕ) (outs : List (Output L Flt)) : ℕ :=
  ((outs.take k).map fun o => o.labels.length + 1).sum

/-- The number of lines printed for one time up to the end of its table. -/
def ListingStep.upToTable (s : ListingStep) : ℕ := s.before.length + s.table.length + 4

end Verif.Spec
