import Verif.Spec.Listing
import Verif.Spec.Grid
import Verif.Model.MeshBlocks

/-!
# Specification of extracting outputs (C71)
-/

namespace Verif.Spec
open Verif.Py Verif.Model Verif.Mesh

/-- The cell called `l` has its centre at `c`. -/
def CenterIs (elems : List (Val × Elem)) (l : Str) (c : P3 Flt) : Prop :=
  ∃ e, dictGet elems (.str l) = .ok e ∧ e.center = .list [.flt c.x, .flt c.y, .flt c.z]

/-- The names of the coordinates. -/
def axes : List Str := ["X".toList, "Y".toList, "Z".toList]

/-- The variables together with the coordinates `cs`, which replace variables of the same
name. -/
def located (cs : List (P3 Flt)) (data : List (Str × List Flt)) : List (Str × List Flt) :=
  [("X".toList, cs.map (·.x)), ("Y".toList, cs.map (·.y)), ("Z".toList, cs.map (·.z))] ++
    data.filter fun e => e.1 ∉ axes

/-- The variables with thirteen digits. -/
def rounded (data : List (Str × List Flt)) : List (Str × List Flt) := data.map fun e => (e.1, e.2.map (quant 12))

/-- A main output file with `m` labels in each of the `n` rows of every table; the labels
are the same at every time. -/
structure ListingFile (key : Str) (m : ℕ) (vars : List Str) (ls : List (List Str)) (pre : List Str)
    (steps : List ListingStep) : Prop where
  names : vars.Nodup
  before : ∀ l ∈ pre, ¬ "TOTAL TIME".toList <+: strip l
  some : steps ≠ []
  rows : ls ≠ []
  fits : ∃ L, (5 ≤ L ∧ L ≤ 9) ∧ ∀ s ∈ steps, StepFits key L m ls.length vars s
  labels : ∀ s ∈ steps, s.rows.map (·.labels) = ls

/-- The lines of the file. -/
def listingLines (pre : List Str) (steps : List ListingStep) : List Str := pre ++ steps.flatMap (·.lines)

end Verif.Spec
