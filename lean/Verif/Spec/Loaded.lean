import Verif.Model.File
import Verif.Spec.Json

/-!
# Specification of the conversion of TOUGH input files to JSON
-/

namespace Verif.Spec
open Verif.Py Verif.Model

/-- The same dictionary, its entries in any order. -/
def SameEntries (v v' : Tree) : Prop := ∃ d d', v = .dict d ∧ v' = .dict d' ∧ d'.Perm d

/-- What comes back of one parameter: the same value. The entries of the three dictionaries
with integers as keys may be in another order. -/
def Unchanged (k : Key) (v v' : Tree) : Prop :=
  if k = key "extra_options" ∨ k = key "more_options" then SameEntries v v'
  else if k = key "selections" then
    ∃ d d', v = .dict d ∧ v' = .dict d' ∧ List.Forall₂ (fun e e' => e'.1 = e.1 ∧
      if e.1 = key "integers" then SameEntries e.2 e'.2 else e'.2 = e.2) d d'
  else v' = v

/-- The same value, or a dictionary that has some of the entries of another one. -/
inductive Within : Tree → Tree → Prop
  | same (t : Tree) : Within t t
  | dict (d d' : List (Key × Tree)) (g : Key × Tree → Tree) (h : ∀ e ∈ d, (e.1, g e) ∈ d')
      (hg : ∀ e ∈ d, Within e.2 (g e)) : Within (.dict d) (.dict d')

/-- The labels of the rows of a file. -/
def rowLabels (r : FileRead) : List Val :=
  (r.rocks.map fun t => t.1.map (·.1)).getD [] ++ ((r.generators.map fun t => t.map (·.1)).getD [] ++
    ((r.elements.map fun t => t.1.map (·.1)).getD [] ++ ((r.connections.map fun t => t.1.map (·.1)).getD [] ++
    (r.initialConditions.map fun t => t.1.map (·.1)).getD [])))

end Verif.Spec
