import Verif.Model.MeshObject
import Verif.Spec.Meshio
import Verif.Spec.MeshWrite

/-!
# What the attributes of a mesh are (C79)
-/

namespace Verif.Spec
open Verif.Py Verif.Model Verif.Mesh

/-- `d` has, for each type of the cells, those of that type in order; the types are in the order
in which they are found first. -/
structure ByType (cells : List CellBlock) (d : List (CellType × List (List ℕ))) : Prop where
  types : (d.map (·.1)).Nodup
  order : (d.map (·.1)).Sublist (cells.map (·.type))
  same : ∀ t cs, (t, cs) ∈ d ↔ t ∈ cells.map (·.type) ∧ cs = ((typedCells cells).filter (·.1 = t)).map (·.2)

/-- The porosity of the cell with that number, if there are porosities. -/
def PorosityAt (cellData : List (Str × Arr)) (i : ℕ) (x : Option Flt) : Prop :=
  (∃ l v, ("porosity".toList, Arr.vec l) ∈ cellData ∧ l[i]? = some v ∧ x = some v) ∨
    ("porosity".toList ∉ cellData.map (·.1) ∧ x = none)

/-- The permeability modifiers of the cell with that number, if there are any: one or three. -/
def ModifiersAt (cellData : List (Str × Arr)) (i : ℕ) (x : Option (List Flt)) : Prop :=
  (∃ l v, ("permeability".toList, Arr.vec l) ∈ cellData ∧ l[i]? = some v ∧ x = some [v]) ∨
    (∃ rows r, ("permeability".toList, Arr.mat 3 rows) ∈ cellData ∧ rows[i]? = some r ∧ x = some r) ∨
    ("permeability".toList ∉ cellData.map (·.1) ∧ x = none)

/-- Porosities are a list with an entry for each of the `n` cells. -/
def PorosityShape (n : ℕ) (a : Arr) : Prop := ∃ l, a = .vec l ∧ l.length = n

/-- Permeability modifiers are a list with one or with three entries for each of the `n` cells. -/
def ModifiersShape (n : ℕ) (a : Arr) : Prop :=
  (∃ l, a = .vec l ∧ l.length = n) ∨ ∃ rows, a = .mat 3 rows ∧ rows.length = n

/-- Cell data with different names, the initial conditions `rows` with an entry for each of
the `n` cells, and porosities and permeability modifiers of the right shape. -/
structure InconData (n : ℕ) (cellData : List (Str × Arr)) (m : ℕ) (rows : List (List Flt)) : Prop where
  names : (cellData.map (·.1)).Nodup
  given : ("initial_condition".toList, Arr.mat m rows) ∈ cellData
  columns : m ≠ 0
  all : rows.length = n
  porosity : ∀ a, ("porosity".toList, a) ∈ cellData → PorosityShape n a
  modifiers : ∀ a, ("permeability".toList, a) ∈ cellData → ModifiersShape n a

end Verif.Spec
