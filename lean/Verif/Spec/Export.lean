import Verif.Model.Export
import Verif.Spec.Voxelize
import Verif.Spec.Series
import Verif.Spec.Output

/-!
# What exporting results means
-/

namespace Verif.Spec
open Verif.Py Verif.Mesh

section
variable {K : Type} [Field K] [LinearOrder K]

/-- The coordinates of that name, zeros if there are none. -/
def Column (data : List (Str × List K)) (n : ℕ) (k : Str) (col : List K) : Prop :=
  (k, col) ∈ data ∨ (k ∉ data.map (·.1) ∧ col = List.replicate n 0)

/-- The centre of a cell is at a point on all axes on which the points differ. -/
def AgreeOn (pts : List (P3 K)) (c p : P3 K) : Prop :=
  (TwoValues (pts.map (·.x)) → c.x = p.x) ∧ (TwoValues (pts.map (·.y)) → c.y = p.y) ∧
    (TwoValues (pts.map (·.z)) → c.z = p.z)

/-- The values `w` of cells with centres `cs` are the values `v` at the points. -/
def AtPoints {α : Type} (pts cs : List (P3 K)) (v w : List α) : Prop :=
  w.length = cs.length ∧ ∀ (i : ℕ) c, cs[i]? = some c → ∃ (j : ℕ) (p : P3 K), pts[j]? = some p ∧ AgreeOn pts c p ∧ w[i]? = v[j]?

/-- The points are at the same height, and on a line along an axis if the cells are not
listed by layers. -/
def SameHeight (layer : Bool) (pts : List (P3 K)) : Prop :=
  ¬ TwoValues (pts.map (·.z)) ∧ (layer = true ∨ ¬ TwoValues (pts.map (·.x)) ∨ ¬ TwoValues (pts.map (·.y)))

end

/-- The name of an array that is not a coordinate. -/
def Plain (k : Str) : Prop := k ∉ ["X".toList, "Y".toList, "Z".toList]

instance (k : Str) : Decidable (Plain k) := inferInstanceAs (Decidable (k ∉ _))

/-- The output that is asked for: the last one, or that of a number, negative numbers count
from the end. -/
def Chosen {α : Type} (step : Option ℤ) (outs : List α) (o : α) : Prop :=
  (step = none ∧ outs.getLast? = some o) ∨ (∃ i : ℕ, step = some (i : ℤ) ∧ outs[i]? = some o) ∨
    ∃ i : ℕ, step = some (-(i + 1 : ℤ)) ∧ outs.reverse[i]? = some o

/-- The mesh is made from the output: none is given, or the output is one of Tecplot. -/
def NoMesh {K : Type} (mesh : MeshArg K) (tecplot : Bool) : Prop :=
  mesh = .absent ∨ (tecplot = true ∧ mesh ≠ .missing)

/-- A point moved to the plane of the first two axes, if it is given on two. -/
def Flattened {K : Type} [Field K] (axis : List ℕ) (p q : P3 K) : Prop :=
  (axis = [0, 1, 2] → q = p) ∧ (axis = [0, 1] → q = ⟨p.x, p.y, 0⟩) ∧ (axis = [0, 2] → q = ⟨p.x, p.z, 0⟩) ∧
    (axis = [1, 2] → q = ⟨p.y, p.z, 0⟩)

/-- The data of an output without the coordinates. -/
def results {K : Type} (data : List (Str × List K)) : List (Str × List K) := data.filter fun kv => Plain kv.1

end Verif.Spec
