import Verif.Spec.Voxelize
import Mathlib.Algebra.Order.Field.Basic

/-!
# Specification of grids from points with one value on an axis (C70)
-/

namespace Verif.Mesh
open Verif.Spec

section
variable {K : Type} [Field K] [LinearOrder K]

/-- A coordinate of centres of cells: one of the values, and half a unit from the origin if there
are not two different ones. -/
def CentreOn (x0 : K) (l : List K) (c : K) : Prop := (TwoValues l ∧ c ∈ l) ∨ (¬ TwoValues l ∧ c = x0 + 1 / 2)

/-- The origin suits the values: below all of them if there are two different ones. -/
def Below (x0 : K) (l : List K) : Prop := TwoValues l → ∀ x ∈ l, x0 < x

/-- The cells can be around the values: there are two different ones, or the only one is half a unit
from the origin. -/
def Placed (x0 : K) (l : List K) : Prop := TwoValues l ∨ ∀ x ∈ l, x = x0 + 1 / 2

end

end Verif.Mesh
