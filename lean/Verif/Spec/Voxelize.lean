import Verif.Spec.Grid

/-!
# Specification of grids from points (C70)
-/

namespace Verif.Mesh
open Verif.Spec

section
variable {K : Type} [Field K] [LinearOrder K]

/-- Two different values. -/
def TwoValues (l : List K) : Prop := ∃ x ∈ l, ∃ y ∈ l, x ≠ y

/-- The points are all combinations of their coordinates. -/
def AllCombinations (pts : List (P3 K)) : Prop :=
  ∀ p ∈ pts, ∀ q ∈ pts, ∀ r ∈ pts, (⟨p.x, q.y, r.z⟩ : P3 K) ∈ pts

/-- The different values in increasing order. -/
def Coordinates (l xs : List K) : Prop := xs.Pairwise (· < ·) ∧ ∀ x, x ∈ xs ↔ x ∈ l

/-- The values are in the middle of the planes with widths `d` from `x0` on. -/
def Halfway (x0 : K) (d xs : List K) : Prop :=
  ∃ h : d.length = xs.length, ∀ i (hi : i < xs.length), (x0 + plane d i) + (x0 + plane d (i + 1)) = 2 * xs[i]

end

end Verif.Mesh
