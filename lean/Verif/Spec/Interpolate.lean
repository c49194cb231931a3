import Verif.Model.Interpolate
import Mathlib.Algebra.BigOperators.Group.Finset.Basic

/-!
# What interpolation between cells and points means

The cells are given by the lists of their vertices.
-/

namespace Verif.Spec
open Verif.Py Verif.Mesh

variable {K : Type} [Field K] [LinearOrder K]

/-- The weight of cell `i` at point `p`: the volume of the cell, once for every vertex that
is `p`. -/
def weightAt (cells : List (List ℕ)) (vols : List K) (p i : ℕ) : K :=
  ((cells.getD i []).count p : K) * vols.getD i 0

/-- `x` is the mean of the values `vs` of the cells around `p`, weighted by volume. -/
def VolumeMean (cells : List (List ℕ)) (vols vs : List K) (p : ℕ) (x : K) : Prop :=
  x = (∑ i ∈ Finset.range cells.length, weightAt cells vols p i * vs.getD i 0) /
    ∑ i ∈ Finset.range cells.length, weightAt cells vols p i

/-- `x` is the mean of the values `vs` of the vertices of a cell. -/
def VertexMean (vs : List K) (cell : List ℕ) (x : K) : Prop :=
  x = (cell.map fun p => vs.getD p 0).sum / (cell.length : K)

/-- Every array has a number in each of its `n` rows, and no name occurs twice. -/
def ScalarData (n : ℕ) (d : List (Str × List (Row K))) : Prop :=
  (d.map (·.1)).Nodup ∧ ∀ e ∈ d, e.2.length = n ∧ ∀ r ∈ e.2, ∃ x, r = .num x

/-- The vertices of every cell. -/
def vertexLists {D : Type} (m : Mesh K D) : List (List ℕ) := m.cells.flatMap (·.data)

end Verif.Spec
