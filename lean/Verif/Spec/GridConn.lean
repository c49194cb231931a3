import Verif.Spec.Grid
import Verif.Spec.Geometry

/-!
# Connections of structured grids (C81)
-/

namespace Verif.Spec
open Verif.Mesh

/-- The axes of a grid. -/
inductive GridAxis
  | x | y | z
  deriving DecidableEq

/-- The number of an axis in TOUGH. -/
def GridAxis.number : GridAxis → ℕ
  | .x => 1
  | .y => 2
  | .z => 3

/-- Two cells next to each other on an axis: the second one follows the first one, or is below
it. -/
def Linked : GridAxis → ℕ × ℕ × ℕ → ℕ × ℕ × ℕ → Prop
  | .x, (i, j, k), w => w = (i + 1, j, k)
  | .y, (i, j, k), w => w = (i, j + 1, k)
  | .z, v, (i, j, k) => v = (i, j, k + 1)

instance (a : GridAxis) (v w : ℕ × ℕ × ℕ) : Decidable (Linked a v w) := by
  cases a <;> unfold Linked <;> infer_instance

/-- The sizes of a cell. -/
def cellSizes (dx dy dz : List ℝ) (v : ℕ × ℕ × ℕ) : P3 ℝ := ⟨dx.getD v.1 0, dy.getD v.2.1 0, dz.getD v.2.2 0⟩

/-- The middle of a cell. -/
noncomputable def cellMiddle (dx dy dz : List ℝ) (o : P3 ℝ) (v : ℕ × ℕ × ℕ) : P3 ℝ :=
  ⟨o.x + plane dx v.1 + dx.getD v.1 0 / 2, o.y + plane dy v.2.1 + dy.getD v.2.1 0 / 2,
    o.z + plane dz v.2.2 + dz.getD v.2.2 0 / 2⟩

/-- The component of a vector on an axis. -/
def onAxis (a : GridAxis) (p : P3 ℝ) : ℝ :=
  match a with
  | .x => p.x
  | .y => p.y
  | .z => p.z

/-- The product of the components on the other axes. -/
def across (a : GridAxis) (p : P3 ℝ) : ℝ :=
  match a with
  | .x => p.y * p.z
  | .y => p.x * p.z
  | .z => p.x * p.y

end Verif.Spec
