import Verif.Model.Geometry
import Mathlib.Logic.Function.Basic

/-!
# Specification: meshes whose points are renumbered (C105)
-/

namespace Verif.Spec
open Verif.Py Verif.Mesh

/-- Point `i` of `m` is point `σ i` of `m'`, and the cells say so. There may be more points in `m'`. -/
structure IsRenumbered {D D' : Type} (σ : ℕ → ℕ) (m : Mesh.Mesh ℝ D) (m' : Mesh.Mesh ℝ D') : Prop where
  inj : Function.Injective σ
  points : ∀ i, m'.points[σ i]? = m.points[i]?
  cells : m'.cells = m.cells.map fun b => ⟨b.type, b.data.map (List.map σ)⟩

end Verif.Spec
