import Verif.Spec.GridConn
import Mathlib.Analysis.SpecialFunctions.Trigonometric.Basic

/-!
# Connections of cylindrical grids (C82)
-/

namespace Verif.Spec
open Verif.Mesh

/-- The area of the face towards the next cell: the mantle of the cylinder around the cell, the
section through it, or its ring. -/
noncomputable def mantle (dr dz : List ℝ) (a : GridAxis) (v : ℕ × ℕ × ℕ) : ℝ :=
  match a with
  | .x => 2 * Real.pi * plane dr (v.1 + 1) * dz.getD v.2.2 0
  | .y => dr.getD v.1 0 * dz.getD v.2.2 0
  | .z => Real.pi * (plane dr (v.1 + 1) ^ 2 - plane dr v.1 ^ 2)

end Verif.Spec
