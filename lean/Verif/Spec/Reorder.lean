import Verif.Spec.Reblock
import Verif.Spec.Connections
import Mathlib.Logic.Equiv.Defs

/-!
# Specification: meshes whose cells are in another order (C106)
-/

namespace Verif.Spec
open Verif.Py Verif.Mesh

/-- Entry `i` of the first list is entry `τ i` of the second one. -/
def Reordered {α : Type} (τ : Equiv.Perm ℕ) (l l' : List α) : Prop := ∀ i, l'[τ i]? = l[i]?

/-- The points are the same, and cell `i` of `m` is cell `τ i` of `m'`. -/
structure IsReordered {K D D' : Type} (τ : Equiv.Perm ℕ) (m : Mesh.Mesh K D) (m' : Mesh.Mesh K D') : Prop where
  points : m'.points = m.points
  cells : Reordered τ (typedCells m.cells) (typedCells m'.cells)
  full : FullBlocks m.cells
  full' : FullBlocks m'.cells

/-- An entry of the table of connections with the new numbers; −1 is no cell. -/
def newNumber (τ : Equiv.Perm ℕ) (j : ℤ) : ℤ := if j < 0 then j else (τ j.toNat : ℤ)

/-- The two cells are a connection of the list, in one order or the other. -/
def Connected (ws : List (ℕ × ℕ × ℕ)) (i j : ℕ) : Prop := ∃ a, (i, j, a) ∈ ws ∨ (j, i, a) ∈ ws

end Verif.Spec
