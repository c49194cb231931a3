import Verif.Model.Geometry
import Mathlib.Data.List.Rotate

/-!
# Specification: faces seen from the other side (C106)
-/

namespace Verif.Spec
open Verif.Py Verif.Mesh

/-- The same way around a face, from another point or backwards. -/
def SameLoop (u w : List ℕ) : Prop := ∃ k, w = u.rotate k ∨ w = u.reverse.rotate k

/-- The four points are the corners of a parallelogram: the diagonals have the same midpoint. -/
def IsParallelogram (pts : List (P3 ℝ)) (u : List ℕ) : Prop :=
  ∃ a b c d p q r s, u = [a, b, c, d] ∧ pts[a]? = some p ∧ pts[b]? = some q ∧ pts[c]? = some r ∧ pts[d]? = some s ∧
    p.x + r.x = q.x + s.x ∧ p.y + r.y = q.y + s.y ∧ p.z + r.z = q.z + s.z

end Verif.Spec
