import Verif.Spec.Grid
import Verif.Model.Reshape

/-!
# Specification of extruded and pruned meshes (C44, C45)
-/

namespace Verif.Spec
open Verif.Py Verif.Mesh

section
variable {K : Type} [Field K]

/-- The vector of length `t` along an axis. -/
def along (axis : Axis) (t : K) : P3 K :=
  match axis with
  | .x => ⟨t, 0, 0⟩
  | .y => ⟨0, t, 0⟩
  | .z => ⟨0, 0, t⟩

/-- Two points are at the same place on an axis. -/
def SameLevel (axis : Axis) (p q : P3 K) : Prop :=
  match axis with
  | .x => p.x = q.x
  | .y => p.y = q.y
  | .z => p.z = q.z

/-- The height of level `l`: the sum of the heights below it. -/
def level (height : List K) (l : ℕ) : K := (height.take l).sum

/-- The points at which a mesh starts: those given, or those of the plane put at zero on
the axis. -/
def StartsAt (axis : Axis) (points : Points K) (base : List (P3 K)) : Prop :=
  match points with
  | .three ps => base = ps
  | .two ps => List.Forall₂ (fun p q => match axis with
      | .x => q = ⟨0, p.2, p.1⟩
      | .y => q = ⟨p.1, 0, p.2⟩
      | .z => q = (⟨p.1, p.2, 0⟩ : P3 K)) ps base

/-- Twice the signed area of the triangle `p`, `q`, `r` seen along an axis. -/
def area2 (axis : Axis) (p q r : P3 K) : K :=
  match axis with
  | .x => (q.y - p.y) * (r.z - p.z) - (q.z - p.z) * (r.y - p.y)
  | .y => (q.z - p.z) * (r.x - p.x) - (q.x - p.x) * (r.z - p.z)
  | .z => (q.x - p.x) * (r.y - p.y) - (q.y - p.y) * (r.x - p.x)

/-- The quad is convex: its corners all turn the same way. -/
def Convex [LinearOrder K] (axis : Axis) (p q r s : P3 K) : Prop :=
  (0 ≤ area2 axis p q r ∧ 0 ≤ area2 axis q r s ∧ 0 ≤ area2 axis r s p ∧ 0 ≤ area2 axis s p q) ∨
    (area2 axis p q r ≤ 0 ∧ area2 axis q r s ≤ 0 ∧ area2 axis r s p ≤ 0 ∧ area2 axis s p q ≤ 0)

/-- The copy of a point list at a level. -/
def raised (axis : Axis) (height : List K) (l : ℕ) (ps : List (P3 K)) : List (P3 K) :=
  ps.map fun p => p.add (along axis (level height l))

end

/-- The cell that stands on the copy of the cell `c` at level `l`, if there are `n`
points per level. -/
def standing (n l : ℕ) (c : List ℕ) : List ℕ := c.map (l * n + ·) ++ c.map ((l + 1) * n + ·)

/-- Only triangles and quads. -/
def Flat (cells : List CellBlock) : Prop := ∀ b ∈ cells, b.type = .triangle ∨ b.type = .quad

instance (cells : List CellBlock) : Decidable (Flat cells) := by unfold Flat; infer_instance

/-- What becomes of a cell type. -/
def Extruded (s t : CellType) : Prop := (s = .triangle ∧ t = .wedge) ∨ (s = .quad ∧ t = .hexahedron)

/-- The cell `c'` of the mesh with points `pts'` has its vertices at the same places as the
cell `c` of the mesh with points `pts`. -/
def SamePlace {K : Type} [Field K] (pts pts' : List (P3 K)) (c c' : List ℕ) : Prop :=
  ∀ ps, Vertices pts c ps → Vertices pts' c' ps

/-- The same up to the order of the vertices. -/
def SameVertices {K : Type} [Field K] (pts pts' : List (P3 K)) (c c' : List ℕ) : Prop :=
  ∀ ps, Vertices pts c ps → ∃ ps', Vertices pts' c' ps' ∧ ps.Perm ps'

/-- `i` is the first place at which `x` occurs. -/
def FirstAt {α : Type} (l : List α) (i : ℕ) (x : α) : Prop :=
  l[i]? = some x ∧ ∀ j < i, l[j]? ≠ some x

end Verif.Spec
