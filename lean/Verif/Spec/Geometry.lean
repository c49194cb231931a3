import Verif.Spec.Connections
import Mathlib.Data.Real.Sqrt

/-!
# Specification of areas, normal vectors and distances
-/

namespace Verif.Spec
open Verif.Mesh

/-- Square of the distance of two points. -/
def distSq (p q : P3 ℝ) : ℝ := (p.x - q.x) ^ 2 + (p.y - q.y) ^ 2 + (p.z - q.z) ^ 2

/-- Distance of two points. -/
noncomputable def dist3 (p q : P3 ℝ) : ℝ := √(distSq p q)

/-- `A` is the area of the triangle, by Heron's formula on the squares of its sides. -/
def IsTriangleArea (p q r : P3 ℝ) (A : ℝ) : Prop :=
  0 ≤ A ∧ 16 * A ^ 2 = 2 * (distSq p q * distSq q r + distSq q r * distSq r p + distSq r p * distSq p q) -
    (distSq p q ^ 2 + distSq q r ^ 2 + distSq r p ^ 2)

/-- `A` is the area of a face: a triangle, or a quadrangle cut along a diagonal. -/
def IsArea : List (P3 ℝ) → ℝ → Prop
  | [p, q, r], A => IsTriangleArea p q r A
  | [p, q, r, s], A => ∃ A1 A2, IsTriangleArea p q r A1 ∧ IsTriangleArea p r s A2 ∧ A = A1 + A2
  | _, _ => False

/-- The way from `p` to `q` in direction `n`, times the length of `n`. -/
def distAlong (n p q : P3 ℝ) : ℝ := n.x * (q.x - p.x) + n.y * (q.y - p.y) + n.z * (q.z - p.z)

/-- `n` has length one. -/
def IsUnit3 (n : P3 ℝ) : Prop := n.x ^ 2 + n.y ^ 2 + n.z ^ 2 = 1

/-- Six times the signed volume of the tetrahedron: positive if `p`, `q`, `r` are
counterclockwise seen from `o`. -/
def signedVolume (p q r o : P3 ℝ) : ℝ :=
  (o.x - p.x) * ((q.y - p.y) * (r.z - p.z) - (q.z - p.z) * (r.y - p.y)) +
    (o.y - p.y) * ((q.z - p.z) * (r.x - p.x) - (q.x - p.x) * (r.z - p.z)) +
    (o.z - p.z) * ((q.x - p.x) * (r.y - p.y) - (q.y - p.y) * (r.x - p.x))

/-- `n` is a unit vector perpendicular to the triangle with these vertices; seen from its
tip they are counterclockwise. -/
def IsNormal (p q r n : P3 ℝ) : Prop :=
  IsUnit3 n ∧ distAlong n p q = 0 ∧ distAlong n p r = 0 ∧
    0 < signedVolume p q r ⟨p.x + n.x, p.y + n.y, p.z + n.z⟩

/-- The point `q` is on the plane through `p` perpendicular to `n`. -/
def OnPlane (p n q : P3 ℝ) : Prop := distAlong n p q = 0

/-- The point `q` is on the line through `c` and `d`: at the fraction `t` of the way. -/
def AtFraction (c d : P3 ℝ) (t : ℝ) (q : P3 ℝ) : Prop :=
  q.x = c.x + t * (d.x - c.x) ∧ q.y = c.y + t * (d.y - c.y) ∧ q.z = c.z + t * (d.z - c.z)

/-- The vertices of a face. -/
def FaceVertices (pts : List (P3 ℝ)) (f : List ℕ) (ps : List (P3 ℝ)) : Prop :=
  List.Forall₂ (fun v p => pts[v]? = some p) f ps

end Verif.Spec
