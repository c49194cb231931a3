import Verif.Model.Mesh

/-!
# Specification of meshes (C43, C46-C48)

Only the types of meshes and selections are taken from the model.
-/

namespace Verif.Spec
open Verif.Py Verif.Mesh

/-- All cells of a mesh, block after block. -/
def allCells (cells : List CellBlock) : List (List ℕ) := cells.flatMap (·.data)

section
variable {K : Type} [Field K]

/-- `p` is the mean of the vertices of the cell `c`, which has at least one vertex. -/
def IsCenter (pts : List (P3 K)) (c : List ℕ) (p : P3 K) : Prop :=
  c ≠ [] ∧ ∃ ps : List (P3 K), List.Forall₂ (fun i q => pts[i]? = some q) c ps ∧
    p.x * (c.length : K) = (ps.map (·.x)).sum ∧ p.y * (c.length : K) = (ps.map (·.y)).sum ∧
    p.z * (c.length : K) = (ps.map (·.z)).sum

/-- Every cell has a vertex and every vertex number is that of a point. -/
def ValidCells {α : Type} (pts : List α) (cells : List CellBlock) : Prop :=
  ∀ c ∈ allCells cells, c ≠ [] ∧ ∀ i ∈ c, i < pts.length

/-- Squared Euclidean distance. -/
def sqDist (p q : P3 K) : K := (p.x - q.x) ^ 2 + (p.y - q.y) ^ 2 + (p.z - q.z) ^ 2

/-- The coordinate lies in the interval that starts at `x0` and has length `dx`; an
end that is not given is no restriction. -/
def InInterval [LinearOrder K] (x0 dx : Option K) (x : K) : Prop :=
  (∀ a, x0 = some a → a ≤ x) ∧ ∀ a d, x0 = some a → dx = some d → x ≤ a + d

/-- The point lies in the box. -/
def InBox [LinearOrder K] (b : Box K) (p : P3 K) : Prop :=
  InInterval b.x0 b.dx p.x ∧ InInterval b.y0 b.dy p.y ∧ InInterval b.z0 b.dz p.z

/-- A length is not zero and is given only together with an origin. -/
def LengthOk (x0 dx : Option K) : Prop := dx ≠ some 0 ∧ (x0 = none → dx = none)

end

/-- The material numbers of the cells after cells `S` have been given number `v`. -/
def Assigned (S : ℕ → Prop) (v : ℤ) (old new : List ℤ) : Prop :=
  new.length = old.length ∧
    ∀ i, i < old.length → (S i → new[i]? = some v) ∧ (¬ S i → new[i]? = old[i]?)

/-- The name table after a material has been given number `v`. -/
def Registered (material : Str) (v : ℤ) (old new : List (Str × ℤ × ℤ)) : Prop :=
  ∀ k e, (k, e) ∈ new ↔ (k = material ∧ e = (v, 3)) ∨ (k ≠ material ∧ (k, e) ∈ old)

end Verif.Spec
