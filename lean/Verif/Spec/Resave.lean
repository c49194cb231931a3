import Verif.Spec.TecplotMesh
import Verif.Spec.OutAgain
import Verif.Spec.Flac3dBin

/-!
# Specification: mesh files that are loaded and saved
-/

namespace Verif.Spec
open Verif.Py Verif.Model Verif.Mesh

/-- The names of the data are kept by AVS-UCD files, and the numbers are in the range of the
floats. -/
structure AvsSettled (m : AvsMesh) : Prop where
  names : ∀ e ∈ m.pointData ++ otherData m, underscored e.1 = e.1
  range : ∀ e ∈ m.pointData ++ otherData m, ∀ r ∈ e.2.rows, ∀ x ∈ r, InRange x

/-- The names of the variables are kept by Tecplot files: they are single words, and a
material is called `material` and comes last. -/
structure TecSettled (m : AvsMesh) : Prop where
  names : ∀ e ∈ pointVariables m ++ cellVariables m, wordsJoined e.1 = e.1
  material : materialLast (cellVariables m) = cellVariables m

/-- A point with other coordinates. -/
def pointMap (num : Flt → Flt) (q : P3 Flt) : P3 Flt := ⟨num q.x, num q.y, num q.z⟩

/-- There is a zone, and all zones are right-handed once they were turned, also with the
coordinates that the file keeps. -/
structure FlacSettled (num : Flt → Flt) (pos : P3 Flt → P3 Flt → P3 Flt → P3 Flt → Bool) (m : FlacMesh) : Prop where
  zones : cornersOf 3 m.cells ≠ []
  turned : ∀ e ∈ cornersOf 3 m.cells, ∀ e', Oriented pos m.points e e' →
    RightHanded pos (m.points.map (pointMap num)) e'

/-- The coordinates are printed again as they are. -/
def PointsKept (p : ℕ) (m : FlacMesh) : Prop :=
  ∀ q ∈ m.points, ∀ x ∈ [q.x, q.y, q.z], fmtE p (quant p x) = fmtE p x

end Verif.Spec
