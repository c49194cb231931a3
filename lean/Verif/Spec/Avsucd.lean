import Verif.Model.Avsucd
import Verif.Spec.Double
import Verif.Spec.Connections
import Verif.Spec.Quant

/-!
# Specification of AVS-UCD mesh files
-/

namespace Verif.Spec
open Verif.Py Verif.Model Verif.Mesh

/-- The number of vertices of the cell types of this format. -/
def vertexCount : CellType → Option ℕ
  | .triangle => some 3
  | .quad => some 4
  | .tetra => some 4
  | .pyramid => some 5
  | .wedge => some 6
  | .hexahedron => some 8
  | .other name =>
    if name = "vertex".toList then some 1 else if name = "line".toList then some 2 else none

/-- The names of cell data that are taken for the material. -/
def IsMaterialName (s : Str) : Prop :=
  s = "material".toList ∨ s = "gmsh:physical".toList ∨ s = "medit:ref".toList ∨
    s = "avsucd:material".toList ∨ s = "flac3d:group".toList

instance (s : Str) : Decidable (IsMaterialName s) := by unfold IsMaterialName; infer_instance

/-- The cell data that are no material. -/
def otherData (m : AvsMesh) : List (Str × NArray) := m.cellData.filter fun e => ¬ IsMaterialName e.1

/-- The name under which data are found after reading: without blanks around it and with
underscores for blanks. -/
def underscored (s : Str) : Str := (strip s).map fun c => if c = ' ' then '_' else c

/-- Data as they are after reading: rounded to 15 digits; a single column is a flat
array. -/
def dataRead (e : Str × NArray) : Str × NArray :=
  (underscored e.1, ⟨if e.2.width = some 1 then none else e.2.width,
    e.2.rows.map fun r => r.map (quant 14)⟩)

/-- Data for `n` points or cells that can be written: arrays of the right shape, not all
of them without columns, names without commas that stay different. -/
structure DataOk (n : ℕ) (data : List (Str × NArray)) : Prop where
  columns : data = [] ∨ ∃ e ∈ data, e.2.width ≠ some 0
  shape : ∀ e ∈ data, e.2.rows.length = n ∧ ∀ r ∈ e.2.rows, r.length = e.2.width.getD 1
  names : ∀ e ∈ data, ',' ∉ e.1
  distinct : (data.map fun e => underscored e.1).Nodup

/-- The integer `k` is `x` without its decimals. -/
def Truncates (x : Flt) (k : ℤ) : Prop :=
  match x with
  | .fin neg mag => (k.natAbs : ℚ≥0) ≤ mag ∧ mag < k.natAbs + 1 ∧ (if neg then k ≤ 0 else 0 ≤ k)
  | _ => False

/-- A mesh with points that can be written. -/
structure AvsPlain (m : AvsMesh) : Prop where
  points : m.points ≠ [] ∧ m.points.length < 2 ^ 53 ∧
    ∀ p ∈ m.points, IsDouble p.x ∧ IsDouble p.y ∧ IsDouble p.z
  vertices : ∀ b ∈ m.cells, ∃ n, vertexCount b.type = some n ∧
    ∀ c ∈ b.data, c.length = n ∧ ∀ v ∈ c, v < m.points.length
  pointData : DataOk m.points.length m.pointData
  lengths : ∀ e ∈ m.cellData, e.2.rows.length = (typedCells m.cells).length
  cellData : DataOk (typedCells m.cells).length (otherData m)
  materials : ∀ e ∈ m.cellData, IsMaterialName e.1 → ∀ r ∈ e.2.rows, ∃ neg mag, r = [.fin neg mag]
  names : ∀ e ∈ otherData m, underscored e.1 ≠ "material".toList ∧
    underscored e.1 ≠ "avsucd:material".toList

/-- A mesh that can be written and read again: there is a cell. -/
structure AvsOk (m : AvsMesh) : Prop extends AvsPlain m where
  cells : ∃ b ∈ m.cells, b.data ≠ []

/-- The materials of the cells: those of the first data taken for it, zero without. -/
def MaterialsOf (m : AvsMesh) (mats : List ℤ) : Prop :=
  match m.cellData.filter fun e => IsMaterialName e.1 with
  | [] => mats = List.replicate (typedCells m.cells).length 0
  | e :: _ => List.Forall₂ (fun r k => ∃ x, r = [x] ∧ Truncates x k) e.2.rows mats

/-! ### the file -/

/-- A line of texts with one blank between them. -/
def blankLine (ts : List Str) : Str := [' '].intercalate ts ++ ['\n']

/-- The name of a cell and its vertices in the order of this format. -/
def avsWritten : CellType → List ℕ → Str × List ℕ
  | .triangle, c => ("tri".toList, c)
  | .quad, c => ("quad".toList, c)
  | .tetra, [a, b, c, d] => ("tet".toList, [a, b, d, c])
  | .pyramid, [a, b, c, d, e] => ("pyr".toList, [e, a, b, c, d])
  | .wedge, [a, b, c, d, e, f] => ("prism".toList, [d, e, f, a, b, c])
  | .hexahedron, [a, b, c, d, e, f, g, h] => ("hex".toList, [e, f, g, h, a, b, c, d])
  | .other _, [a] => ("pt".toList, [a])
  | .other _, [a, b] => ("line".toList, [a, b])
  | _, _ => ([], [])

/-- The lines of data: the number of arrays and their widths, their names, and the numbers
of every point or cell with 15 digits. -/
def avsDataLines (n : ℕ) (data : List (Str × NArray)) : List Str :=
  if data = [] then [] else
    blankLine (natStr data.length :: data.map fun e => natStr (e.2.width.getD 1)) ::
      (data.map fun e => e.1 ++ ", real\n".toList) ++
      (List.range n).map fun i => blankLine (natStr (i + 1) ::
        (data.flatMap fun e => (e.2.rows[i]?).getD []).map (fmtE 14))

/-- The lines of a file: a comment, the numbers of points, cells and columns of data, the
points, the cells with their materials, and the data. -/
def avsFile (version : Str) (m : AvsMesh) (mats : List ℤ) : List Str :=
  ("# Written by toughio v".toList ++ version ++ ['\n']) ::
  blankLine [natStr m.points.length, natStr (typedCells m.cells).length,
    natStr ((m.pointData.map fun e => e.2.width.getD 1).sum),
    natStr (((otherData m).map fun e => e.2.width.getD 1).sum), "0".toList] ::
  ((m.points.mapIdx fun i p => blankLine [natStr (i + 1), fltStr p.x, fltStr p.y, fltStr p.z]) ++
    (((typedCells m.cells).zip mats).mapIdx fun i e => blankLine (natStr (i + 1) :: intStr e.2 ::
      (avsWritten e.1.1 e.1.2).1 :: (avsWritten e.1.1 e.1.2).2.map fun v => natStr (v + 1))) ++
    avsDataLines m.points.length m.pointData ++ avsDataLines (typedCells m.cells).length (otherData m))

end Verif.Spec
