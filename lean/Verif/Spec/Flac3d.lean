import Verif.Model.Flac3d
import Verif.Spec.Connections
import Verif.Spec.Avsucd
import Verif.Spec.Quant

/-!
# Specification of FLAC3D mesh files
-/

namespace Verif.Spec
open Verif.Py Verif.Model Verif.Mesh

/-- The names of cells with more vertices than corners, with dimension, linear type and
number of corners. -/
def curvedTypes : List (Str × ℕ × CellType × ℕ) :=
  [("triangle6".toList, 2, .triangle, 3), ("triangle7".toList, 2, .triangle, 3),
    ("quad8".toList, 2, .quad, 4), ("quad9".toList, 2, .quad, 4), ("tetra10".toList, 3, .tetra, 4),
    ("pyramid13".toList, 3, .pyramid, 5), ("wedge12".toList, 3, .wedge, 6), ("wedge15".toList, 3, .wedge, 6),
    ("wedge18".toList, 3, .wedge, 6), ("hexahedron20".toList, 3, .hexahedron, 8),
    ("hexahedron24".toList, 3, .hexahedron, 8), ("hexahedron27".toList, 3, .hexahedron, 8)]

/-- The dimension, the linear type and the number of corners of the types of cells that
this format knows. -/
def solidType : CellType → Option (ℕ × CellType × ℕ)
  | .triangle => some (2, .triangle, 3)
  | .quad => some (2, .quad, 4)
  | .tetra => some (3, .tetra, 4)
  | .pyramid => some (3, .pyramid, 5)
  | .wedge => some (3, .wedge, 6)
  | .hexahedron => some (3, .hexahedron, 8)
  | .other name => (curvedTypes.find? (·.1 = name)).map (·.2)

/-- The dimension of the cells of a type: zero for those the format does not know. -/
def dimOf (t : CellType) : ℕ := ((solidType t).map (·.1)).getD 0

/-- The cells of one dimension with linear type and corners. -/
def cornersOf (d : ℕ) (cells : List CellBlock) : List (CellType × List ℕ) :=
  (typedCells cells).filterMap fun e => match solidType e.1 with
    | some (d', t, n) => if d' = d then some (t, e.2.take n) else none
    | none => none

/-- The mirror image of a three-dimensional cell: the same corners, with all faces the
other way round. -/
def mirrored : CellType → List ℕ → List ℕ
  | .tetra, [a, b, c, d] => [a, c, b, d]
  | .pyramid, [a, b, c, d, e] => [a, d, c, b, e]
  | .wedge, [a, b, c, d, e, f] => [a, c, b, d, f, e]
  | .hexahedron, [a, b, c, d, e, f, g, h] => [a, d, c, b, e, h, g, f]
  | _, c => c

/-- A corner of a three-dimensional cell and its three neighbours. -/
def frame : CellType → List ℕ → List ℕ
  | .tetra, [a, b, c, d] => [a, b, c, d]
  | .pyramid, [a, b, _, d, e] => [a, b, d, e]
  | .wedge, [a, b, c, d, _, _] => [a, b, d, c]
  | .hexahedron, [a, b, _, d, e, _, _, _] => [a, b, d, e]
  | _, _ => []

/-- The cell is right-handed: `pos` holds for the points of its frame. -/
def RightHanded {α : Type} (pos : α → α → α → α → Bool) (points : List α) (e : CellType × List ℕ) : Prop :=
  ∃ p q r s, (frame e.1 e.2).map (points[·]?) = [some p, some q, some r, some s] ∧ pos p q r s = true

/-- A three-dimensional cell after writing and reading: the same if it is right-handed,
otherwise its mirror image. -/
def Oriented {α : Type} (pos : α → α → α → α → Bool) (points : List α) (e e' : CellType × List ℕ) : Prop :=
  e'.1 = e.1 ∧ (RightHanded pos points e → e'.2 = e.2) ∧ (¬ RightHanded pos points e → e'.2 = mirrored e.1 e.2)

/-- The first cell data taken for the material. -/
def materialOfCells (m : FlacMesh) : Option (List ℤ) :=
  match m.cellData.filter fun e => IsMaterialName e.1 with
  | [] => none
  | e :: _ => some e.2

/-- The name of material `k` of cells of dimension `d`: the last one in the field data,
else `None` for zero and the number for others. -/
def groupName (fields : List (Str × ℤ × ℤ)) (d : ℕ) (k : ℤ) : Str :=
  match (fields.filter fun e => e.2 = (k, (d : ℤ))).getLast? with
  | some e => e.1
  | none => if k = 0 then "None".toList else intStr k

/-- The dimension and the material of every cell. -/
def groupKeys (cells : List CellBlock) (mat : List ℤ) : List (ℕ × ℤ) :=
  ((typedCells cells).map fun e => dimOf e.1).zip mat

/-- A mesh that can be written and read again, as far as points and cells go. -/
structure FlacOk (m : FlacMesh) : Prop where
  cells : ∃ b ∈ m.cells, dimOf b.type = 3
  vertices : ∀ b ∈ m.cells, ∀ d t n, solidType b.type = some (d, t, n) →
    ∀ c ∈ b.data, n ≤ c.length ∧ ∀ v ∈ c, v < m.points.length
  lengths : ∀ e ∈ m.cellData, e.2.length = (typedCells m.cells).length

/-- Materials that can be written and read again: all cells are of a known type, zones
are before faces, and the groups have different names. -/
structure GroupsOk (m : FlacMesh) (mat : List ℤ) : Prop where
  known : ∀ b ∈ m.cells, dimOf b.type ≠ 0
  order : m.cells.Pairwise fun a b => ¬ (dimOf a.type = 2 ∧ dimOf b.type = 3)
  different : ∀ e ∈ groupKeys m.cells mat, ∀ e' ∈ groupKeys m.cells mat,
    groupName m.fieldData e.1 e.2 = groupName m.fieldData e'.1 e'.2 → e = e'

/-- In a text file, names of groups are words without quotation marks, and there is at
most one group of faces. -/
structure TextGroupsOk (m : FlacMesh) (mat : List ℤ) : Prop extends GroupsOk m mat where
  words : ∀ e ∈ groupKeys m.cells mat, ∀ c ∈ groupName m.fieldData e.1 e.2, isSpace c = false ∧ c ≠ '"'
  single : ∀ e ∈ groupKeys m.cells mat, ∀ e' ∈ groupKeys m.cells mat, e.1 = 2 → e'.1 = 2 → e = e'

/-- The groups of cells of one dimension in the order of their materials: the name, and
the places of the cells among all cells of the mesh, from one. -/
def groupMembers (m : FlacMesh) (mat : List ℤ) (d : ℕ) : List (Str × List ℕ) :=
  ((mat.dedup.insertionSort (· ≤ ·)).filter fun k => (d, k) ∈ groupKeys m.cells mat).map fun k =>
    (groupName m.fieldData d k,
      ((List.range mat.length).filter fun i => (groupKeys m.cells mat)[i]? = some (d, k)).map (· + 1))

/-- The groups `gs` and the field data of a mesh that was read describe the materials:
the group of every cell has the name of its material and the dimension of the cell, the
groups have different names, there are no others, and they are numbered from one, first those of
zones, both in the order of their materials. -/
structure Describes (m : FlacMesh) (mat : List ℤ) (gs : List ℕ) (fields : List (Str × ℕ × ℕ)) : Prop where
  cells : List.Forall₂ (fun e g => (groupName m.fieldData e.1 e.2, g, e.1) ∈ fields) (groupKeys m.cells mat) gs
  numbers : fields.map (·.2.1) = (List.range fields.length).map (· + 1)
  names : (fields.map (·.1)).Nodup
  order : fields.map (fun e => (e.1, e.2.2)) = ((groupMembers m mat 3).map fun g => (g.1, 3)) ++
    (groupMembers m mat 2).map fun g => (g.1, 2)
  used : ∀ e ∈ fields, e.2.1 ∈ gs

/-- Points and cells of `r` are those of the mesh: the numbers went through `num`, the
zones come first, turned to the right hand, then the faces, both with their corners
only; neighbouring blocks have different types. -/
structure SameMesh (num : Flt → Flt) (pos : P3 Flt → P3 Flt → P3 Flt → P3 Flt → Bool) (m : FlacMesh) (r : FlacRead) :
    Prop where
  points : r.points = m.points.map fun q => [num q.x, num q.y, num q.z]
  cells : ∃ zones, typedCells r.cells = zones ++ cornersOf 2 m.cells ∧
    List.Forall₂ (Oriented pos m.points) (cornersOf 3 m.cells) zones
  full : ∀ b ∈ r.cells, b.data ≠ []
  types : r.cells.IsChain fun a b => a.type ≠ b.type

/-- The groups of `r` are the materials of the mesh, if it has any. -/
def SameGroups (m : FlacMesh) (r : FlacRead) : Prop :=
  match materialOfCells m with
  | none => r.group = none ∧ r.fieldData = []
  | some mat => if mat = [] then r.group = none ∧ r.fieldData = []
    else ∃ gs, r.group = some gs ∧ Describes m mat gs r.fieldData

/-! ### the text file -/

/-- The corners of a cell in the order of this format. -/
def flacCorners : CellType → List ℕ → List ℕ
  | .pyramid, [a, b, c, d, e] => [a, b, d, e, c]
  | .wedge, [a, b, c, d, e, f] => [a, b, d, c, e, f]
  | .hexahedron, [a, b, c, d, e, f, g, h] => [a, b, d, e, c, h, f, g]
  | _, c => c

/-- The name of a type of cells in this format. -/
def flacWord : CellType → Str
  | .triangle => "T3".toList
  | .quad => "Q4".toList
  | .tetra => "T4".toList
  | .pyramid => "P5".toList
  | .wedge => "W6".toList
  | .hexahedron => "B8".toList
  | .other _ => []

/-- The lines of cells, numbered after `n` others: a letter, the name of the type, the
number of the cell and those of its corners. -/
def flacCellText (letter : Char) (n : ℕ) (cells : List (CellType × List ℕ)) : List Str :=
  cells.mapIdx fun i e => blankLine ([letter] :: flacWord e.1 :: natStr (n + i + 1) ::
    (flacCorners e.1 e.2).map fun v => natStr (v + 1))

/-- Numbers in lines of twenty, every line with a blank in front. -/
def flacNumbers (l : List ℕ) : List Str :=
  (List.range ((l.length + 19) / 20)).map fun i => ' ' :: blankLine (((l.drop (20 * i)).take 20).map natStr)

/-- The lines of the groups of one dimension. -/
def flacGroupText (title word : Str) (d : ℕ) (m : FlacMesh) : List Str :=
  match materialOfCells m with
  | none => []
  | some mat => title :: (groupMembers m mat d).flatMap fun g =>
    (word ++ " \"".toList ++ g.1 ++ "\"\n".toList) :: flacNumbers g.2

/-- The lines of a text file: comments, the points, and the zones and faces, each with
their groups. -/
def flacFile (p : ℕ) (version date : Str) (m : FlacMesh) (zones : List (CellType × List ℕ)) : List Str :=
  ("* FLAC3D grid produced by toughio v".toList ++ version ++ ['\n']) :: ("* ".toList ++ date ++ ['\n']) ::
  "* GRIDPOINTS\n".toList :: ((m.points.mapIdx fun i q => "G\t".toList ++
      List.replicate (8 - (natStr (i + 1)).length) ' ' ++ natStr (i + 1) ++
      '\t' :: fmtE p q.x ++ '\t' :: fmtE p q.y ++ '\t' :: fmtE p q.z ++ ['\n']) ++
    "* ZONES\n".toList :: flacCellText 'Z' 0 zones ++
    flacGroupText "* ZONE GROUPS\n".toList "ZGROUP".toList 3 m ++
    "* FACES\n".toList :: flacCellText 'F' zones.length (cornersOf 2 m.cells) ++
    flacGroupText "* FACE GROUPS\n".toList "FGROUP".toList 2 m)

end Verif.Spec
