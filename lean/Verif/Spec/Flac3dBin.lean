import Verif.Py.Bytes
import Verif.Spec.Double
import Verif.Spec.Flac3d

/-!
# Specification of binary FLAC3D mesh files
-/

namespace Verif.Spec
open Verif.Py Verif.Model Verif.Mesh

/-- A mesh that fits into a binary file: its coordinates are floats, and its points and
cells are numbers of 32 bits. -/
structure BinOk (m : FlacMesh) : Prop where
  doubles : ∀ q ∈ m.points, IsDouble q.x ∧ IsDouble q.y ∧ IsDouble q.z
  points : m.points.length < 2 ^ 32
  cells : (typedCells m.cells).length < 2 ^ 32

/-- ASCII text. -/
def Ascii (s : Str) : Prop := ∀ c ∈ s, c.toNat < 128

instance (s : Str) : Decidable (Ascii s) := inferInstanceAs (Decidable (∀ c ∈ s, c.toNat < 128))

/-- In a binary file, names of groups are ASCII and not too long. -/
structure BinGroupsOk (m : FlacMesh) (mat : List ℤ) : Prop extends GroupsOk m mat where
  ascii : ∀ e ∈ groupKeys m.cells mat, Ascii (groupName m.fieldData e.1 e.2)
  short : ∀ e ∈ groupKeys m.cells mat, (groupName m.fieldData e.1 e.2).length < 2 ^ 16

/-- What is needed to write the groups: all cells are of a known type, and names are ASCII
and not too long. -/
structure BinNames (m : FlacMesh) (mat : List ℤ) : Prop where
  known : ∀ b ∈ m.cells, dimOf b.type ≠ 0
  ascii : ∀ e ∈ groupKeys m.cells mat, Ascii (groupName m.fieldData e.1 e.2)
  short : ∀ e ∈ groupKeys m.cells mat, (groupName m.fieldData e.1 e.2).length < 2 ^ 16

/-! ### the file -/

/-- The bytes of cells, numbered after `n` others: how many there are, and for every cell
its number, the number of its corners and the corners from one. -/
def flacCellBytes (n : ℕ) (cells : List (CellType × List ℕ)) : List ℕ :=
  bytesOf 4 cells.length ++ (cells.mapIdx fun i e =>
    ((n + i + 1) :: (flacCorners e.1 e.2).length :: (flacCorners e.1 e.2).map (· + 1)).flatMap (bytesOf 4)).flatten

/-- The bytes of the groups of one dimension: how many there are, and for every group its
name and the slot `Default`, both with their lengths, and its cells with their number. -/
def flacGroupBytes (d : ℕ) (m : FlacMesh) : List ℕ :=
  match materialOfCells m with
  | none => bytesOf 4 0
  | some mat => bytesOf 4 (groupMembers m mat d).length ++ (groupMembers m mat d).flatMap fun g =>
    bytesOf 2 g.1.length ++ g.1.map Char.toNat ++ bytesOf 2 7 ++ "Default".toList.map Char.toNat ++
      bytesOf 4 g.2.length ++ g.2.flatMap (bytesOf 4)

/-- The bytes of a binary file: two numbers that mark it, the points, and the zones and
faces, each with their groups. -/
def flacBinFile (m : FlacMesh) (zones : List (CellType × List ℕ)) : List ℕ :=
  bytesOf 4 1375135718 ++ bytesOf 4 3 ++ bytesOf 4 m.points.length ++
    (m.points.mapIdx fun i q => bytesOf 4 (i + 1) ++ packDouble q.x ++ packDouble q.y ++ packDouble q.z).flatten ++
    flacCellBytes 0 zones ++ flacGroupBytes 3 m ++
    flacCellBytes zones.length (cornersOf 2 m.cells) ++ flacGroupBytes 2 m

end Verif.Spec
