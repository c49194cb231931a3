import Verif.Model.Avsucd

/-!
# FLAC3D mesh files

Model of `/repo/toughio/_mesh/flac3d/_flac3d.py` and of `read` and `write` of
`/repo/toughio/_mesh/_helpers.py` for this format: what both kinds of files share, and
text files. A file is the list of its lines, each with its newline character; beyond the
end `readline` returns an empty text.

Simplifications: points have three coordinates when written; materials and the other
cell data are integers (only the material is written); an array of cell data is that of
all blocks (`write` (`_helpers.py`, 152) splits it and `_flac3d.py`, 324, concatenates it
again, the same when reading); names of groups contain no newline; columns that are
missing in a block without cells are not noticed; a list of points of different lengths
is refused; of several exceptions another may come first. The sign of the scalar triple
product of four points, which numpy computes in floating point, is a parameter `pos` of
the writer: what is proved holds for every such function.
-/

namespace Verif.Mesh
open Verif.Py Verif.Model

/-- Zones are three-dimensional, faces two-dimensional. -/
inductive FlacFlag
  | zone | face
  deriving DecidableEq

/-- What is written. -/
structure FlacMesh where
  points : List (P3 Flt)
  cells : List CellBlock
  cellData : List (Str × List ℤ)
  fieldData : List (Str × ℤ × ℤ)
  deriving DecidableEq

/-- What is read. The group numbers of the cells are the material. -/
structure FlacRead where
  points : List (List Flt)
  cells : List CellBlock
  group : Option (List ℕ)
  fieldData : List (Str × ℕ × ℕ)
  deriving DecidableEq

/-- `meshio_only` (`_flac3d.py`, 18-41), for the types that are not linear. -/
def flacHigher : FlacFlag → List (Str × CellType)
  | .zone => [("tetra10".toList, .tetra), ("pyramid13".toList, .pyramid), ("wedge12".toList, .wedge),
      ("wedge15".toList, .wedge), ("wedge18".toList, .wedge), ("hexahedron20".toList, .hexahedron),
      ("hexahedron24".toList, .hexahedron), ("hexahedron27".toList, .hexahedron)]
  | .face => [("triangle6".toList, .triangle), ("triangle7".toList, .triangle), ("quad8".toList, .quad),
      ("quad9".toList, .quad)]

/-- `meshio_only[flag].get(t)` (`_flac3d.py`, 18-41). -/
def flacType (flag : FlacFlag) : CellType → Option CellType
  | .triangle => if flag = .face then some .triangle else none
  | .quad => if flag = .face then some .quad else none
  | .tetra => if flag = .zone then some .tetra else none
  | .pyramid => if flag = .zone then some .pyramid else none
  | .wedge => if flag = .zone then some .wedge else none
  | .hexahedron => if flag = .zone then some .hexahedron else none
  | .other name => ((flacHigher flag).find? (·.1 = name)).map (·.2)

/-- `numnodes_to_meshio_type[flag][n]` (`_flac3d.py`, 44-47). -/
def flacCount : FlacFlag → ℕ → Except PyErr CellType
  | .zone, 4 => .ok .tetra
  | .zone, 5 => .ok .pyramid
  | .zone, 6 => .ok .wedge
  | .zone, 8 => .ok .hexahedron
  | .face, 3 => .ok .triangle
  | .face, 4 => .ok .quad
  | _, _ => .error .keyError

/-- `meshio_to_flac3d_type[t]` (`_flac3d.py`, 50-57). -/
def flacName : CellType → Except PyErr Str
  | .triangle => .ok "T3".toList
  | .quad => .ok "Q4".toList
  | .tetra => .ok "T4".toList
  | .pyramid => .ok "P5".toList
  | .wedge => .ok "W6".toList
  | .hexahedron => .ok "B8".toList
  | .other _ => .error .keyError

/-- `flac3d_to_meshio_order` (`_flac3d.py`, 60-67). It is only used for the linear
types, as are the other two. -/
def flacOrderBack : CellType → List ℕ
  | .triangle => [0, 1, 2]
  | .quad => [0, 1, 2, 3]
  | .tetra => [0, 1, 2, 3]
  | .pyramid => [0, 1, 4, 2, 3]
  | .wedge => [0, 1, 3, 2, 4, 5]
  | .hexahedron => [0, 1, 4, 2, 3, 6, 7, 5]
  | .other _ => []

/-- `meshio_to_flac3d_order` (`_flac3d.py`, 70-77). -/
def flacOrder : CellType → List ℕ
  | .triangle => [0, 1, 2]
  | .quad => [0, 1, 2, 3]
  | .tetra => [0, 1, 2, 3]
  | .pyramid => [0, 1, 3, 4, 2]
  | .wedge => [0, 1, 3, 2, 4, 5]
  | .hexahedron => [0, 1, 3, 4, 2, 7, 5, 6]
  | .other _ => []

/-- `meshio_to_flac3d_order_2` (`_flac3d.py`, 80-85). -/
def flacOrder2 : CellType → List ℕ
  | .tetra => [0, 2, 1, 3]
  | .pyramid => [0, 3, 1, 4, 2]
  | .wedge => [0, 2, 3, 1, 5, 4]
  | .hexahedron => [0, 3, 1, 4, 2, 5, 7, 6]
  | _ => []

/-- `flag_to_numdim` (`_flac3d.py`, 88-91). -/
def FlacFlag.dim : FlacFlag → ℕ
  | .zone => 3
  | .face => 2

/-! ### what is written -/

/-- The scalar triple product of the edges from `a` (`slicing_summing`, `_flac3d.py`,
446-450 and 460). -/
def edgeProduct {K : Type} [CommRing K] (a b c d : P3 K) : K :=
  let u : P3 K := ⟨b.x - a.x, b.y - a.y, b.z - a.z⟩
  let v : P3 K := ⟨c.x - a.x, c.y - a.y, c.z - a.z⟩
  let w : P3 K := ⟨d.x - a.x, d.y - a.y, d.z - a.z⟩
  u.x * (v.y * w.z - v.z * w.y) + u.y * (v.z * w.x - v.x * w.z) + u.z * (v.x * w.y - v.y * w.x)

/-- One zone of a linear type (`_flac3d.py`, 457-468): the vertices in an order that is
right-handed. -/
def flacZone {α : Type} (pos : α → α → α → α → Bool) (points : List α) (t : CellType) (c : List ℕ) :
    Except PyErr (List ℕ) := do
  let vs ← permute ((flacOrder t).take 4) c
  let ps ← rowsAt points vs
  match ps with
  | [p, q, r, s] => if pos p q r s then permute (flacOrder t) c else permute (flacOrder2 t) c
  | _ => .error .indexError

/-- The blocks of zones or faces with their linear types. -/
def flacBlocks (flag : FlacFlag) (cells : List CellBlock) : List CellBlock :=
  cells.filterMap fun b => (flacType flag b.type).map fun t => ⟨t, b.data⟩

/-- `_translate_zones` (`_flac3d.py`, 437-470) or `_translate_faces` (473-484). -/
def flacTranslate {α : Type} (pos : α → α → α → α → Bool) (points : List α) (cells : List CellBlock)
    (flag : FlacFlag) : Except PyErr (List CellBlock) :=
  (flacBlocks flag cells).mapM fun b => do
    let data ← b.data.mapM fun c => match flag with
      | .zone => flacZone pos points b.type c
      | .face => permute (flacOrder b.type) c
    .ok ⟨b.type, data⟩

/-- `num_dims` (`_flac3d.py`, 489-491). -/
def flacDims (cells : List CellBlock) : List ℕ :=
  cells.flatMap fun b => List.replicate b.data.length (if (flacType .face b.type).isSome then 2 else 3)

/-- `groups` of `_translate_groups` (`_flac3d.py`, 492-499) in the order of their
numbers: the numbers of the cells, from one, of every material. -/
def flacGroups (cells : List CellBlock) (mat : List ℤ) (flag : FlacFlag) : List (ℤ × List ℕ) :=
  ((mat.dedup.insertionSort (· ≤ ·)).map fun k =>
    (k, (whereTrue ((mat.zip (flacDims cells)).map fun e => decide (e.1 = k ∧ e.2 = flag.dim))).map (· + 1))).filter
    fun g => g.2 ≠ []

/-- `labels[k]` of `_translate_groups` (`_flac3d.py`, 501-506): the last name given to
the material and the dimension. -/
def flacLabel (fields : List (Str × ℤ × ℤ)) (flag : FlacFlag) (k : ℤ) : Str :=
  match fields.reverse.find? fun e => e.2.1 = k ∧ e.2.2 = (flag.dim : ℤ) with
  | some e => e.1
  | none => if k = 0 then "None".toList else intStr k

/-- The material (`_flac3d.py`, 319-324): `get_material_key` finds the first key. -/
def flacMaterial (m : FlacMesh) : Option (List ℤ) :=
  (m.cellData.find? (·.1 ∈ materialKeys)).map (·.2)

/-- The checks before writing (`mesh.split`, `_helpers.py`, 152, and `_flac3d.py`,
316-317). -/
def flacCheck (m : FlacMesh) : Except PyErr Unit :=
  if m.cellData.any fun e => e.2.length ≠ nCells m.cells then .error .valueError
  else if m.cells.any fun b => (flacType .zone b.type).isSome then .ok ()
  else .error .valueError

/-- The cells of all blocks with their types. -/
def cellList (cells : List CellBlock) : List (CellType × List ℕ) :=
  cells.flatMap fun b => b.data.map fun c => (b.type, c)

/-! ### text files -/

/-- `_write_points` (`_flac3d.py`, 349-352) with the format `.pe`. -/
def flacPointLine (p : ℕ) (e : P3 Flt × ℕ) : Str :=
  joinWith '\t' [['G'], padLeft 8 (natStr (e.2 + 1)), fmtE p e.1.x, fmtE p e.1.y, fmtE p e.1.z] ++ ['\n']

/-- One line of `_write_cells` (`_flac3d.py`, 390-398) with the number of the cell. -/
def flacCellLine (flag : FlacFlag) (e : (CellType × List ℕ) × ℕ) : Except PyErr Str := do
  let name ← flacName e.1.1
  .ok (spacedLine ((match flag with | .zone => ['Z'] | .face => ['F']) :: name :: natStr e.2 ::
    e.1.2.map fun v => natStr (v + 1)))

/-- `_write_cells` (`_flac3d.py`, 355-398) of a text file. -/
def flacCellLines {α : Type} (pos : α → α → α → α → Bool) (points : List α) (cells : List CellBlock)
    (flag : FlacFlag) : Except PyErr (List Str) := do
  let blocks ← flacTranslate pos points cells flag
  let count := match flag with
    | .zone => 0
    | .face => nCells (flacBlocks .zone cells)
  let ls ← ((cellList blocks).zipIdx (count + 1)).mapM (flacCellLine flag)
  .ok ((match flag with | .zone => "* ZONES\n".toList | .face => "* FACES\n".toList) :: ls)

/-- `_write_table` (`_flac3d.py`, 511-517). -/
def flacTable (data : List ℕ) : List Str :=
  ((npSplit data (cumsum (List.replicate (data.length / 20) 20))).filter (· ≠ [])).map fun l =>
    ' ' :: spacedLine (l.map natStr)

/-- `_write_groups` (`_flac3d.py`, 401-434) of a text file. -/
def flacGroupLines (m : FlacMesh) (flag : FlacFlag) : List Str :=
  match flacMaterial m with
  | none => []
  | some mat =>
    (match flag with | .zone => "* ZONE GROUPS\n".toList | .face => "* FACE GROUPS\n".toList) ::
      (flacGroups m.cells mat flag).flatMap fun g =>
        ((match flag with | .zone => "ZGROUP".toList | .face => "FGROUP".toList) ++ " \"".toList ++
          flacLabel m.fieldData flag g.1 ++ "\"\n".toList) :: flacTable g.2

/-- `write` (`_helpers.py`, 150-153, `_flac3d.py`, 314-339) of a text file. -/
def writeFlac (p : ℕ) (pos : P3 Flt → P3 Flt → P3 Flt → P3 Flt → Bool) (version date : Str) (m : FlacMesh) :
    Except PyErr (List Str) := do
  flacCheck m
  let zones ← flacCellLines pos m.points m.cells .zone
  let faces ← flacCellLines pos m.points m.cells .face
  .ok (("* FLAC3D grid produced by toughio v".toList ++ version ++ ['\n']) :: ("* ".toList ++ date ++ ['\n']) ::
    "* GRIDPOINTS\n".toList :: (m.points.zipIdx.map (flacPointLine p) ++
      (zones ++ (flacGroupLines m .zone ++ (faces ++ flacGroupLines m .face)))))

/-! ### what is read -/

/-- The variables of `read_buffer` (`_flac3d.py`, 118-130). `points` also counts the
points; the blocks are in reverse, `mapper` has the place of a cell followed by its
groups. -/
structure FlacState where
  points : List (List Flt) := []
  ids : List (ℤ × ℕ) := []
  blocks : List CellBlock := []
  count : ℕ := 0
  fields : List (Str × ℕ × ℕ) := []
  group : ℕ := 0
  mapper : FlacFlag → List (ℤ × List ℕ) := fun _ => []
  slots : FlacFlag → List Str := fun _ => []

/-- A point (`_flac3d.py`, 138-140 and 167-170). -/
def FlacState.addPoint (s : FlacState) (id : ℤ) (x : List Flt) : FlacState :=
  { s with points := s.points ++ [x], ids := dictSet s.ids id s.points.length }

/-- `_update_cells` (`_flac3d.py`, 280-288); the blocks are in reverse. -/
def flacAdd (t : CellType) (c : List ℕ) : List CellBlock → List CellBlock
  | [] => [⟨t, [c]⟩]
  | b :: r => if t = b.type then ⟨b.type, b.data ++ [c]⟩ :: r else ⟨t, [c]⟩ :: b :: r

/-- The end of `_read_cell` (`_flac3d.py`, 237-239). -/
def flacVertices (ids : List (ℤ × ℕ)) (b7 : Bool) (vs : List ℤ) : Except PyErr (List ℕ) := do
  let c ← vs.mapM (dictGet ids)
  if b7 then
    match c.getLast? with
    | some v => .ok (c ++ [v])
    | none => .error .indexError
  else .ok c

/-- A cell (`_flac3d.py`, 145-148 and 172-176). -/
def FlacState.addCell (s : FlacState) (flag : FlacFlag) (b7 : Bool) (id : ℤ) (vs : List ℤ) :
    Except PyErr FlacState := do
  let c ← flacVertices s.ids b7 vs
  let t ← flacCount flag c.length
  .ok { s with
    blocks := flacAdd t c s.blocks
    count := s.count + 1
    mapper := fun f => if f = flag then dictSet (s.mapper f) id [s.count] else s.mapper f }

/-- A group (`_flac3d.py`, 152-162 and 178-189; `_update_field_data`, 291-297,
`_update_slots`, 300-311). -/
def FlacState.addGroup (s : FlacState) (flag : FlacFlag) (name slot : Str) (data : List ℤ) :
    Except PyErr FlacState := do
  let mp ← data.foldlM (fun mp i => do
    let l ← dictGet mp i
    .ok (dictSet mp i (l ++ [s.group + 1]))) (s.mapper flag)
  if s.slots flag = [] ∨ slot ∈ s.slots flag then
    .ok { s with
      fields := dictSet s.fields name (s.group + 1, flag.dim)
      group := s.group + 1
      mapper := fun f => if f = flag then mp else s.mapper f
      slots := fun f => if f = flag then [slot] else s.slots f }
  else .error .valueError

/-- The groups of the cells of one kind (`_flac3d.py`, 197-201). -/
def FlacState.fill (s : FlacState) (flag : FlacFlag) (data : List ℕ) : Except PyErr (List ℕ) :=
  if s.slots flag = [] then .ok data
  else (s.mapper flag).foldlM (fun data e => match e.2 with
    | [c, g] => if c < data.length then .ok (data.set c g) else .error .indexError
    | _ => .error .valueError) data

/-- The end of `read_buffer` (`_flac3d.py`, 193-211). -/
def FlacState.finish (s : FlacState) : Except PyErr FlacRead := do
  let group ← (if s.fields = [] then .ok none
    else if s.blocks = [] then .error .indexError
    else do
      let data ← s.fill .zone (List.replicate s.count 0)
      let data ← s.fill .face data
      .ok (some data) : Except PyErr (Option (List ℕ)))
  if !rectangular s.points then .error .valueError
  else do
    let cells ← s.blocks.reverse.mapM fun b => do
      let data ← b.data.mapM (permute (flacOrderBack b.type))
      .ok (⟨b.type, data⟩ : CellBlock)
    .ok ⟨s.points, cells, group, s.fields⟩

/-- The table of a group in a text file (`_read_group`, `_flac3d.py`, 265-275) and the
lines that follow it. -/
def flacData : List Str → Except PyErr (List ℤ × List Str)
  | [] => .ok ([], [])
  | l :: ls =>
    match words (rstrip l) with
    | [] => .ok ([], l :: ls)
    | w :: r =>
      if w = "*".toList ∨ w = "ZGROUP".toList then .ok ([], l :: ls)
      else do
        let xs ← (w :: r).mapM toInt
        let (ys, rest) ← flacData ls
        .ok (xs ++ ys, rest)

/-- The slot of a group (`_flac3d.py`, 263). -/
def flacSlot (line : List Str) : Str :=
  if "SLOT".toList ∈ line then line.getLastD [] else []

/-- The loop over the lines of a text file (`_flac3d.py`, 164-191). Every turn reads a
line, so that one turn more than there are lines is enough. -/
def flacLoop : ℕ → List Str → FlacState → Except PyErr FlacState
  | 0, _, _ => .error .diverges
  | n + 1, lines, s =>
    let (l, ls) := nextLine lines
    match words (rstrip l) with
    | [] => .ok s
    | w :: r =>
      if w = "G".toList then do
        let t ← rowAt r 0
        let id ← toInt t
        let x ← (r.drop 1).mapM toFloat
        flacLoop n ls (s.addPoint id x)
      else if w = "Z".toList ∨ w = "F".toList then do
        let t ← rowAt r 1
        let id ← toInt t
        let b ← rowAt r 0
        let vs ← (r.drop 2).mapM toInt
        let s ← s.addCell (if w = "Z".toList then .zone else .face) (b = "B7".toList) id vs
        flacLoop n ls s
      else if w = "ZGROUP".toList ∨ w = "FGROUP".toList then do
        let t ← rowAt r 0
        let (data, ls) ← flacData ls
        let s ← s.addGroup (if w = "ZGROUP".toList then .zone else .face) (unquote t) (flacSlot (w :: r)) data
        flacLoop n ls s
      else flacLoop n ls s

/-- `read` (`_helpers.py`, 95-103, `_flac3d.py`, 94-211) of a text file. -/
def readFlac (lines : List Str) : Except PyErr FlacRead := do
  let s ← flacLoop (lines.length + 1) lines {}
  s.finish

end Verif.Mesh
