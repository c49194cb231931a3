import Verif.Model.Mesh
import Verif.Model.Csv
import Verif.Model.Tecplot
import Verif.Py.Repr

/-!
# AVS-UCD mesh files

Model of `/repo/toughio/_mesh/avsucd/_avsucd.py` and of `read` and `write` of
`/repo/toughio/_mesh/_helpers.py` for this format. A file is the list of its lines, each
with its newline character; beyond the end `readline` returns an empty text.

Simplifications: `writeAvs` is given points with three coordinates, `writeAvsRows` others;
arrays of data have one or
two dimensions and hold floats; an array of cell data is that of all blocks (the pieces
made by `write` (`_helpers.py`, 152) and by `_avsucd.py`, 82, are concatenated again
right away); labels contain no newline; of several exceptions another may come first.
-/

namespace Verif.Mesh
open Verif.Py Verif.Model

/-- An array with one row per point or cell: one number (`none`) or `w` numbers
(`some w`) in a row. -/
structure NArray where
  width : Option ℕ
  rows : List (List Flt)
  deriving DecidableEq

/-- `1 if v.ndim == 1 else v.shape[1]`. -/
def NArray.cols (a : NArray) : ℕ := a.width.getD 1

/-- What is written. -/
structure AvsMesh where
  points : List (P3 Flt)
  cells : List CellBlock
  pointData : List (Str × NArray)
  cellData : List (Str × NArray)
  deriving DecidableEq

/-- What is read. The material is one of the cell data: the numbers of the cells, or
data with the name of the material. -/
structure AvsRead where
  points : List (List Flt)
  cells : List CellBlock
  pointData : List (Str × NArray)
  material : List ℤ ⊕ NArray
  cellData : List (Str × NArray)
  deriving DecidableEq

/-- `_materials` (`_helpers.py`, 21) with what the formats add (`register`, 51-52). -/
def materialKeys : List Str :=
  ["material".toList, "gmsh:physical".toList, "medit:ref".toList, "avsucd:material".toList,
    "flac3d:group".toList]

/-- `meshio_to_avsucd_type` (`_avsucd.py`, 17-26). -/
def avsTypes : List (CellType × Str) :=
  [(.other "vertex".toList, "pt".toList), (.other "line".toList, "line".toList),
    (.triangle, "tri".toList), (.quad, "quad".toList), (.tetra, "tet".toList),
    (.pyramid, "pyr".toList), (.wedge, "prism".toList), (.hexahedron, "hex".toList)]

/-- `meshio_to_avsucd_type[k]`. -/
def avsName (t : CellType) : Except PyErr Str :=
  match avsTypes.find? (·.1 = t) with
  | some e => .ok e.2
  | none => .error .keyError

/-- `avsucd_to_meshio_type[s]` (`_avsucd.py`, 27). -/
def avsTypeOf (s : Str) : Except PyErr CellType :=
  match avsTypes.find? (·.2 = s) with
  | some e => .ok e.1
  | none => .error .keyError

/-- `meshio_to_avsucd_order` (`_avsucd.py`, 30-39). -/
def avsOrder : CellType → List ℕ
  | .triangle => [0, 1, 2]
  | .quad => [0, 1, 2, 3]
  | .tetra => [0, 1, 3, 2]
  | .pyramid => [4, 0, 1, 2, 3]
  | .wedge => [3, 4, 5, 0, 1, 2]
  | .hexahedron => [4, 5, 6, 7, 0, 1, 2, 3]
  | .other name => if name = "vertex".toList then [0] else [0, 1]

/-- `avsucd_to_meshio_order` (`_avsucd.py`, 42-45). -/
def avsOrderBack : CellType → List ℕ
  | .pyramid => [1, 2, 3, 4, 0]
  | t => avsOrder t

/-- `row[order]`. -/
def permute {α : Type} (order : List ℕ) (row : List α) : Except PyErr (List α) :=
  order.mapM fun i => match row[i]? with
    | some x => .ok x
    | none => .error .indexError

/-- `int(x)` of a float. -/
def intOfFlt : Flt → Except PyErr ℤ
  | .nan => .error .valueError
  | .inf _ => .error .overflowError
  | .fin neg mag => .ok (if neg then -(⌊mag⌋₊ : ℤ) else ⌊mag⌋₊)

/-! ### writing -/

/-- A line of texts separated by blanks. -/
def spacedLine (ts : List Str) : Str := joinWith ' ' ts ++ ['\n']

/-- `_write_nodes` (`_avsucd.py`, 221-223). -/
def avsNodes (points : List (P3 Flt)) : List Str :=
  points.zipIdx.map fun e => spacedLine [natStr (e.2 + 1), fltStr e.1.x, fltStr e.1.y, fltStr e.1.z]

/-- `int(material[i])` of one row. -/
def materialOf (row : List Flt) : Except PyErr ℤ :=
  match row with
  | [x] => intOfFlt x
  | _ => .error .typeError

/-- The materials (`_avsucd.py`, 228-234): `get_material_key` finds the first key. -/
def avsMaterials (m : AvsMesh) : Except PyErr (List ℤ) :=
  match m.cellData.find? (·.1 ∈ materialKeys) with
  | some e => e.2.rows.mapM materialOf
  | none => .ok (List.replicate (nCells m.cells) 0)

/-- The cells of a block as they are written (`_avsucd.py`, 238-240): name of the type
and vertices in order. -/
def avsTexts (b : CellBlock) : Except PyErr (List (Str × List ℕ)) := do
  let name ← avsName b.type
  let data ← b.data.mapM (permute (avsOrder b.type))
  .ok (data.map fun c => (name, c))

/-- The line of a cell (`_avsucd.py`, 240-245). -/
def avsCell (mats : List ℤ) (e : (Str × List ℕ) × ℕ) : Except PyErr Str := do
  let mat ← rowAt mats e.2
  .ok (spacedLine (natStr (e.2 + 1) :: intStr mat :: e.1.1 :: e.1.2.map fun v => natStr (v + 1)))

/-- `_write_cells` (`_avsucd.py`, 226-246). -/
def avsCells (cells : List CellBlock) (mats : List ℤ) : Except PyErr (List Str) := do
  let texts ← cells.mapM avsTexts
  texts.flatten.zipIdx.mapM (avsCell mats)

/-- `_write_data` (`_avsucd.py`, 249-257) for `n` points or cells. -/
def avsData (n : ℕ) (data : List (Str × NArray)) : Except PyErr (List Str) :=
  if data.all fun e => e.2.rows.length = n then
    .ok (spacedLine (natStr data.length :: data.map fun e => natStr e.2.cols) ::
      (data.map fun e => e.1 ++ ", real\n".toList) ++
      (List.range n).map fun i => spacedLine (natStr (i + 1) ::
        (data.flatMap fun e => (e.2.rows[i]?).getD []).map (fmtE 14)))
  else .error .valueError

/-- The number of columns of all data. -/
def totalCols (data : List (Str × NArray)) : ℕ := (data.map (·.2.cols)).sum

/-- `write` (`_helpers.py`, 150-153, `_avsucd.py`, 158-218). -/
def writeAvs (version : Str) (m : AvsMesh) : Except PyErr (List Str) := do
  if m.cellData.any fun e => e.2.rows.length ≠ nCells m.cells then .error .valueError else
  let cdata := m.cellData.filter fun e => e.1 ∉ materialKeys
  let np := m.points.length
  let nc := nCells m.cells
  let mats ← avsMaterials m
  let cells ← avsCells m.cells mats
  let pd ← (if totalCols m.pointData ≠ 0 then avsData np m.pointData else .ok [] :
    Except PyErr (List Str))
  let cd ← (if totalCols cdata ≠ 0 then avsData nc cdata else .ok [] : Except PyErr (List Str))
  .ok (("# Written by toughio v".toList ++ version ++ ['\n']) ::
    spacedLine [natStr np, natStr nc, natStr (totalCols m.pointData), natStr (totalCols cdata), ['0']] ::
    (avsNodes m.points ++ cells ++ pd ++ cd))

/-- A point with two coordinates gets zero as third (`_avsucd.py`, 160-167); three are
unpacked (`_write_nodes`, 222). All points have the same number of them. -/
def spacePoint : List Flt → Except PyErr (P3 Flt)
  | [x, y] => .ok ⟨x, y, .fin false 0⟩
  | [x, y, z] => .ok ⟨x, y, z⟩
  | _ => .error .valueError

/-- `write` (`_avsucd.py`, 158-218) with any number of coordinates. -/
def writeAvsRows (version : Str) (points : List (List Flt)) (cells : List CellBlock)
    (pointData cellData : List (Str × NArray)) : Except PyErr (List Str) := do
  let ps ← points.mapM spacePoint
  writeAvs version ⟨ps, cells, pointData, cellData⟩

/-! ### reading -/

/-- `f.readline()`. -/
def nextLine : List Str → Str × List Str
  | [] => ([], [])
  | l :: ls => (l, ls)

/-- `int(s)`. -/
def toInt (s : Str) : Except PyErr ℤ :=
  match pyInt s with
  | some i => .ok i
  | none => .error .valueError

/-- The first line that is no comment (`_avsucd.py`, 57-60). -/
def avsStart : List Str → Str × List Str
  | [] => ([], [])
  | l :: ls => if startsWith (strip l) ['#'] then avsStart ls else (l, ls)

/-- The four counts (`_avsucd.py`, 61-63). -/
def avsCounts (line : Str) : Except PyErr (ℤ × ℤ × ℤ × ℤ) := do
  let xs ← ((words line).take 4).mapM toInt
  match xs with
  | [a, b, c, d] => .ok (a, b, c, d)
  | _ => .error .valueError

/-- The lines of `n` points or cells, each as texts. -/
def avsRows : ℕ → List Str → List (List Str) × List Str
  | 0, ls => ([], ls)
  | n + 1, ls =>
    let (l, ls) := nextLine ls
    let (rs, ls) := avsRows n ls
    (words (strip l) :: rs, ls)

/-- All rows have the same length (`numpy.array` of lists). -/
def rectangular {α : Type} : List (List α) → Bool
  | [] => true
  | r :: rs => rs.all fun s => s.length = r.length

/-- `int(r[0])`. -/
def firstInt : List Flt → Except PyErr ℤ
  | x :: _ => intOfFlt x
  | [] => .error .indexError

/-- `_read_nodes` (`_avsucd.py`, 87-94): numbers of the points with their places, and the
points. -/
def avsReadNodes (rows : List (List Str)) : Except PyErr (List (ℤ × ℕ) × List (List Flt)) := do
  let data ← rows.mapM fun r => r.mapM toFloat
  if !rectangular data then .error .valueError
  else
    match data with
    | [] => .error .indexError
    | _ => do
      let ids ← data.mapM firstInt
      .ok (updateDict [] ids.zipIdx, data.map (·.drop 1))

/-- A cell as it is read. -/
structure AvsCell where
  id : ℤ
  mat : ℤ
  type : CellType
  corner : List ℕ

/-- `d[k]` of a dictionary of numbers. -/
def idOf (ids : List (ℤ × ℕ)) (k : ℤ) : Except PyErr ℕ := dictGet ids k

/-- One line of a cell (`_avsucd.py`, 103-107). -/
def avsReadCell (ids : List (ℤ × ℕ)) (row : List Str) : Except PyErr AvsCell := do
  let a ← rowAt row 0
  let id ← toInt a
  let b ← rowAt row 1
  let mat ← toInt b
  let c ← rowAt row 2
  let type ← avsTypeOf c
  let corner ← (row.drop 3).mapM fun s => do
    let i ← toInt s
    idOf ids i
  .ok ⟨id, mat, type, corner⟩

/-- The blocks (`_avsucd.py`, 109-114): a cell is added to the last block if it is of
its type. The blocks so far are given in reverse, as are the cells of the last. -/
def avsBlocks : List AvsCell → List CellBlock → List CellBlock
  | [], acc => acc
  | c :: cs, [] => avsBlocks cs [⟨c.type, [c.corner]⟩]
  | c :: cs, b :: acc =>
    if b.type = c.type then avsBlocks cs (⟨b.type, b.data ++ [c.corner]⟩ :: acc)
    else avsBlocks cs (⟨c.type, [c.corner]⟩ :: b :: acc)

/-- The vertices of a block in order (`_avsucd.py`, 120-123). -/
def avsBlock (b : CellBlock) : Except PyErr CellBlock :=
  if !rectangular b.data then .error .valueError
  else do
    let data ← b.data.mapM (permute (avsOrderBack b.type))
    .ok ⟨b.type, data⟩

/-- `line[0].strip().replace(" ", "_")` (`_avsucd.py`, 135-136). -/
def avsLabel (line : Str) : Except PyErr Str := do
  let t ← rowAt (splitOn ',' (strip line)) 0
  .ok ((strip t).map fun c => if c = ' ' then '_' else c)

/-- The labels of data (`_avsucd.py`, 134-141): `n` lines. -/
def avsLabels : ℕ → List Str → Except PyErr (List Str × List Str)
  | 0, ls => .ok ([], ls)
  | n + 1, ls => do
    let (l, ls) := nextLine ls
    let k ← avsLabel l
    let (ks, ls) ← avsLabels n ls
    .ok (k :: ks, ls)

/-- `numpy.empty` with `n` rows (`_avsucd.py`, 137-141). The numbers in it are not
known: `junk`. -/
def emptyArray (junk : Flt) (n : ℕ) (d : ℤ) : Except PyErr NArray :=
  if d < 0 then .error .valueError
  else if d = 1 then .ok ⟨none, List.replicate n [junk]⟩
  else .ok ⟨some d.toNat, List.replicate n (List.replicate d.toNat junk)⟩

/-- The numbers of one array in a row (`_avsucd.py`, 148-153); one number is enough for
all columns. -/
def avsValues (row : List Str) (j : ℕ) (d : ℕ) : Except PyErr (List Flt) := do
  if d = 1 then
    let t ← rowAt row (j + 1)
    let x ← toFloat t
    .ok [x]
  else
    let xs ← ((row.drop (j + 1)).take d).mapM toFloat
    if xs.length = d then .ok xs
    else match xs with
      | [x] => .ok (List.replicate d x)
      | _ => .error .valueError

/-- Set the rows of all arrays for one point or cell (`_avsucd.py`, 146-154). -/
def avsSetRow (row : List Str) (eid : ℕ) : List (Str × ℕ) → ℕ → List (Str × NArray) →
    Except PyErr (List (Str × NArray))
  | [], _, data => .ok data
  | (k, d) :: r, j, data => do
    let xs ← avsValues row j d
    let a ← dictGet data k
    if xs.length = a.cols then
      if eid < a.rows.length then
        avsSetRow row eid r (j + d) (dictSet data k ⟨a.width, a.rows.set eid xs⟩)
      else .error .indexError
    else .error .valueError

/-- `_read_data` (`_avsucd.py`, 128-155). -/
def avsReadData (junk : Flt) (n : ℕ) (ids : List (ℤ × ℕ)) (ls : List Str) :
    Except PyErr (List (Str × NArray) × List Str) := do
  let (l, ls) := nextLine ls
  let sizes ← ((words (strip l)).drop 1).mapM toInt
  let (labels, ls) ← avsLabels sizes.length ls
  let arrays ← sizes.mapM (emptyArray junk n)
  let data := updateDict [] (labels.zip arrays)
  let (rows, ls) := avsRows n ls
  let data ← rows.foldlM (fun data row => do
    let t ← rowAt row 0
    let i ← toInt t
    let eid ← idOf ids i
    avsSetRow row eid (labels.zip (sizes.map Int.toNat)) 0 data) data
  .ok (data, ls)

/-- `read` (`_helpers.py`, 95-103, `_avsucd.py`, 55-84). Without cells there is nothing
to concatenate. The material takes the place of other data of that name. -/
def readAvs (junk : Flt) (lines : List Str) : Except PyErr AvsRead := do
  let (l, ls) := avsStart lines
  let (np, nc, nnd, ncd) ← avsCounts (strip l)
  let (rows, ls) := avsRows np.toNat ls
  let (pids, points) ← avsReadNodes rows
  let (rows, ls) := avsRows nc.toNat ls
  let cs ← rows.mapM (avsReadCell pids)
  let blocks ← ((avsBlocks cs []).reverse).mapM avsBlock
  let cids := updateDict [] ((cs.map (·.id)).zipIdx)
  let (pdata, ls) ← (if nnd ≠ 0 then avsReadData junk np.toNat pids ls else .ok ([], ls) :
    Except PyErr (List (Str × NArray) × List Str))
  let (cdata, _) ← (if ncd ≠ 0 then avsReadData junk nc.toNat cids ls else .ok ([], ls) :
    Except PyErr (List (Str × NArray) × List Str))
  if blocks = [] then .error .valueError
  else
    let material := match dictGet cdata "avsucd:material".toList with
      | .ok a => Sum.inr a
      | .error _ => Sum.inl (cs.map (·.mat))
    .ok ⟨points, blocks, pdata, material,
      cdata.filter fun e => e.1 ≠ "material".toList ∧ e.1 ≠ "avsucd:material".toList⟩

end Verif.Mesh
