import Verif.Model.Tecplot
import Verif.Model.Avsucd

/-!
# Tecplot mesh files

Model of `/repo/toughio/_mesh/tecplot/_tecplot.py` and of `read` and `write` of
`/repo/toughio/_mesh/_helpers.py` for this format. `_read_variables` and `_read_zone`
are in `Verif/Model/Tecplot.lean`. A file is the list of its lines, each with its
newline character.

Simplifications: points have two or three coordinates when written; arrays of data have one or
two dimensions and hold floats; names contain no newline; negative numbers of nodes or
elements count as zero; of several exceptions another may come first.
-/

namespace Verif.Mesh
open Verif.Py Verif.Model

/-- `meshio_to_tecplot_type` (`_tecplot.py`, 44-51). -/
def tecType : CellType → Option Str
  | .triangle => some "FETRIANGLE".toList
  | .quad => some "FEQUADRILATERAL".toList
  | .tetra => some "FETETRAHEDRON".toList
  | .pyramid => some "FEBRICK".toList
  | .wedge => some "FEBRICK".toList
  | .hexahedron => some "FEBRICK".toList
  | .other _ => none

/-- `tecplot_to_meshio_type` (`_tecplot.py`, 32-41). -/
def tecTypes : List (Str × CellType) :=
  [("TRIANGLE".toList, .triangle), ("FETRIANGLE".toList, .triangle),
    ("QUADRILATERAL".toList, .quad), ("FEQUADRILATERAL".toList, .quad),
    ("TETRAHEDRON".toList, .tetra), ("FETETRAHEDRON".toList, .tetra),
    ("BRICK".toList, .hexahedron), ("FEBRICK".toList, .hexahedron)]

/-- `meshio_to_tecplot_order` (`_tecplot.py`, 57-64). -/
def tecOrder : CellType → List ℕ
  | .triangle => [0, 1, 2]
  | .quad => [0, 1, 2, 3]
  | .tetra => [0, 1, 2, 3]
  | .pyramid => [0, 1, 2, 3, 4, 4, 4, 4]
  | .wedge => [0, 1, 4, 3, 2, 2, 5, 5]
  | .hexahedron => [0, 1, 2, 3, 4, 5, 6, 7]
  | .other _ => []

/-- `meshio_to_tecplot_order_2` (`_tecplot.py`, 67-74). -/
def tecOrder2 : CellType → List ℕ
  | .triangle => [0, 1, 2, 2]
  | .quad => [0, 1, 2, 3]
  | .tetra => [0, 1, 2, 2, 3, 3, 3, 3]
  | .pyramid => [0, 1, 2, 3, 4, 4, 4, 4]
  | .wedge => [0, 1, 4, 3, 2, 2, 5, 5]
  | .hexahedron => [0, 1, 2, 3, 4, 5, 6, 7]
  | .other _ => []

/-- `meshio_type_to_ndim` (`_tecplot.py`, 77-84). -/
def tecDim : CellType → ℕ
  | .triangle => 2
  | .quad => 2
  | _ => 3

/-! ### writing -/

/-- Type of the zone, whether cells of a type are written, and the order of their
vertices (`_tecplot.py`, 324-368). The type is that of the first block, even if this
block is skipped. -/
def tecPlan (cells : List CellBlock) : Except PyErr (Str × (CellType → Bool) × (CellType → List ℕ)) :=
  match (cells.map (·.type)).filter fun t => (tecType t).isSome with
  | [] => .error .assertionError
  | t :: ts =>
    if ts.all (· = t) then
      .ok ((tecType t).getD [], fun t => (tecType t).isSome, tecOrder)
    else
      let mixed := (t :: ts).any (fun t => tecDim t = 2) && (t :: ts).any (fun t => tecDim t = 3)
      .ok (if tecDim t = 2 then "FEQUADRILATERAL".toList else "FEBRICK".toList,
        fun t => (tecType t).isSome && (!mixed || tecDim t = 3), tecOrder2)

/-- The rows of the blocks of some types (`_tecplot.py`, 397). -/
def blockRows {α : Type} (keep : CellType → Bool) : List CellBlock → List α → List α
  | [], _ => []
  | b :: bs, rows => (if keep b.type then rows.take b.data.length else []) ++
      blockRows keep bs (rows.drop b.data.length)

/-- The names that are skipped (`_tecplot.py`, 380 and 396). -/
def tecReserved : List Str :=
  ["X".toList, "Y".toList, "Z".toList, "x".toList, "y".toList, "z".toList]

/-- The variables of an array (`_tecplot.py`, 381-389 and 398-406). -/
def tecColumns (e : Str × NArray) : Except PyErr (List (Str × List Flt)) :=
  match e.2.width with
  | none => do
    let v ← e.2.rows.mapM fun r => rowAt r 0
    .ok [(e.1, v)]
  | some w => (List.range w).mapM fun i => do
    let v ← e.2.rows.mapM fun r => rowAt r i
    .ok (e.1 ++ '_' :: natStr i, v)

/-- The variables of all arrays. -/
def tecData (data : List (Str × NArray)) : Except PyErr (List (Str × List Flt)) :=
  concatM tecColumns (data.filter fun e => e.1 ∉ tecReserved)

/-- `", ".join('"{}"'.format(var) for var in variables)` (`_tecplot.py`, 415). -/
def quotedNames : List Str → Str
  | [] => []
  | [v] => '"' :: (v ++ ['"'])
  | v :: vs => '"' :: (v ++ ('"' :: ',' :: ' ' :: quotedNames vs))

/-- `_write_table` (`_tecplot.py`, 444-449). -/
def tecTable (xs : List Flt) : List Str := (chunks 20 xs).map fun l => spacedLine (l.map fltStr)

/-- The lines of the zone (`_tecplot.py`, 419-432) for the numbers of variables of points
and of cells. -/
def tecZoneLines (np nc pv cv : ℕ) (type : Str) : List Str :=
  let first := "ZONE NODES = ".toList ++ natStr np ++ ", ELEMENTS = ".toList ++ natStr nc ++ [',', '\n']
  let second := "DATAPACKING = BLOCK, ZONETYPE = ".toList ++ type
  if cv = 0 then [first, second ++ ['\n']]
  else [first, second ++ [',', '\n'], "VARLOCATION = ([".toList ++
    (if cv = 1 then natStr (pv + 1) else natStr (pv + 1) ++ '-' :: natStr (pv + cv)) ++
    "] = CELLCENTERED)\n".toList]

/-- The coordinates as variables (`_tecplot.py`, 370-377); there are two if `flat`. -/
def tecCoords (flat : Bool) (points : List (P3 Flt)) : List (Str × List Flt) :=
  ("X".toList, points.map (·.x)) :: ("Y".toList, points.map (·.y)) ::
    if flat then [] else [("Z".toList, points.map (·.z))]

/-- `write` (`_helpers.py`, 150-153, `_tecplot.py`, 322-441). If `flat`, the points have two
coordinates, and the third is not looked at. -/
def writeTecMesh (flat : Bool) (version : Str) (m : AvsMesh) : Except PyErr (List Str) := do
  if m.cellData.any fun e => e.2.rows.length ≠ nCells m.cells then .error .valueError else
  let (type, keep, order) ← tecPlan m.cells
  let cells ← concatM (fun b => b.data.mapM (permute (order b.type))) (m.cells.filter fun b => keep b.type)
  let pdata ← tecData m.pointData
  let cdata ← tecData (m.cellData.map fun e => (e.1, ⟨e.2.width, blockRows keep m.cells e.2.rows⟩))
  let pvars := tecCoords flat m.points ++ pdata
  .ok (("TITLE = \"Written by toughio v".toList ++ version ++ ['"', '\n']) ::
    ("VARIABLES = ".toList ++ quotedNames ((pvars ++ cdata).map (·.1)) ++ ['\n']) ::
    (tecZoneLines m.points.length cells.length pvars.length cdata.length type ++
      (pvars ++ cdata).flatMap (fun e => tecTable e.2) ++
      cells.map fun c => spacedLine (c.map fun v => natStr (v + 1))))

/-! ### reading -/

/-- What is read. -/
structure TecMesh where
  points : List (List Flt)
  type : CellType
  cells : List (List ℤ)
  pointData : List (Str × List Flt)
  cellData : List (Str × List Flt)
  deriving DecidableEq

/-- The other lines of a zone (`_tecplot.py`, 109-119): all up to a line that is empty or
starts with a digit. -/
def zoneMore : List Str → List Str × List Str
  | [] => ([], [])
  | l :: ls =>
    match upper (strip l) with
    | [] => ([], l :: ls)
    | c :: r =>
      if isDigit c then ([], l :: ls)
      else
        let (m, rest) := zoneMore ls
        ((c :: r) :: m, rest)

/-- A text of a zone; the values are of the type of their key. -/
def zoneTxt (z : Zone) (k : Str) : Option Str :=
  match z.lookup k with
  | some (.txt s) => some s
  | _ => none

/-- A number of a zone. -/
def zoneInt (z : Zone) (k : Str) : Option ℤ :=
  match z.lookup k with
  | some (.int i) => some i
  | _ => none

/-- Format and type of a zone (`_tecplot.py`, 247-261). -/
def fezoneFormat (z : Zone) : Except PyErr (Str × Str) :=
  match zoneTxt z "F".toList with
  | some f =>
    if f ≠ "FEPOINT".toList ∧ f ≠ "FEBLOCK".toList then .error .valueError
    else match zoneTxt z "ET".toList with
      | some t => .ok (f, t)
      | none => .error .valueError
  | none =>
    match zoneTxt z "DATAPACKING".toList with
    | some d =>
      match zoneTxt z "ZONETYPE".toList with
      | some t => .ok ("FE".toList ++ d, t)
      | none => .error .valueError
    | none => .error .valueError

/-- A number given under one of two keys (`_tecplot.py`, 263-277). -/
def fezoneCount (z : Zone) (a b : Str) : Except PyErr ℕ :=
  match zoneInt z a with
  | some i => .ok i.toNat
  | none =>
    match zoneInt z b with
    | some i => .ok i.toNat
    | none => .error .valueError

/-- `is_cell_centered[i] = 1`. -/
def setCentered (l : List Bool) (i : ℤ) : Except PyErr (List Bool) :=
  let j := if i < 0 then i + l.length else i
  if 0 ≤ j ∧ j < l.length then .ok (l.set j.toNat true) else .error .indexError

/-- One entry of `VARLOCATION` (`_tecplot.py`, 287-299). -/
def locateOne (l : List Bool) (location : Str) : Except PyErr (List Bool) := do
  let (range, loc) ← splitPair location
  if strip loc = "CELLCENTERED".toList then
    match splitOn '-' (pySlice range 1 (-1)) with
    | [a] => do
      let i ← toInt a
      setCentered l (i - 1)
    | a :: b :: _ => do
      let i ← toInt a
      let j ← toInt b
      ((List.range (j - i + 1).toNat).map fun k : ℕ => i - 1 + k).foldlM setCentered l
    | [] => .error .indexError
  else .ok l

/-- Which variables belong to cells (`_tecplot.py`, 279-299). -/
def fezoneCentered (z : Zone) (format : Str) (n : ℕ) : Except PyErr (List Bool) :=
  if format = "FEBLOCK".toList then
    match zoneInt z "NV".toList with
    | some i => .ok ((List.range n).map fun k => decide (sliceIdx n i ≤ k))
    | none =>
      match zoneTxt z "VARLOCATION".toList with
      | some v => (splitOn ',' (pySlice v 1 (-1))).foldlM locateOne (List.replicate n false)
      | none => .ok (List.replicate n false)
  else .ok (List.replicate n false)

/-- Numbers in any number of lines (`_tecplot.py`, 305-310). At the end of the file the
loop goes on for ever. -/
def blockNumbers : ℕ → List Str → Except PyErr (List Flt × List Str)
  | 0, ls => .ok ([], ls)
  | _ + 1, [] => .error .diverges
  | n + 1, l :: ls => do
    let xs ← (words (strip l)).mapM toFloat
    let (ys, rest) ← blockNumbers (n + 1 - xs.length) ls
    .ok (xs ++ ys, rest)

/-- Rows of numbers (`_tecplot.py`, 305-310). -/
def pointRows : ℕ → List Str → Except PyErr (List (List Flt) × List Str)
  | 0, ls => .ok ([], ls)
  | _ + 1, [] => .error .diverges
  | n + 1, l :: ls =>
    if words (strip l) = [] then pointRows (n + 1) ls
    else do
      let xs ← (words (strip l)).mapM toFloat
      let (ys, rest) ← pointRows n ls
      .ok (xs :: ys, rest)

/-- The cells (`_tecplot.py`, 312-319). -/
def cellRows : ℕ → List Str → Except PyErr (List (List ℤ))
  | 0, _ => .ok []
  | _ + 1, [] => .error .diverges
  | n + 1, l :: ls =>
    if words (strip l) = [] then cellRows (n + 1) ls
    else do
      let xs ← (words (strip l)).mapM toInt
      let ys ← cellRows n ls
      .ok (xs :: ys)

/-- `numpy.transpose` of rows. -/
def transposeRows (rows : List (List Flt)) : Except PyErr (List (List Flt)) :=
  if !rectangular rows then .error .valueError
  else
    match rows with
    | [] => .ok []
    | r :: _ => (List.range r.length).mapM fun j => rows.mapM fun r => rowAt r j

/-- The numbers of every variable (`_tecplot.py`, 131-148). -/
def tecValues (format : Str) (np : ℕ) (sizes : List ℕ) (ls : List Str) :
    Except PyErr (List (List Flt) × List Str) :=
  if format = "FEBLOCK".toList then do
    let (xs, ls) ← blockNumbers sizes.sum ls
    if xs = [] then .error .valueError else
    .ok (npSplit xs (cumsum sizes.dropLast), ls)
  else do
    let (rows, ls) ← pointRows np ls
    let cols ← transposeRows rows
    .ok (cols, ls)

/-- `d.pop(k)`. -/
def dictPop {β : Type} (d : List (Str × β)) (k : Str) : Except PyErr (β × List (Str × β)) := do
  let v ← dictGet d k
  .ok (v, d.filter (·.1 ≠ k))

/-- The variables of points and of cells (`_tecplot.py`, 151-156). -/
def tecShare (data : List (Str × List Flt)) : List (Bool × Str) → List (Str × List Flt) →
    List (Str × List Flt) → Except PyErr (List (Str × List Flt) × List (Str × List Flt))
  | [], p, c => .ok (p, c)
  | (i, v) :: r, p, c => do
    let x ← dictGet data v
    if i then tecShare data r p (dictSet c v x) else tecShare data r (dictSet p v x) c

/-- `numpy.column_stack` of flat arrays. -/
def columnStack (cols : List (List Flt)) : Except PyErr (List (List Flt)) :=
  match cols with
  | [] => .error .valueError
  | c :: cs =>
    if cs.all fun d => d.length = c.length then
      (List.range c.length).mapM fun i => cols.mapM fun d => rowAt d i
    else .error .valueError

/-- The coordinates (`_tecplot.py`, 158-163). -/
def tecPoints (p : List (Str × List Flt)) : Except PyErr (List (List Flt) × List (Str × List Flt)) := do
  let has (k : Str) : Bool := k ∈ p.map (·.1)
  let x := if has "X".toList then "X".toList else "x".toList
  let y := if has "Y".toList then "Y".toList else "y".toList
  let z := if has "Z".toList then some "Z".toList else if has "z".toList then some "z".toList else none
  let (xs, p) ← dictPop p x
  let (ys, p) ← dictPop p y
  match z with
  | none => do
    let pts ← columnStack [xs, ys]
    .ok (pts, p)
  | some z => do
    let (zs, p) ← dictPop p z
    let pts ← columnStack [xs, ys, zs]
    .ok (pts, p)

/-- The material is renamed (`_helpers.py`, 101-103). -/
def renameMaterial {β : Type} (d : List (Str × β)) : List (Str × β) :=
  match d.find? (·.1 ∈ materialKeys) with
  | none => d
  | some e => dictSet (d.filter (·.1 ≠ e.1)) "material".toList e.2

/-- The zone and its data (`_tecplot.py`, 122-166). -/
def tecZoneRead (vars : List Str) (zone : Zone) (ls : List Str) : Except PyErr TecMesh := do
  let (format, type) ← fezoneFormat zone
  let np ← fezoneCount zone "N".toList "NODES".toList
  let nc ← fezoneCount zone "E".toList "ELEMENTS".toList
  let centered ← fezoneCentered zone format vars.length
  let (cols, ls) ← tecValues format np (centered.map fun i => if i then nc else np) ls
  let cells ← cellRows nc ls
  if cells = [] ∨ !rectangular cells then .error .valueError else
  let data := updateDict [] (vars.zip cols)
  let (p, c) ← tecShare data (centered.zip vars) [] []
  let (pts, p) ← tecPoints p
  let t ← dictGet tecTypes type
  .ok ⟨pts, t, cells.map fun r => r.map (· - 1), p, renameMaterial c⟩

/-- `read` (`_helpers.py`, 95-103, `_tecplot.py`, 94-166): the loop with the variables found
so far. Without a zone nothing has been read. -/
def tecMeshLoop : Option (List Str) → List Str → Except PyErr TecMesh
  | _, [] => .error .unboundLocalError
  | vars, l :: ls =>
    let line := strip l
    if startsWith (upper line) "VARIABLES".toList then do
      let vs ← readVariables line
      tecMeshLoop (some vs) ls
    else if startsWith (upper line) "ZONE".toList then do
      let (more, ls) := zoneMore ls
      let zone ← readZone (joinWith ' ' (line :: more))
      match vars with
      | none => .error .unboundLocalError
      | some vs => tecZoneRead vs zone ls
    else if line = [] then .error .unboundLocalError
    else tecMeshLoop vars ls

/-- `read`. -/
def readTecMesh (lines : List Str) : Except PyErr TecMesh := tecMeshLoop none lines

end Verif.Mesh
