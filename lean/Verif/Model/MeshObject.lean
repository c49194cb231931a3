import Verif.Model.Meshio
import Verif.Model.MeshWrite
import Verif.Model.Labels
import Verif.Model.Registry
import Verif.Model.Csv

/-!
# The mesh object

Model of the attributes and the text of `Mesh` (`/repo/toughio/_mesh/_mesh.py`) and of the
initial conditions taken from its cell data (`/repo/toughio/_mesh/tough/_tough.py`).

Simplifications: those of `Verif.Model.Mesh`; arrays of initial conditions have one or two
dimensions; numbers in arrays of cell data are floats.
-/

namespace Verif.Mesh
open Verif.Py Verif.Model

/-! ## Cells -/

/-- What `cells` may be set to: a list of blocks or a dictionary. -/
inductive CellsArg
  | blocks (l : List CellBlock)
  | dict (d : OldCells)

/-- The attributes `_cells` and `_cells_dict`. -/
structure CellsAttr where
  cells : List CellBlock
  cellsDict : OldCells
  deriving DecidableEq

/-- The setter of `cells` (`_mesh.py`, 670-677). -/
def setCells : CellsArg → CellsAttr
  | .dict d => ⟨[], d⟩
  | .blocks l => ⟨l, []⟩

/-- The getter of `cells` (`_mesh.py`, 662-668). -/
def getCells (a : CellsAttr) : List CellBlock :=
  if a.cells ≠ [] then a.cells else a.cellsDict.map fun e => ⟨e.1, e.2⟩

/-- `cells_dict` (`_mesh.py`, 679-685). -/
def getCellsDict (a : CellsAttr) : Except PyErr OldCells :=
  if a.cells ≠ [] then oldCells a.cells else .ok a.cellsDict

/-- The name of a cell type. -/
def typeText : CellType → Str
  | .triangle => "triangle".toList
  | .quad => "quad".toList
  | .tetra => "tetra".toList
  | .pyramid => "pyramid".toList
  | .wedge => "wedge".toList
  | .hexahedron => "hexahedron".toList
  | .other s => s

/-- `", ".join(names)`. -/
def joinComma : List Str → Str
  | [] => []
  | [s] => s
  | s :: r => s ++ ", ".toList ++ joinComma r

/-- A line with names, if there are any (`_mesh.py`, 87-94). -/
def namesLine (title : String) (names : List Str) : List Str :=
  if names = [] then [] else [title.toList ++ joinComma names]

/-- `__repr__` (`_mesh.py`, 74-96). -/
def meshText {K D : Type} (m : Mesh K D) (pointSets : List Str) : Str :=
  let head := ["<toughio mesh object>".toList, "  Number of points: ".toList ++ natStr m.points.length]
  let cells := if 0 < m.cells.length
    then "  Number of cells:".toList ::
      m.cells.map fun c => "    ".toList ++ typeText c.type ++ ": ".toList ++ natStr c.data.length
    else ["  No cells.".toList]
  joinWith '\n' (head ++ cells ++ namesLine "  Point sets: " pointSets ++
    namesLine "  Point data: " (m.pointData.map (·.1)) ++ namesLine "  Cell data: " (m.cellData.map (·.1)))

/-! ## Initial conditions -/

/-- An array of cell data: its entries, its rows with their length, or the number of rows of
one with more dimensions. -/
inductive Arr
  | vec (l : List Flt)
  | mat (m : ℕ) (rows : List (List Flt))
  | deep (n : ℕ)
  deriving DecidableEq

/-- `numpy.full((n, 4), -1.0e9)`. -/
def undefinedRows (n : ℕ) : Arr := .mat 4 (List.replicate n (List.replicate 4 (.fin true (10 ^ 9))))

/-- `init_incon` (`_tough.py`, 384-400): primary variables, porosities, permeabilities. -/
def initIncon (n : ℕ) (cellData : List (Str × Arr)) : Arr × Option Arr × Option Arr :=
  (match dictGet cellData "initial_condition".toList with
    | .ok a => a
    | .error _ => undefinedRows n,
   (dictGet cellData "porosity".toList).toOption, (dictGet cellData "permeability".toList).toOption)

/-- The check of the porosities (`_tough.py`, 133-138). -/
def checkPorosity (n : ℕ) : Option Arr → Except PyErr Unit
  | none => .ok ()
  | some (.vec l) => if l.length = n then .ok () else .error .valueError
  | some _ => .error .valueError

/-- The check of the permeabilities (`_tough.py`, 140-153). -/
def checkPermeability (n : ℕ) : Option Arr → Except PyErr Unit
  | none => .ok ()
  | some (.vec l) => if l.length = n then .ok () else .error .valueError
  | some (.mat m rows) => if m = 3 ∧ rows.length = n then .ok () else .error .valueError
  | some (.deep _) => .error .valueError

/-- The rows of the primary variables: `primary_variables[:, 0]` needs a second dimension
(`_tough.py`, 126-129). -/
def inconRows : Arr → Except PyErr (List (List Flt))
  | .vec _ => .error .indexError
  | .mat m rows => if m = 0 then .error .indexError else .ok rows
  | .deep _ => .error .valueError

/-- `check_incon` (`_tough.py`, 113-155) with the shapes of the arrays; the warnings are left
out. -/
def checkInconArrays (incon : Bool) (p : Arr) (phi perm : Option Arr) (n : ℕ) : Except PyErr Bool := do
  let rows ← inconRows p
  let wanted := incon && !rows.all fun r => r.all fun v => decide (v = .fin true (10 ^ 9))
  if incon then do
    checkPorosity n phi
    checkPermeability n perm
    .ok wanted
  else .ok wanted

/-- The rows of an array with two dimensions. -/
def valueRows : Arr → List (List Flt)
  | .mat _ rows => rows
  | _ => []

/-- The porosities passed on to the writer of `n` cells (`_helpers.py`, 86). -/
def porosityList (n : ℕ) : Option Arr → List (Option Flt)
  | some (.vec l) => l.map some
  | _ => List.replicate n none

/-- The permeability modifiers passed on to the writer of `n` cells (`_tough.py`, 375-378,
`_helpers.py`, 87). -/
def modifierList (n : ℕ) : Option Arr → List (Option (List Flt))
  | some (.vec l) => l.map fun v => some [v]
  | some (.mat _ rows) => rows.map some
  | _ => List.replicate n none

/-- `zip(labels, values, porosity, userx)` with the arrays as they are passed on
(`_tough.py`, 369-381, `_helpers.py`, 86-92). -/
def inconCells (labels : List Str) (p : Arr) (phi perm : Option Arr) : List MeshIncon :=
  (labels.zip ((valueRows p).zip ((porosityList labels.length phi).zip (modifierList labels.length perm)))).map
    fun e => ⟨e.1, e.2.1, e.2.2.1, e.2.2.2⟩

/-- The lines of the INCON file of a mesh (`Mesh.write_incon`, `_mesh.py`, 377-406, and the end
of `write`, `_tough.py`, 76-110), if it is written. -/
def meshInconFile (incon : Bool) (n : ℕ) (labelLength : Option ℤ) (cellData : List (Str × Arr)) :
    Except PyErr (Option (List Str)) := do
  let (p, phi, perm) := initIncon n cellData
  let wanted ← checkInconArrays incon p phi perm n
  if wanted then do
    let labels ← labeler n labelLength
    let lines ← meshIncon (inconCells labels p phi perm)
    .ok (some lines)
  else .ok none

/-! ## Files -/

/-- `os.path.split(p)[0]` (`posixpath`). -/
def pathHead (p : Str) : Str :=
  let head := p.take (rfind '/' p + 1).toNat
  if head.all (· = '/') then head else (head.reverse.dropWhile (· = '/')).reverse

/-- `os.path.join(a, b)` for a relative path `b`. -/
def pathJoin (a b : Str) : Str :=
  if a = [] then b else if a.getLast? = some '/' then a ++ b else a ++ '/' :: b

/-- The name of the INCON file (`_tough.py`, 103-105). -/
def inconPath (filename : Str) : Str :=
  let head := pathHead filename
  if head ≠ [] then pathJoin head "INCON".toList else "INCON".toList

/-- The files afterwards (`_tough.py`, 80-110), of a mesh with these lines. -/
def writeFiles (files : List (Str × List Str)) (filename : Str) (mesh : List Str) (incon : Option (List Str)) :
    List (Str × List Str) :=
  let files := dictSet files filename mesh
  match incon with
  | some i => dictSet files (inconPath filename) i
  | none => files

end Verif.Mesh
