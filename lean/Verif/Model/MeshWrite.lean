import Verif.Model.MeshBlocks
import Verif.Py.Arith

/-!
# Writing the MESH and INCON files of a mesh

Model of `/repo/toughio/_mesh/tough/_tough.py` (`write_mesh` 158-219, `write_incon`
222-237, `_write_eleme` 240-269, `_write_coord` 272-293, the writing part of
`_write_conne` 296-366, `_write_incon` 369-381) and of
`/repo/toughio/_mesh/tough/_helpers.py` (1-149). Here the quantities of the cells and
of the connections are given as floats; how they follow from the points of the mesh is
modelled in `Verif.Model.Geometry`, `Verif.Model.Connections` and `Verif.Model.Mesh`.
Files are lists of lines; a file that is left unfinished by an exception is not
modelled.
-/

namespace Verif.Model
open Verif.Py

/-- The material of a cell: a name or a number (`Mesh.materials`). -/
inductive Material
  | name (s : Str)
  | number (i : ℤ)
  deriving DecidableEq

/-- What `write_mesh` knows of a cell; `bound` is its boundary condition. -/
structure MeshCell where
  label : Str
  material : Material
  volume : Flt
  bound : Bool
  x : Flt
  y : Flt
  z : Flt
  deriving DecidableEq

/-- What `_write_conne` has calculated for a connection (`_tough.py`, 313-362). -/
structure MeshConn where
  label1 : Str
  label2 : Str
  isot : ℤ
  d1 : Flt
  d2 : Flt
  area : Flt
  angle : Flt
  deriving DecidableEq

/-- `"{:5}".format(material.strip())` for names (`_tough.py`, 179-182). -/
def padMaterial : Material → Material
  | .name s => .name (padRight 5 (strip s))
  | .number i => .number i

/-- The value that goes to the column of the material (`_helpers.py`, 31-36): numbers
are written right-aligned. -/
def materialVal : Material → Val
  | .name s => .str s
  | .number i => .str (padLeft 5 (intStr i))

/-- `material_name[material] if material_name and material in material_name.keys()
else material` (`_helpers.py`, 31-35). -/
def renameMaterial (names : List (Material × Material)) (m : Material) : Material :=
  (names.lookup m).getD m

/-- A record of the generators of `_helpers.py`: the formatted values and a line break,
not filled up to 80 characters. The ignored columns, which are given the empty string
and the format `{:w}`, have the value `Val.none`. -/
def plainRecord (fmt : List Tok) (vs : List Val) : Except PyErr Str := do
  let t ← recText fmt vs
  .ok (t ++ ['\n'])

/-- `volumes[boundary_conditions.astype(bool)] *= 1.0e50` (`_tough.py`, 255). -/
def writtenVolume (c : MeshCell) : Flt :=
  if c.bound then mulF c.volume (ofDecimal false (10 ^ 50)) else c.volume

/-- The record of a cell in ELEME (`_helpers.py`, 29-49); the material has been padded
before. -/
def elemeRecord (names : List (Material × Material)) (fmt : List Tok) (c : MeshCell) :
    Except PyErr Str :=
  plainRecord fmt [.str c.label, .none, .none,
    materialVal (renameMaterial names (padMaterial c.material)), .flt (writtenVolume c), .none, .none,
    .flt c.x, .flt c.y, .flt c.z]

/-- The record of a cell in COORD (`_helpers.py`, 52-58). -/
def coordRecord (c : MeshCell) : Except PyErr Str :=
  plainRecord Fmt.coord [.flt c.x, .flt c.y, .flt c.z]

/-- The loops of `_write_eleme` and `_write_coord` (`_tough.py`, 257-269 and 282-293):
records of the cells with a material in `ends` come last. -/
def endLast (ends : List Material) (recs : List (Material × Str)) : List Str :=
  ((recs.filter fun r => decide (r.1 ∉ ends)) ++ recs.filter fun r => decide (r.1 ∈ ends)).map (·.2)

/-- A cell's padded material with a record. -/
def withMaterial (rec : MeshCell → Except PyErr Str) (c : MeshCell) :
    Except PyErr (Material × Str) := do
  let r ← rec c
  .ok (padMaterial c.material, r)

/-- `_write_eleme` (`_tough.py`, 240-269; `_helpers.py`, 23-49). For a mesh without
cells `zip` never asks for a record. -/
def meshEleme (names : List (Material × Material)) (ends : List Material) (cells : List MeshCell) :
    Except PyErr (List Str) :=
  block "ELEME" true (
    match cells with
    | [] => .ok []
    | c :: _ => do
      let fmt ← formatFor Fmt.eleme c.label.length
      let recs ← cells.mapM (withMaterial (elemeRecord names fmt))
      .ok (endLast ends recs))

/-- `_write_coord` (`_tough.py`, 272-293). -/
def meshCoord (ends : List Material) (cells : List MeshCell) : Except PyErr (List Str) :=
  block "COORD" true (do
    let recs ← cells.mapM (withMaterial coordRecord)
    .ok (endLast ends recs))

/-- The record of a connection in CONNE (`_helpers.py`, 67-81). -/
def conneRecord (fmt : List Tok) (c : MeshConn) : Except PyErr Str :=
  plainRecord fmt [.str (c.label1 ++ c.label2), .none, .none, .none, .int c.isot, .flt c.d1,
    .flt c.d2, .flt c.area, .flt c.angle, .none]

/-- The writing of `_write_conne` (`_tough.py`, 342-366; `_helpers.py`, 61-81). Without
connections `numpy.diff` is given an array of one dimension (`ValueError`). -/
def meshConne (conns : List MeshConn) : Except PyErr (List Str) :=
  block "CONNE" true (
    match conns with
    | [] => .error .valueError
    | c :: _ => do
      let fmt ← formatFor Fmt.conne c.label1.length
      conns.mapM (conneRecord fmt))

/-- `write_mesh` (`_tough.py`, 158-219). -/
def meshFile (names : List (Material × Material)) (ends : List Material) (coord : Bool)
    (cells : List MeshCell) (conns : List MeshConn) : Except PyErr (List Str) := do
  let e ← meshEleme names ends cells
  let x ← (if coord then meshCoord ends cells else .ok [])
  let c ← meshConne conns
  .ok (e ++ (x ++ c))

/-! ## INCON -/

/-- What `_write_incon` knows of a cell: the row of `primary_variables`, and those of
`porosities` and `permeabilities` if there are any. -/
structure MeshIncon where
  label : Str
  values : List Flt
  porosity : Option Flt
  userx : Option (List Flt)
  deriving DecidableEq

/-- `any(v > -1.0e-9 for v in value)`, `phi is not None` or `usrx is not None`
(`_helpers.py`, 93-96). -/
def inconWritten (c : MeshIncon) : Bool :=
  c.values.any (gtNeg (rnd64q (1 / 10 ^ 9))) || c.porosity.isSome || c.userx.isSome

/-- A value that is not greater than -1e9 is left blank (`_helpers.py`, 121-126 and
136-141). -/
def inconVal (v : Flt) : Val := if gtNeg (10 ^ 9) v then .flt v else .none

/-- The porosity, or a blank (`_helpers.py`, 101-105). -/
def inconPhi (c : MeshIncon) : Val :=
  match c.porosity with
  | some v => .flt v
  | none => .none

/-- The user fields, or three blanks (`_helpers.py`, 107-111). -/
def inconUserx (c : MeshIncon) : List Val :=
  match c.userx with
  | some u => u.map .flt
  | none => List.replicate 3 .none

/-- The third record, if there are more than four values (`_helpers.py`, 132-145). -/
def inconThird (vs : List Val) : Except PyErr (List Str) :=
  if 4 < vs.length then do
    let l ← plainRecord Fmt.incon0 (vs.drop 4)
    .ok [l]
  else .ok []

/-- The records of a cell in INCON (`_helpers.py`, 97-147). -/
def inconRecords (fmt : List Tok) (c : MeshIncon) : Except PyErr (List Str) := do
  let l1 ← plainRecord fmt ([.str c.label, .none, .none, inconPhi c] ++ inconUserx c)
  let l2 ← plainRecord Fmt.incon0 ((c.values.map inconVal).take 4)
  let l3 ← inconThird (c.values.map inconVal)
  .ok (l1 :: l2 :: l3)

/-- One turn of the loop over the cells (`_helpers.py`, 92-149). The table of formats
is only asked for the label length when a cell is written. -/
def inconRow (n : ℕ) (c : MeshIncon) : Except PyErr (List Str) :=
  if inconWritten c then do
    let fmt ← formatFor Fmt.incon n
    inconRecords fmt c
  else .ok []

/-- `write_incon` (`_tough.py`, 222-237 and 369-381; `_helpers.py`, 84-149). Without
cells `labels[0]` is an `IndexError`. -/
def meshIncon (cells : List MeshIncon) : Except PyErr (List Str) :=
  block "INCON" true (
    match cells with
    | [] => .error .indexError
    | c :: _ => concatM (inconRow c.label.length) cells)

/-- `check_incon` (`_tough.py`, 113-155): the INCON file is not written if all primary
variables have the value -1e9. Simplification: the shapes of the arrays, which are
checked there, are right. -/
def checkIncon (incon : Bool) (cells : List MeshIncon) : Bool :=
  incon && !cells.all fun c => c.values.all fun v => decide (v = .fin true (10 ^ 9))

/-- The files of `write` (`_tough.py`, 37-110): MESH, and INCON if it is wanted. -/
def meshFiles (names : List (Material × Material)) (ends : List Material) (coord incon : Bool)
    (cells : List MeshCell) (conns : List MeshConn) (ics : List MeshIncon) :
    Except PyErr (List Str × Option (List Str)) := do
  let m ← meshFile names ends coord cells conns
  if checkIncon incon ics then do
    let i ← meshIncon ics
    .ok (m, some i)
  else .ok (m, none)

end Verif.Model
