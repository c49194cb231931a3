import Verif.Model.Gener

/-!
# ELEME, COORD, CONNE and INCON blocks

Writers: `/repo/toughio/_io/input/tough/_write.py`, lines 825-970.
Readers: `/repo/toughio/_io/input/tough/_read.py`, lines 598-737.
-/

namespace Verif.Model
open Verif.Py

/-- `order = parameters["..._order"]` if given, otherwise the keys of the
dictionary (`_write.py`, 832-835, 874-877, 897-900 and 936-939). -/
def rowOrder {β : Type} (order : Option (List Val)) (d : List (Val × β)) : List Val :=
  match order with
  | some o => o
  | none => d.map (·.1)

/-- `l[i]` for `i ≥ 0`. -/
def index (l : List Val) (i : ℕ) : Except PyErr Val :=
  match l[i]? with
  | some v => .ok v
  | none => .error .indexError

/-- `line.startswith("+++")`. -/
def startsPlus (line : Str) : Bool := startsWith line ['+', '+', '+']

/-- `not (line.strip() and not line.startswith("+++"))`. -/
def stopsRows (line : Str) : Bool := isBlank line || startsPlus line

/-! ## ELEME -/

/-- The key `center` of an element: absent, `None` or a list. -/
inductive Center
  | absent
  | null
  | list (l : List Val)
  deriving DecidableEq

/-- The dictionary of one element after merging the defaults (`_common.py`,
99-107); `Val.none` is `None` or, in what the reader returns, an absent key. -/
structure Elem where
  nseq : Val
  nadd : Val
  material : Val
  volume : Val
  area : Val
  permMod : Val
  center : Center
  deriving DecidableEq

/-- `data["center"][i]`; the default centre is `None`. -/
def Center.at (c : Center) (i : ℕ) : Except PyErr Val :=
  match c with
  | .list l => index l i
  | _ => .error .typeError

/-- `"{:>5}".format(material)` for an integer (a boolean is one), the material
itself otherwise (`_write.py`, 847-851). -/
def materialText : Val → Val
  | .int i => .str (padLeft 5 (intStr i))
  | .bool b => .str (padLeft 5 (intStr (if b then 1 else 0)))
  | v => v

/-- The record of one element (`_write.py`, 844-864). -/
def writeElem (fmt : List Tok) (k : Val) (e : Elem) : Except PyErr (List Str) := do
  let x ← e.center.at 0
  let y ← e.center.at 1
  let z ← e.center.at 2
  let l ← writeRecord fmt
    [k, e.nseq, e.nadd, materialText e.material, e.volume, e.area, e.permMod, x, y, z]
  .ok [l]

/-- `_write_eleme` (`_write.py`, 825-866). -/
def writeEleme (order : Option (List Val)) (elems : List (Val × Elem)) :
    Except PyErr (List Str) :=
  block "ELEME" true (do
    let n ← maxLen (elems.map (·.1))
    let fmt ← formatFor Fmt.eleme n
    concatM (fun k => do
      let e ← dictGet elems k
      writeElem fmt k e) (rowOrder order elems))

/-- The material that is read (`_read.py`, 611-615): the missing value has no
`strip`, digits become an integer. -/
def readMaterial : Val → Except PyErr Val
  | .str s =>
    let rock := strip s
    if rock.all isDigit then
      match pyInt rock with
      | some i => .ok (.int i)
      | none => .error .valueError
    else .ok (.str rock)
  | _ => .error .attributeError

/-- Dictionary and order list of a block of rows. -/
abbrev Table (β : Type) := List (Val × β) × List Val

/-- `d[label] = row; order.append(label)`. -/
def addRow {β : Type} (s : Table β) (k : Val) (v : β) : Table β := (dictSet s.1 k v, s.2 ++ [k])

/-- The element of one record (`_read.py`, 609-621). -/
def elemOf (d : List Val) : Except PyErr Elem := do
  let m ← readMaterial (entry d 3)
  .ok ⟨entry d 1, entry d 2, m, entry d 4, entry d 5, entry d 6, .list ((d.drop 7).take 3)⟩

/-- One turn of the loop of `_read_eleme` (`_read.py`, 607-626). -/
def elemeStep (fmt : Except PyErr (List Tok)) (s : Table Elem) (ls : List Str) :
    Except PyErr (Turn (Table Elem) × List Str) := do
  let (line, ls) ← next ls
  if isBlank line then .ok (.stop s, ls)
  else
    let f ← fmt
    let d ← readRecord f line
    let e ← elemOf d
    .ok (.more (addRow s (entry d 0) e), ls)

/-- `_read_eleme` (`_read.py`, 598-630). The first line is looked at before the
loop, which then starts with it. -/
def readEleme (given : Option ℕ) (ls : List Str) : Except PyErr (Table Elem × List Str) := do
  let (line, _) ← next ls
  whileTrue (elemeStep (formatFor Fmt.eleme (labelLength given line))) ([], []) ls

/-! ## COORD -/

/-- The record of one centre (`_write.py`, 883-885). -/
def writeCenter (c : Center) : Except PyErr (List Str) :=
  match c with
  | .absent => .error .keyError
  | .null => .error .typeError
  | .list l => do
    let r ← writeRecord Fmt.coord l
    .ok [r]

/-- `_write_coord` (`_write.py`, 869-887). -/
def writeCoord (order : Option (List Val)) (elems : List (Val × Elem)) :
    Except PyErr (List Str) :=
  block "COORD" true
    (concatM (fun k => do
      let e ← dictGet elems k
      writeCenter e.center) (rowOrder order elems))

/-- One turn of the loop of `_read_coord` (`_read.py`, 639-646). -/
def coordStep (s : List (List Val)) (ls : List Str) :
    Except PyErr (Turn (List (List Val)) × List Str) := do
  let (line, ls) ← next ls
  if isBlank line then .ok (.stop s, ls)
  else
    let d ← readRecord Fmt.coord line
    .ok (.more (s ++ [d]), ls)

/-- `_read_coord` (`_read.py`, 633-648). -/
def readCoord (ls : List Str) : Except PyErr (List (List Val) × List Str) :=
  whileTrue coordStep [] ls

/-- `for k, v in zip(parameters["elements_order"], coord):
parameters["elements"][k]["center"] = v` (`_read.py`, 113-114). -/
def setCenters (elems : List (Val × Elem)) : List (Val × List Val) →
    Except PyErr (List (Val × Elem))
  | [] => .ok elems
  | (k, c) :: r => do
    let e ← dictGet elems k
    setCenters (dictSet elems k { e with center := .list c }) r

/-! ## CONNE -/

/-- The dictionary of one connection after merging the defaults (`_common.py`,
109-117). For the lists `none` is `None`. -/
structure Conn where
  nseq : Val
  nadd : Option (List Val)
  direction : Val
  distances : Option (List Val)
  area : Val
  angle : Val
  emittance : Val
  deriving DecidableEq

/-- `data["nadd"][i] if data["nadd"] is not None else None` (`_write.py`,
915-916). -/
def naddAt (l : Option (List Val)) (i : ℕ) : Except PyErr Val :=
  match l with
  | some l => index l i
  | none => .ok .none

/-- `data["nodal_distances"][i]` (`_write.py`, 918-919). -/
def distAt (l : Option (List Val)) (i : ℕ) : Except PyErr Val :=
  match l with
  | some l => index l i
  | none => .error .typeError

/-- The record of one connection (`_write.py`, 908-924). -/
def writeConn (fmt : List Tok) (k : Val) (c : Conn) : Except PyErr (List Str) := do
  let n1 ← naddAt c.nadd 0
  let n2 ← naddAt c.nadd 1
  let d1 ← distAt c.distances 0
  let d2 ← distAt c.distances 1
  let l ← writeRecord fmt [k, c.nseq, n1, n2, c.direction, d1, d2, c.area, c.angle, c.emittance]
  .ok [l]

/-- `_write_conne` (`_write.py`, 890-926). -/
def writeConne (order : Option (List Val)) (conns : List (Val × Conn)) :
    Except PyErr (List Str) :=
  block "CONNE" true (do
    let n ← maxLen (conns.map (·.1))
    let fmt ← formatFor Fmt.conne (n / 2)
    concatM (fun k => do
      let c ← dictGet conns k
      writeConn fmt k c) (rowOrder order conns))

/-- The connection of one record (`_read.py`, 663-672). -/
def connOf (d : List Val) : Conn :=
  ⟨entry d 1, some ((d.drop 2).take 2), entry d 4, some ((d.drop 5).take 2), entry d 7, entry d 8,
    entry d 9⟩

/-- One turn of the loop of `_read_conne` (`_read.py`, 660-678). -/
def conneStep (fmt : Except PyErr (List Tok)) (s : Table Conn) (ls : List Str) :
    Except PyErr (Turn (Table Conn) × List Str) := do
  let (line, ls) ← next ls
  if stopsRows line then .ok (.stop s, ls)
  else
    let f ← fmt
    let d ← readRecord f line
    .ok (.more (addRow s (entry d 0) (connOf d)), ls)

/-- `_read_conne` (`_read.py`, 651-684). -/
def readConne (given : Option ℕ) (ls : List Str) : Except PyErr (Table Conn × List Str) := do
  let (line, _) ← next ls
  whileTrue (conneStep (formatFor Fmt.conne (labelLength given line))) ([], []) ls

/-! ## INCON -/

/-- The dictionary of one initial condition. Written: after merging the defaults
(`_common.py`, 119-123: `userx` five and `values` four times `None`), `none` is
an explicit `None`. Read: `none` is an absent key. -/
structure Incon where
  porosity : Val
  userx : Option (List Val)
  values : Option (List Val)
  deriving DecidableEq

/-- `list(x)`, `len(x)`, `x[:n]` of `None` are `TypeError`s. -/
def listOf (l : Option (List Val)) : Except PyErr (List Val) :=
  match l with
  | some l => .ok l
  | none => .error .typeError

/-- Record 3 (`_write.py`, 966-968). -/
def writeThird (vs : List Val) : Except PyErr (List Str) :=
  if 4 < vs.length then do
    let l ← writeRecord Fmt.incon0 (vs.drop 4)
    .ok [l]
  else .ok []

/-- The records of one initial condition (`_write.py`, 948-968). -/
def writeInconRow (fmt : List Tok) (k : Val) (c : Incon) : Except PyErr (List Str) := do
  let u ← listOf c.userx
  let l1 ← writeRecord fmt ([k, .none, .none, c.porosity] ++ u)
  let vs ← listOf c.values
  let l2 ← writeRecord Fmt.incon0 (vs.take (min 4 vs.length))
  let l3 ← writeThird vs
  .ok (l1 :: l2 :: l3)

/-- `_write_incon` (`_write.py`, 929-970). -/
def writeIncon (order : Option (List Val)) (ics : List (Val × Incon)) :
    Except PyErr (List Str) :=
  block "INCON" true (do
    let n ← maxLen (ics.map (·.1))
    let fmt ← formatFor Fmt.incon n
    concatM (fun k => do
      let c ← dictGet ics k
      writeInconRow fmt k c) (rowOrder order ics))

/-- `userx if userx else None` (`_read.py`, 702-705). -/
def userxOf (d : List Val) : Option (List Val) :=
  let u := pruneNones ((d.drop 4).take 5)
  if u.isEmpty then none else some u

/-- State of `_read_incon`: table and flag `two_lines`. -/
abbrev InconState := Table Incon × Bool

/-- One turn of the loop of `_read_incon` (`_read.py`, 697-731). -/
def inconStep (fmt : Except PyErr (List Tok)) (s : InconState) (ls : List Str) :
    Except PyErr (Turn InconState × List Str) := do
  let (line, ls) ← next ls
  if stopsRows line then .ok (.stop s, ls)
  else
    let f ← fmt
    let d1 ← readRecord f line
    let (line, ls) ← next ls
    let d2 ← readRecord Fmt.incon0 line
    let (d3, two, ls) ← readThird Fmt.incon0 stopsRows s.2 ls
    .ok (.more (addRow s.1 (entry d1 0)
      ⟨entry d1 3, userxOf d1, some (pruneNones (d2 ++ d3))⟩, two), ls)

/-- `_read_incon` (`_read.py`, 687-737). -/
def readIncon (given : Option ℕ) (ls : List Str) : Except PyErr (Table Incon × List Str) := do
  let (line, _) ← next ls
  let (s, ls) ← whileTrue (inconStep (formatFor Fmt.incon (labelLength given line)))
    (([], []), true) ls
  .ok (s.1, ls)

end Verif.Model
