import Verif.Model.MeshBlocks

/-!
# Whole input files

Writer: `/repo/toughio/_io/input/tough/_write.py`, lines 17-150.
Reader: `/repo/toughio/_io/input/tough/_read.py`, lines 11-128.

A file is the list of its lines, each with its newline (the last line of a
complete file has none). `check_parameters` is not part of this model: the
parameters are assumed to have passed it.
-/

namespace Verif.Model
open Verif.Py

/-! ## Writing -/

/-- `parameters["title"]`: a text or a list of texts. -/
inductive Title
  | one (s : Str)
  | many (l : List Str)
  deriving DecidableEq

/-- `[title] if isinstance(title, str) else title` (`_write.py`, 42-44). -/
def Title.lines : Title → List Str
  | .one s => [s]
  | .many l => l

/-- A rock as given by the user: `none` is an absent key. -/
abbrev RawRock := RockOf (Option Val) (Option SoL)

/-- The parameters given to `write` after the update of the default dictionary
`Parameters` (`_common.py`, 1-33; `_write.py`, 39-40). Empty or missing
dictionaries are `none` or `[]`. Simplifications: `None` for a flag is `False`,
and `diffusion` is a list of lists. -/
structure Params where
  title : Title
  eos : Str
  nComponent : Option ℤ
  nPhase : Option ℤ
  nComponentMass : Option ℤ
  flac : Option Flac
  isothermal : Bool
  start : Bool
  nover : Bool
  rocks : List (Val × RawRock)
  rocksOrder : Option (List Val)
  options : Options
  extraOptions : List (ℤ × Val)
  moreOptions : List (ℤ × Val)
  selections : Option (Option (List (ℤ × Val)) × Floats)
  solver : Option (SolverOf (Option Val))
  generators : List (Val × Gen)
  diffusion : Option (List (List Val))
  times : Option SoL
  elementHistory : Option (List Val)
  connectionHistory : Option (List Val)
  generatorHistory : Option (List Val)
  output : Option (Str × List (Str × Args))
  elements : List (Val × Elem)
  elementsOrder : Option (List Val)
  coordinates : Bool
  connections : List (Val × Conn)
  connectionsOrder : Option (List Val)
  initialConditions : List (Val × Incon)
  initialConditionsOrder : Option (List Val)
  dflt : RawRock
  deriving DecidableEq

/-- `params["rocks"][rock][k] = v` for the keys that are absent (`_write.py`,
46-60), `v` being the value of `params["default"]`, completed by the default of
`_common.py`, 125-143. The relative permeability, the capillarity and the initial
condition are not merged. -/
def mergeRock (d r : RawRock) : Rock where
  density := (r.density.or d.density).getD .none
  porosity := (r.porosity.or d.porosity).getD .none
  permeability := (r.permeability.or d.permeability).getD (.one .none)
  conductivity := (r.conductivity.or d.conductivity).getD .none
  specificHeat := (r.specificHeat.or d.specificHeat).getD .none
  compressibility := (r.compressibility.or d.compressibility).getD .none
  expansivity := (r.expansivity.or d.expansivity).getD .none
  conductivityDry := (r.conductivityDry.or d.conductivityDry).getD .none
  tortuosity := (r.tortuosity.or d.tortuosity).getD .none
  klinkenberg := (r.klinkenberg.or d.klinkenberg).getD .none
  dist3 := (r.dist3.or d.dist3).getD .none
  dist4 := (r.dist4.or d.dist4).getD .none
  relPerm := r.relPerm
  cap := r.cap
  permModel := r.permModel.or d.permModel
  eqPore := r.eqPore.or d.eqPore
  initCond := r.initCond

/-- The models of a rock in the FLAC block, with the defaults of `_common.py`,
141-142. -/
def flacModels (r : Rock) : Mod × Mod :=
  (r.permModel.getD ⟨.int 1, []⟩, r.eqPore.getD ⟨.int 3, []⟩)

/-- The rocks after the merge. -/
def Params.merged (p : Params) : List (Val × Rock) :=
  p.rocks.map fun e => (e.1, mergeRock p.dflt e.2)

/-- `parameters["default"]["initial_condition"]` (`_common.py`, 138). -/
def Params.initCond (p : Params) : List Val := p.dflt.initCond.getD (List.replicate 6 .none)

/-- `model["id"] is not None`. -/
def hasId (m : Option Mod) : Bool := m.any (·.id ≠ .none)

/-- `rpcap` (`_write.py`, 80-88). -/
def Params.hasRpcap (p : Params) : Bool := hasId p.dflt.relPerm || hasId p.dflt.cap

/-- `any(x is not None for x in rock["initial_condition"][:4])` (`_write.py`,
92-93). -/
def rockHasInit (r : RawRock) : Bool := r.initCond.any fun d => (d.take 4).any (· ≠ .none)

/-- `indom` (`_write.py`, 90-95). -/
def Params.hasIndom (p : Params) : Bool := p.rocks.any fun e => rockHasInit e.2

/-- The truth value of an optional integer. -/
def isSet (x : Option ℤ) : Bool := x.getD 0 ≠ 0

/-- `multi` (`_write.py`, 97). -/
def Params.hasMulti (p : Params) : Bool := p.eos ≠ [] || (isSet p.nComponent && isSet p.nPhase)

/-- `if parameters["diffusion"]` (`_write.py`, 352). -/
def Params.hasDiffusion (p : Params) : Bool := p.diffusion.any (· ≠ [])

/-- What `_write_multi` looks at. -/
def Params.multi (p : Params) : Multi :=
  ⟨p.eos, p.nComponent, p.nPhase, p.nComponentMass, p.isothermal, p.hasDiffusion⟩

/-- `... if cond else []`. -/
def onlyIf (c : Bool) (w : Except PyErr (List Str)) : Except PyErr (List Str) :=
  if c then w else .ok []

/-- `w(x) if x is not None else []`. -/
def ifSome {α : Type} (x : Option α) (w : α → Except PyErr (List Str)) : Except PyErr (List Str) :=
  match x with
  | some a => w a
  | none => .ok []

/-- `"{:80}\n".format(title)` (`_write.py`, 106). -/
def titleLine (t : Str) : Str := padRight 80 t ++ ['\n']

/-- `_write_endcy` (`_write.py`, 979-982): the only header without newline. -/
def endLine : Str := padRight 5 "ENDCY".toList ++ header

/-- The blocks of a file in the order of `_write.py`, 104-148: keyword, the
`block` arguments that select it, and what it adds to the file. -/
def fileParts (p : Params) : List (String × List String × Except PyErr (List Str)) :=
  [("", ["all"], .ok (p.title.lines.map titleLine)),
    ("ROCKS", ["all"], writeRocks p.rocksOrder p.merged),
    ("RPCAP", ["all"], onlyIf p.hasRpcap (writeRpcap p.dflt.relPerm p.dflt.cap)),
    ("FLAC", ["all"], ifSome p.flac fun f =>
      writeFlac f p.rocksOrder (p.merged.map fun e => (e.1, flacModels e.2))),
    ("MULTI", ["all"], onlyIf p.hasMulti (writeMultiBlock p.multi)),
    ("SOLVR", ["all"], ifSome p.solver writeSolvr),
    ("START", ["all"], onlyIf p.start writeStart),
    ("PARAM", ["all"], writeParam p.options p.extraOptions p.initCond),
    ("SELEC", ["all"], ifSome p.selections fun s => writeSelec s.1 s.2),
    ("INDOM", ["all"], onlyIf p.hasIndom
      (writeIndom p.rocksOrder (p.merged.map fun e => (e.1, e.2.initCond)))),
    ("MOMOP", ["all"], onlyIf (p.moreOptions ≠ []) (writeMomop p.moreOptions)),
    ("TIMES", ["all"], ifSome p.times writeTimes),
    ("FOFT", ["all"], ifSome p.elementHistory writeFoft),
    ("COFT", ["all"], ifSome p.connectionHistory writeCoft),
    ("GOFT", ["all"], ifSome p.generatorHistory writeGoft),
    ("GENER", ["all", "gener"], onlyIf (p.generators ≠ []) (writeGener p.generators)),
    ("DIFFU", ["all"], ifSome p.diffusion writeDiffu),
    ("OUTPU", ["all"], ifSome p.output fun o => writeOutpu o.1 o.2),
    ("ELEME", ["all", "mesh"], onlyIf (p.elements ≠ []) (writeEleme p.elementsOrder p.elements)),
    ("COORD", ["all", "mesh"], onlyIf p.coordinates (writeCoord p.elementsOrder p.elements)),
    ("CONNE", ["all", "mesh"], onlyIf (p.connections ≠ [])
      (writeConne p.connectionsOrder p.connections)),
    ("INCON", ["all", "incon"], onlyIf (p.initialConditions ≠ [])
      (writeIncon p.initialConditionsOrder p.initialConditions)),
    ("NOVER", ["all"], onlyIf p.nover (block "NOVER" false (.ok []))),
    ("ENDCY", ["all"], .ok [endLine])]

/-- The parts selected by the `block` argument. -/
def selected (blk : String) (p : Params) : List (Except PyErr (List Str)) :=
  ((fileParts p).filter fun e => e.2.1.contains blk).map (·.2.2)

/-- `write` and `write_buffer` (`_write.py`, 17-150). -/
def writeFile (p : Params) (blk : String) : Except PyErr (List Str) :=
  if blk ∉ ["all", "gener", "mesh", "incon"] then .error .valueError
  else if p.eos ≠ [] ∧ p.eos ∉ eosTable.map (·.1) then .error .valueError
  else concatM id (selected blk p)

/-! ## Reading -/

/-- The key `default` of what is read: entries that are `none` are absent. -/
structure DefaultRead where
  relPerm : Option Mod
  cap : Option Mod
  initCond : Option (List Val)
  deriving DecidableEq

/-- The dictionary `parameters` built by `read_buffer`; `none` is an absent key. -/
structure FileRead where
  title : Option Title
  rocks : Option (List (Val × Rock) × List Val)
  dflt : Option DefaultRead
  flac : Option Flac
  multi : Option MultiRead
  solver : Option (SolverOf Val)
  start : Option Bool
  options : Option (Options × List (ℤ × Val))
  selections : Option SelecRead
  moreOptions : Option (List (ℤ × Val))
  times : Option SoL
  elementHistory : Option (List Str)
  connectionHistory : Option (List Str)
  generatorHistory : Option (List Str)
  generators : Option (List (Val × GenOut))
  diffusion : Option (List (List Val))
  output : Option OutpuRead
  elements : Option (Table Elem)
  coordinates : Option Bool
  connections : Option (Table Conn)
  initialConditions : Option (Table Incon)
  nover : Option Bool
  deriving DecidableEq

/-- `parameters = {}`. -/
def FileRead.empty : FileRead :=
  ⟨none, none, none, none, none, none, none, none, none, none, none, none, none, none, none, none,
    none, none, none, none, none, none⟩

/-- `d[k] = f(d[k], u)` for each update, `KeyError` for an unknown key. -/
def updateRows {β υ : Type} (f : β → υ → β) (d : List (Val × β)) :
    List (Val × υ) → Except PyErr (List (Val × β))
  | [] => .ok d
  | (k, u) :: us => do
    let b ← dictGet d k
    updateRows f (dictSet d k (f b u)) us

/-- `title[0] if len(title) == 1 else title` (`_read.py`, 54). -/
def titleOf : List Str → Title
  | [t] => .one t
  | l => .many l

/-- `while True` of the title (`_read.py`, 48-53): the lines up to the first one
that starts with `ROCKS`. At the end of the file `readline` returns an empty text
for ever. -/
def titleLoop : List Str → Except PyErr (List Str)
  | [] => .error .diverges
  | l :: ls =>
    if startsWith (strip l) "ROCKS".toList then .ok []
    else do
      let t ← titleLoop ls
      .ok (strip l :: t)

/-- The title (`_read.py`, 44-54). -/
def readTitle (ls : List Str) : Except PyErr (Option Title) :=
  let first := strip (ls.headD [])
  if first.take 5 ∈ ["ROCKS".toList, "ELEME".toList, "INCON".toList, "GENER".toList] then .ok none
  else do
    let t ← titleLoop ls.tail
    .ok (some (titleOf (first :: t)))

/-- `parameters[key]` for a key that may be absent. -/
def getKey {α : Type} (x : Option α) : Except PyErr α :=
  match x with
  | some a => .ok a
  | none => .error .keyError

/-- `_read_rpcap` and the update of `default` (`_read.py`, 65-70). -/
def caseRpcap (s : FileRead) (ls : List Str) : Except PyErr (FileRead × List Str) := do
  let ((a, b), ls) ← readRpcap ls
  let d := s.dflt.getD ⟨none, none, none⟩
  .ok ({ s with dflt := some { d with relPerm := a.or d.relPerm, cap := b.or d.cap } }, ls)

/-- `rocks[k].update(v)` for the FLAC models. -/
def addFlac (r : Rock) (m : Mod × Mod) : Rock := { r with permModel := some m.1, eqPore := some m.2 }

/-- FLAC (`_read.py`, 71-75). -/
def caseFlac (s : FileRead) (ls : List Str) : Except PyErr (FileRead × List Str) := do
  let (rocks, order) ← getKey s.rocks
  let ((f, m), ls) ← readFlac order ls
  let rocks ← updateRows addFlac rocks m
  .ok ({ s with flac := some f, rocks := some (rocks, order) }, ls)

/-- PARAM (`_read.py`, 82-89). -/
def caseParam (s : FileRead) (ls : List Str) : Except PyErr (FileRead × List Str) := do
  let (r, ls) ← readParam ls
  let d := s.dflt.getD ⟨none, none, none⟩
  .ok ({ s with
    options := some (r.options, r.extra)
    dflt := some { d with initCond := r.initCond.or d.initCond } }, ls)

/-- `rocks[k].update(v)` for the initial condition. -/
def addInit (r : Rock) (ic : List Val) : Rock := { r with initCond := some ic }

/-- The update of the rocks by INDOM (`_read.py`, 94-95); nothing is looked up if
there is nothing to update. -/
def indomUpdate (rocks : Option (List (Val × Rock) × List Val)) (d : List (Val × List Val)) :
    Except PyErr (Option (List (Val × Rock) × List Val)) :=
  match d with
  | [] => .ok rocks
  | d => do
    let (rs, order) ← getKey rocks
    let rs ← updateRows addInit rs d
    .ok (some (rs, order))

/-- INDOM (`_read.py`, 92-95). -/
def caseIndom (s : FileRead) (ls : List Str) : Except PyErr (FileRead × List Str) := do
  let (d, ls) ← readIndom ls
  let rocks ← indomUpdate s.rocks d
  .ok ({ s with rocks := rocks }, ls)

/-- COORD (`_read.py`, 113-117). -/
def caseCoord (s : FileRead) (ls : List Str) : Except PyErr (FileRead × List Str) := do
  let (cs, ls) ← readCoord ls
  let (elems, order) ← getKey s.elements
  let elems ← setCenters elems (order.zip cs)
  .ok ({ s with elements := some (elems, order), coordinates := some true }, ls)

/-- A block whose result is stored under keys of its own. -/
def store {α : Type} (r : Except PyErr (α × List Str)) (f : α → FileRead) :
    Except PyErr (FileRead × List Str) :=
  r >>= fun x => .ok (f x.1, x.2)

/-- The `if`/`elif` chain on one line (`_read.py`, 62-126), except ENDCY; other
lines are skipped. -/
def dispatch (given : Option ℕ) (s : FileRead) (line : Str) (ls : List Str) :
    Except PyErr (FileRead × List Str) :=
  let is (kw : String) : Bool := startsWith line kw.toList
  if is "ROCKS" then store (readRocks ls) fun x => { s with rocks := some x }
  else if is "RPCAP" then caseRpcap s ls
  else if is "FLAC" then caseFlac s ls
  else if is "MULTI" then store (readMulti ls) fun x => { s with multi := some x }
  else if is "SOLVR" then store (readSolvr ls) fun x => { s with solver := some x }
  else if is "START" then .ok ({ s with start := some true }, ls)
  else if is "PARAM" then caseParam s ls
  else if is "SELEC" then store (readSelec ls) fun x => { s with selections := some x }
  else if is "INDOM" then caseIndom s ls
  else if is "MOMOP" then store (readMomop ls) fun x => { s with moreOptions := some x }
  else if is "TIMES" then store (readTimes ls) fun x => { s with times := some x }
  else if is "FOFT" then store (readOft ls) fun x => { s with elementHistory := some x }
  else if is "COFT" then store (readOft ls) fun x => { s with connectionHistory := some x }
  else if is "GOFT" then store (readOft ls) fun x => { s with generatorHistory := some x }
  else if is "GENER" then store (readGener given ls) fun x => { s with generators := some x }
  else if is "DIFFU" then store (readDiffu ls) fun x => { s with diffusion := some x }
  else if is "OUTPU" then store (readOutpu ls) fun x => { s with output := some x }
  else if is "ELEME" then
    store (readEleme given ls) fun x => { s with elements := some x, coordinates := some false }
  else if is "COORD" then caseCoord s ls
  else if is "CONNE" then store (readConne given ls) fun x => { s with connections := some x }
  else if is "INCON" then store (readIncon given ls) fun x => { s with initialConditions := some x }
  else if is "NOVER" then .ok ({ s with nover := some true }, ls)
  else .ok (s, ls)

/-- One turn of `for line in fiter` (`_read.py`, 61-126). -/
def fileStep (given : Option ℕ) (s : FileRead) (ls : List Str) :
    Except PyErr (Turn FileRead × List Str) :=
  match ls with
  | [] => .ok (.stop s, [])
  | line :: ls =>
    if startsWith line "ENDCY".toList then .ok (.stop s, ls)
    else dispatch given s line ls >>= fun x => .ok (.more x.1, x.2)

/-- `read_buffer` (`_read.py`, 39-128). -/
def readBuffer (given : Option ℕ) (ls : List Str) : Except PyErr FileRead := do
  let t ← readTitle ls
  let (s, _) ← whileTrue (fileStep given) { FileRead.empty with title := t } ls
  .ok s

/-- `read` (`_read.py`, 11-36); `bool` and other types of `label_length` are not
represented. -/
def readFile (given : Option ℕ) (ls : List Str) : Except PyErr FileRead :=
  if given.all fun n => decide (5 ≤ n ∧ n < 10) then readBuffer given ls else .error .valueError

end Verif.Model
