import Mathlib.Data.List.Sort
import Verif.Model.Rocks

/-!
# MULTI, SOLVR, START, PARAM, SELEC, INDOM and MOMOP blocks

Writers: `/repo/toughio/_io/input/tough/_write.py`, lines 335-586.
Readers: `/repo/toughio/_io/input/tough/_read.py`, lines 232-422.
-/

namespace Verif.Model
open Verif.Py

/-! ## MULTI -/

/-- The table `eos` (`/repo/toughio/_io/input/tough/_common.py`, 145-158). -/
def eosTable : List (Str × (ℤ × ℤ × ℤ × ℤ)) :=
  [("eos1".toList, (1, 2, 2, 6)), ("eos2".toList, (2, 3, 2, 6)), ("eos3".toList, (2, 3, 2, 6)),
    ("eos4".toList, (2, 3, 2, 6)), ("eos5".toList, (2, 3, 2, 6)), ("eos7".toList, (3, 3, 2, 6)),
    ("eos8".toList, (3, 3, 3, 6)), ("eos9".toList, (1, 1, 1, 6)),
    ("eoswasg".toList, (3, 4, 3, 6)), ("eco2n".toList, (3, 4, 3, 6)),
    ("eco2n_v2".toList, (3, 4, 3, 6)), ("eco2m".toList, (3, 4, 4, 6))]

/-- The parameters `_write_multi` looks at. `nComponent`, `nPhase` and
`nComponentMass` are integers or missing (checked by `check_parameters`);
`diffusion` says whether diffusion coefficients are given. -/
structure Multi where
  eos : Str
  nComponent : Option ℤ
  nPhase : Option ℤ
  nComponentMass : Option ℤ
  isothermal : Bool
  diffusion : Bool
  deriving DecidableEq

/-- `x if x else y` for an optional integer. -/
def orElse0 (x : Option ℤ) (y : ℤ) : ℤ :=
  match x with
  | some i => if i = 0 then y else i
  | none => y

/-- `list(eos[...]) if parameters["eos"] else [0, 0, 0, 6]` (`_write.py`, 346). -/
def eosValues (eos : Str) : Except PyErr (ℤ × ℤ × ℤ × ℤ) :=
  if eos = [] then .ok (0, 0, 0, 6) else dictGet eosTable eos

/-- The number of mass components, if given (`_write.py`, 356-357). -/
def massValues : Option ℤ → List Val
  | some i => if i = 0 then [] else [.int i]
  | none => []

/-- `_write_multi` (`_write.py`, 336-360). -/
def writeMultiBlock (m : Multi) : Except PyErr (List Str) :=
  block "MULTI" false (do
    let v ← eosValues m.eos
    let v0 := orElse0 m.nComponent v.1
    let v1 := if m.isothermal then v0 else v0 + 1
    let v2 := orElse0 m.nPhase v.2.2.1
    let v3 := if m.diffusion then 8 else v.2.2.2
    let l ← writeRecord Fmt.multi
      ([.int v0, .int v1, .int v2, .int v3] ++ massValues m.nComponentMass)
    .ok [l])

/-- What `_read_multi` returns. -/
structure MultiRead where
  nComponent : Val
  isothermal : Bool
  nPhase : Val
  deriving DecidableEq

/-- `_read_multi` (`_read.py`, 232-243). -/
def readMulti (ls : List Str) : Except PyErr (MultiRead × List Str) := do
  let (line, ls) ← next ls
  let d ← readRecord Fmt.multi line
  .ok (⟨entry d 0, decide (entry d 1 = entry d 0), entry d 2⟩, ls)

/-! ## SOLVR -/

/-- A solver dictionary; `V` is `Option Val` for the user's dictionary (`none`
being an absent key) and `Val` for the one that is read. -/
structure SolverOf (V : Type) where
  method : V
  zPrecond : V
  oPrecond : V
  relIterMax : V
  eps : V
  deriving DecidableEq

/-- `_write_solvr` (`_write.py`, 365-387) with the defaults of `_common.py`,
86-92: they have a key `id` and no key `method`. -/
def writeSolvr (s : SolverOf (Option Val)) : Except PyErr (List Str) :=
  block "SOLVR" false (do
    let m ← match s.method with
      | some v => .ok v
      | none => .error .keyError
    let l ← writeRecord Fmt.solvr
      [m, .none, s.zPrecond.getD (.str ['Z', '0']), .none, s.oPrecond.getD (.str ['O', '0']),
        s.relIterMax.getD (.flt (ofDecimal false (1 / 10))),
        s.eps.getD (.flt (ofDecimal false (1 / 1000000)))]
    .ok [l])

/-- `_read_solvr` (`_read.py`, 246-261). -/
def readSolvr (ls : List Str) : Except PyErr (SolverOf Val × List Str) := do
  let (line, ls) ← next ls
  let d ← readRecord Fmt.solvr line
  .ok (⟨entry d 0, entry d 2, entry d 4, entry d 5, entry d 6⟩, ls)

/-! ## START -/

/-- `_write_start` (`_write.py`, 391-396). -/
def writeStart : Except PyErr (List Str) :=
  block "START" false (
    let out := padRight 5 "----*".toList ++ header ++ ['\n']
    .ok [out.take 11 ++ "MOP: 123456789*123456789*1234".toList ++ out.drop 40])

/-! ## option digits -/

/-- `{k + 1: None for k in range(n)}` (`_common.py`, 82-84). -/
def noOptions (n : ℕ) : List (ℤ × Val) := (List.range n).map fun k : ℕ => ((k : ℤ) + 1, Val.none)

/-- `base.update(d)`. -/
def updateDict {κ β : Type} [DecidableEq κ] (base d : List (κ × β)) : List (κ × β) :=
  d.foldl (fun b e => dictSet b e.1 e.2) base

/-- `[m[k] for k in sorted(m.keys())]`. -/
def sortedVals (m : List (ℤ × Val)) : List Val :=
  (m.insertionSort fun a b => a.1 ≤ b.1).map (·.2)

/-- `" " if x is None else str(x)` (`_write.py`, 426 and 583). Simplification:
`str` of a float, which `check_parameters` rejects for these keys, is reported
as `TypeError`. -/
def optStr : Val → Except PyErr Str
  | .none => .ok [' ']
  | .bool b => .ok (if b then "True".toList else "False".toList)
  | .int i => .ok (intStr i)
  | .str s => .ok s
  | .flt _ => .error .typeError

/-- The option digits of a block as one string (`_write.py`, 424-434 and
580-584). -/
def optText (n : ℕ) (d : List (ℤ × Val)) : Except PyErr Str :=
  concatM optStr (sortedVals (updateDict (noOptions n) d))

/-- `{i + 1: int(x) for i, x in enumerate(s) if x.isdigit()}` (`_read.py`,
281-283 and 419). -/
def readDigits (s : Val) : Except PyErr (List (ℤ × Val)) :=
  match s with
  | .str s => .ok ((s.zipIdx.filter fun p => isDigit p.1).map
      fun p => ((p.2 : ℤ) + 1, Val.int (digitVal p.1)))
  | _ => .error .typeError

/-! ## PARAM -/

/-- The dictionary `options` (`_common.py`, 48-68); a missing option is
`Val.none`. -/
structure Options where
  nIteration : Val
  nCycle : Val
  nSecond : Val
  nCyclePrint : Val
  verbosity : Val
  tempDepGas : Val
  effStrengthVapor : Val
  tIni : Val
  tMax : Val
  tSteps : SoL
  tStepMax : Val
  tReduceFactor : Val
  gravity : Val
  meshScaleFactor : Val
  eps1 : Val
  eps2 : Val
  wUpstream : Val
  wNewton : Val
  derivativeFactor : Val
  deriving DecidableEq

/-- Options without any entry (`_common.py`, 48-68). -/
def Options.empty : Options :=
  ⟨.none, .none, .none, .none, .none, .none, .none, .none, .none, .one .none, .none, .none, .none,
    .none, .none, .none, .none, .none, .none⟩

/-- A scalar is made a list (`_write.py`, 412-413). -/
def SoL.toList : SoL → List Val
  | .one v => [v]
  | .many l => l

/-- `-((n - 1) // 8 + 1)` (`_write.py`, 449). -/
def minusLines (n : ℕ) : ℤ := -(((n : ℤ) - 1) / 8 + 1)

/-- `_write_param` (`_write.py`, 402-478); `ic` is
`parameters["default"]["initial_condition"]`. -/
def writeParam (o : Options) (mop : List (ℤ × Val)) (ic : List Val) : Except PyErr (List Str) :=
  block "PARAM" false (do
    let t := o.tSteps.toList
    let m ← optText 24 mop
    let l1 ← writeRecord Fmt.param1
      [o.nIteration, o.verbosity, o.nCycle, o.nSecond, o.nCyclePrint, .str m, .none,
        o.tempDepGas, o.effStrengthVapor]
    let l2 ← writeRecord Fmt.param2
      [o.tIni, o.tMax, .int (minusLines t.length), o.tStepMax, .none, o.gravity,
        o.tReduceFactor, o.meshScaleFactor]
    let l3 ← writeMulti Fmt.param3 t
    let l4 ← writeRecord Fmt.param4
      [o.eps1, o.eps2, .none, o.wUpstream, o.wNewton, o.derivativeFactor]
    let l5 ← writeRecord Fmt.param5 (ic.take 4)
    let l6 ← if 4 < ic.length then do
        let l ← writeRecord Fmt.param5 (ic.drop 4)
        .ok [l]
      else .ok []
    .ok (l1 :: l2 :: l3 ++ l4 :: l5 :: l6))

/-- `int(x)` of a float field (`_read.py`, 302). -/
def intOf : Val → Except PyErr ℤ
  | .flt (.fin neg m) => .ok (if neg then -(⌊m⌋₊ : ℤ) else ⌊m⌋₊)
  | .flt (.inf _) => .error .overflowError
  | .flt .nan => .error .valueError
  | .int i => .ok i
  | .bool b => .ok (if b then 1 else 0)
  | _ => .error .typeError

/-- What `_read_param` returns: options, extra options and the default initial
condition (`none` if the key is absent). -/
structure ParamRead where
  options : Options
  extra : List (ℤ × Val)
  initCond : Option (List Val)
  deriving DecidableEq

/-- The time steps (`_read.py`, 302-313). -/
def readSteps (n : ℤ) (ls : List Str) : Except PyErr (SoL × List Str) :=
  if 0 ≤ n then .ok (.one (.int n), ls)
  else do
    let (rows, ls) ← times (fun ls => do
      let (line, ls) ← next ls
      let d ← readRecord Fmt.param3 line
      .ok (pruneNones d, ls)) (rangeLen (-n)) ls
    match rows.flatten with
    | [v] => .ok (.one v, ls)
    | l => .ok (.many l, ls)

/-- Records 4 and 5 (`_read.py`, 328-337): the second one is taken back if it
does not read as numbers. -/
def readInit (ls : List Str) : Except PyErr (List Val × List Str) := do
  let (line, ls) ← next ls
  let d ← readRecord Fmt.param5 line
  let (line, ls') ← next ls
  match readRecord Fmt.param5 line with
  | .ok d' => .ok (d ++ d', ls')
  | .error .valueError => .ok (d, ls)
  | .error e => .error e

/-- `_read_param` (`_read.py`, 264-346). `prune_nones_dict` on the options is
implicit: a missing option is `Val.none`. -/
def readParam (ls : List Str) : Except PyErr (ParamRead × List Str) := do
  let (line, ls) ← next ls
  let d1 ← readRecord Fmt.param1 line
  let extra ← readDigits (entry d1 5)
  let (line, ls) ← next ls
  let d2 ← readRecord Fmt.param2 line
  let n ← intOf (entry d2 2)
  let (steps, ls) ← readSteps n ls
  let (line, ls) ← next ls
  let d4 ← readRecord Fmt.param4 line
  let (d5, ls) ← readInit ls
  .ok ({
    options := {
      nIteration := entry d1 0
      verbosity := entry d1 1
      nCycle := entry d1 2
      nSecond := entry d1 3
      nCyclePrint := entry d1 4
      tempDepGas := entry d1 7
      effStrengthVapor := entry d1 8
      tIni := entry d2 0
      tMax := entry d2 1
      tSteps := steps
      tStepMax := entry d2 3
      gravity := entry d2 5
      tReduceFactor := entry d2 6
      meshScaleFactor := entry d2 7
      eps1 := entry d4 0
      eps2 := entry d4 1
      wUpstream := entry d4 3
      wNewton := entry d4 4
      derivativeFactor := entry d4 5 }
    extra := pruneDict extra
    initCond := if d5.any (· ≠ .none) then some (pruneNones d5) else none }, ls)

/-! ## SELEC -/

/-- The `floats` of a selection: absent key, `None`, one row or several rows.
Simplification: lists mixing numbers and lists are not represented. -/
inductive Floats
  | absent
  | none
  | row (l : List Val)
  | rows (l : List (List Val))
  deriving DecidableEq

/-- The rows that are written (`_write.py`, 490-512): an absent key, `len(None)`
and a row of more than eight values raise. -/
def selecRows : Floats → Except PyErr (List (List Val))
  | .absent => .error .keyError
  | .none => .error .typeError
  | .row [] => .ok []
  | .row l => if l.length ≤ 8 then .ok [l] else .error .valueError
  | .rows l => if l.all (·.length ≤ 8) then .ok l else .error .valueError

/-- `_write_selec` (`_write.py`, 483-529); `integers = none` is an absent key. -/
def writeSelec (integers : Option (List (ℤ × Val))) (floats : Floats) :
    Except PyErr (List Str) :=
  block "SELEC" false (do
    let ints ← match integers with
      | some d => .ok (updateDict (noOptions 16) d)
      | none => .error .keyError
    let rows ← selecRows floats
    let ints := if rows = [] then ints else dictSet ints 1 (.int rows.length)
    let l1 ← writeRecord Fmt.selec1 (sortedVals ints)
    let l2 ← rows.mapM (writeRecord Fmt.selec2)
    .ok (l1 :: l2))

/-- What `_read_selec` returns: integers by index, and the floats (`none` if the
key is absent). -/
structure SelecRead where
  integers : List (ℤ × Val)
  floats : Option Floats
  deriving DecidableEq

/-- One row of floats (`_read.py`, 361-363). -/
def readSelecRow (ls : List Str) : Except PyErr (List Val × List Str) := do
  let (line, ls) ← next ls
  let d ← readRecord Fmt.selec2 line
  .ok (pruneNones d, ls)

/-- `_read_selec` (`_read.py`, 349-369). -/
def readSelec (ls : List Str) : Except PyErr (SelecRead × List Str) := do
  let (line, ls) ← next ls
  let d ← readRecord Fmt.selec1 line
  let ints : List (ℤ × Val) := d.zipIdx.map fun p => ((p.2 : ℤ) + 1, p.1)
  let n := match entry d 0 with
    | .int i => i
    | _ => 0
  let (rows, ls) ← times readSelecRow (rangeLen n) ls
  if entry d 0 = .none then .error .keyError
  else if n = 1 then
    match rows with
    | r :: _ => .ok (⟨pruneDict ints, some (.row r)⟩, ls)
    | [] => .error .indexError
  else if n = 0 then .ok (⟨pruneDict ints, none⟩, ls)
  else .ok (⟨pruneDict ints, some (.rows rows)⟩, ls)

/-! ## INDOM -/

/-- The lines of one rock (`_write.py`, 549-565); nothing for a rock without
initial condition or with missing values only. -/
def writeIndomRock (k : Val) (ic : Option (List Val)) : Except PyErr (List Str) :=
  match ic with
  | none => .ok []
  | some d =>
    if d.any (· ≠ .none) then do
      let a ← writeRecord Fmt.indom5 [k]
      let b ← writeRecord Fmt.indom0 (d.take 4)
      let c ← if 4 < d.length then do
          let l ← writeRecord Fmt.indom0 (d.drop 4)
          .ok [l]
        else .ok []
      .ok (a :: b :: c)
    else .ok []

/-- `_write_indom` (`_write.py`, 533-567). -/
def writeIndom (order : Option (List Val)) (rocks : List (Val × Option (List Val))) :
    Except PyErr (List Str) :=
  block "INDOM" true (concatM (fun k => do
    let ic ← dictGet rocks k
    writeIndomRock k ic) (rockOrder order rocks))

/-- Record 3 of `_read_indom` and `_read_incon` (`_read.py`, 388-400 and
711-723): the values it adds, the new value of the flag `two_lines` and the
lines left. `stop` says whether a line ends the block. -/
def readThird (fmt : List Tok) (stop : Str → Bool) (two : Bool) (ls : List Str) :
    Except PyErr (List Val × Bool × List Str) :=
  if two then do
    let (line, ls') ← next ls
    if stop line then .ok ([], two, ls)
    else match readRecord fmt line with
      | .ok d => .ok (d, two, ls')
      | .error .valueError => .ok ([], false, ls)
      | .error e => .error e
  else .ok ([], two, ls)

/-- State of `_read_indom`: values by rock, flag `two_lines`. -/
abbrev IndomState := List (Val × List Val) × Bool

/-- One turn of `_read_indom` (`_read.py`, 379-407). -/
def indomStep (s : IndomState) (ls : List Str) : Except PyErr (Turn IndomState × List Str) := do
  let (line, ls) ← next ls
  if isBlank line then .ok (.stop s, ls)
  else
    let d ← readRecord Fmt.indom5 line
    let rock := entry d 0
    let (line, ls) ← next ls
    let d ← readRecord Fmt.indom0 line
    let (d', two, ls) ← readThird Fmt.indom0 isBlank s.2 ls
    .ok (.more (dictSet s.1 rock (pruneNones (d ++ d')), two), ls)

/-- `_read_indom` (`_read.py`, 372-409). -/
def readIndom (ls : List Str) : Except PyErr (List (Val × List Val) × List Str) := do
  let (s, ls) ← whileTrue indomStep ([], true) ls
  .ok (s.1, ls)

/-! ## MOMOP -/

/-- `_write_momop` (`_write.py`, 572-586). -/
def writeMomop (d : List (ℤ × Val)) : Except PyErr (List Str) :=
  block "MOMOP" false (do
    let m ← optText 40 d
    let l ← writeRecord Fmt.momop [.str m]
    .ok [l])

/-- `_read_momop` (`_read.py`, 412-422). -/
def readMomop (ls : List Str) : Except PyErr (List (ℤ × Val) × List Str) := do
  let (line, ls) ← next ls
  let d ← readRecord Fmt.momop line
  let m ← readDigits (entry d 0)
  .ok (m, ls)

end Verif.Model
