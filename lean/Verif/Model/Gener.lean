import Verif.Model.Hist
import Verif.Model.Labels

/-!
# GENER block

Writer: `/repo/toughio/_io/input/tough/_write.py`, lines 648-759.
Reader: `/repo/toughio/_io/input/tough/_read.py`, lines 462-528.
-/

namespace Verif.Model
open Verif.Py

/-! ## Label lengths -/

/-- `len(key)`. -/
def keyLen : Val → Except PyErr ℕ
  | .str s => .ok s.length
  | _ => .error .typeError

/-- `len(max(keys, key=len))`; `max` of nothing is a `ValueError`. -/
def maxLen (keys : List Val) : Except PyErr ℕ := do
  match ← keys.mapM keyLen with
  | [] => .error .valueError
  | l => .ok (l.foldl max 0)

/-- `block_to_format[...][n]`: a `KeyError` for lengths outside the table. -/
def formatFor (table : ℕ → Option (List Tok)) (n : ℕ) : Except PyErr (List Tok) :=
  match table n with
  | some f => .ok f
  | none => .error .keyError

/-- `if not label_length: label_length = get_label_length(line[:9])`
(`_read.py`, 468-469, 604-605, 657-658 and 693-694). -/
def labelLength (given : Option ℕ) (line : Str) : ℕ :=
  match given with
  | some (n + 1) => n + 1
  | _ => getLabelLength (line.take 9)

/-! ## Writing -/

/-- The dictionary of one source after merging the defaults (`_common.py`, 81-91):
`SoL.one Val.none` is `None`. Simplification: only scalars where the record has
one column, and no tables of two or more dimensions. -/
structure Comp where
  name : Val
  nseq : Val
  nadd : Val
  nads : Val
  type : Val
  times : SoL
  rates : SoL
  enthalpy : SoL
  thickness : Val
  deriving DecidableEq

/-- A field of a generator with several components: `None`, a list, or something
that is not a list. -/
inductive Fld (α : Type)
  | none
  | scalar
  | list (l : List α)
  deriving DecidableEq

/-- The check of one field (`_write.py`, 669-673). -/
def Fld.check {α : Type} (n : ℕ) : Fld α → Except PyErr Unit
  | .none => .ok ()
  | .scalar => .error .typeError
  | .list l => if l.length ≠ n then .error .valueError else .ok ()

/-- `data[key][i] if data[key] is not None else None` (`_write.py`, 681). -/
def Fld.comp {α : Type} (f : Fld α) (none : α) (i : ℕ) : α :=
  match f with
  | .list l => l.getD i none
  | _ => none

/-- A generator dictionary with a list of types. -/
structure MultiGen where
  name : Fld Val
  nseq : Fld Val
  nadd : Fld Val
  nads : Fld Val
  types : List Val
  times : Fld SoL
  rates : Fld SoL
  enthalpy : Fld SoL
  thickness : Fld Val
  deriving DecidableEq

/-- The generators of one element: the type is a text, a list, or missing. -/
inductive Gen
  | single (c : Comp)
  | multi (m : MultiGen)
  | noType
  deriving DecidableEq

/-- Component `i` (`_write.py`, 677-685). -/
def MultiGen.comp (m : MultiGen) (i : ℕ) : Comp where
  name := m.name.comp .none i
  nseq := m.nseq.comp .none i
  nadd := m.nadd.comp .none i
  nads := m.nads.comp .none i
  type := m.types.getD i .none
  times := m.times.comp (.one .none) i
  rates := m.rates.comp (.one .none) i
  enthalpy := m.enthalpy.comp (.one .none) i
  thickness := m.thickness.comp .none i

/-- The components of the generators of one element (`_write.py`, 657-692);
`len(None)` is a `TypeError`. -/
def genComps : Gen → Except PyErr (List Comp)
  | .single c => .ok [c]
  | .noType => .error .typeError
  | .multi m => do
    let n := m.types.length
    m.name.check n
    m.nseq.check n
    m.nadd.check n
    m.nads.check n
    m.times.check n
    m.rates.check n
    m.enthalpy.check n
    m.thickness.check n
    .ok ((List.range n).map m.comp)

/-- The check of a rate or enthalpy against a table of `n` times
(`_write.py`, 708-713). -/
def tableCheck (n : ℕ) : SoL → Except PyErr Unit
  | .one .none => .ok ()
  | .one _ => .error .typeError
  | .many l => if 1 < n ∧ n = l.length then .ok () else .error .valueError

/-- The check of a rate or enthalpy without a table of times
(`_write.py`, 714-719). -/
def scalarCheck : SoL → Except PyErr Unit
  | .one _ => .ok ()
  | .many _ => .error .valueError

/-- `ltab` and the checks (`_write.py`, 702-719). -/
def ltabOf (c : Comp) : Except PyErr (Option ℕ) :=
  match c.times with
  | .many t => do
    tableCheck t.length c.rates
    tableCheck t.length c.enthalpy
    .ok (some t.length)
  | .one _ => do
    scalarCheck c.rates
    scalarCheck c.enthalpy
    .ok none

/-- `None if ltab else v`; with `ltab` unset or zero `v` is a scalar or `None`. -/
def constantOf (ltab : Option ℕ) (v : SoL) : Val :=
  match ltab, v with
  | some (_ + 1), _ => .none
  | _, .one x => x
  | _, .many _ => .none

/-- `1 if isinstance(enthalpy, list) else None` (`_write.py`, 721-725). -/
def itabOf : SoL → Val
  | .many _ => .int 1
  | .one _ => .none

/-- `ltab` as a value. -/
def ltabVal : Option ℕ → Val
  | some n => .int n
  | none => .none

/-- The values of record 1 (`_write.py`, 728-741). -/
def generRecord (k : Val) (c : Comp) (ltab : Option ℕ) : List Val :=
  [k, c.name, c.nseq, c.nadd, c.nads, ltabVal ltab, .none, c.type, itabOf c.enthalpy,
    constantOf ltab c.rates, constantOf ltab c.enthalpy, c.thickness]

/-- A table record: `write_record(None, ..., multi=True)` is a `TypeError`. -/
def writeTable : SoL → Except PyErr (List Str)
  | .many l => writeMulti Fmt.gener0 l
  | .one _ => .error .typeError

/-- Record 4 (`_write.py`, 751-757); the branch filling a table from a scalar is
never reached, `tableCheck` rejects such an enthalpy. -/
def writeEnthalpy : SoL → Except PyErr (List Str)
  | .one .none => .ok []
  | .one _ => .error .typeError
  | .many l => writeMulti Fmt.gener0 l

/-- Records 2 to 4, written if `ltab` is set and not zero (`_write.py`,
744-757). -/
def writeTables (c : Comp) : Option ℕ → Except PyErr (List Str)
  | some (_ + 1) => do
    let t ← writeTable c.times
    let r ← writeTable c.rates
    let h ← writeEnthalpy c.enthalpy
    .ok (t ++ r ++ h)
  | _ => .ok []

/-- The records of one component (`_write.py`, 701-757). -/
def writeComp (fmt : List Tok) (e : Val × Comp) : Except PyErr (List Str) := do
  let ltab ← ltabOf e.2
  let l ← writeRecord fmt (generRecord e.1 e.2 ltab)
  let t ← writeTables e.2 ltab
  .ok (l :: t)

/-- All components of all generators (`_write.py`, 654-692). -/
def splitGens (gens : List (Val × Gen)) : Except PyErr (List (Val × Comp)) :=
  concatM (fun e => do
    let cs ← genComps e.2
    .ok (cs.map fun c => (e.1, c))) gens

/-- `_write_gener` (`_write.py`, 648-759). -/
def writeGener (gens : List (Val × Gen)) : Except PyErr (List Str) :=
  block "GENER" true (do
    let cs ← splitGens gens
    let n ← maxLen (gens.map (·.1))
    let fmt ← formatFor Fmt.gener n
    concatM (writeComp fmt) cs)

/-! ## Reading -/

/-- The lists of values collected for one element (`_read.py`, 476-507). The key
of the enthalpies may be absent. -/
structure GenAcc where
  name : List Val
  nseq : List Val
  nadd : List Val
  nads : List Val
  type : List Val
  thickness : List Val
  times : List SoL
  rates : List SoL
  enthalpy : Option (List SoL)
  deriving DecidableEq

/-- `ltab and ltab > 1` (`_read.py`, 486). -/
def tableLength : Val → Option ℤ
  | .int n => if 1 < n then some n else none
  | _ => none

/-- The tables of one record (`_read.py`, 487-499), or the constants
(`_read.py`, 500-507). -/
def readTables (d : List Val) (ls : List Str) :
    Except PyErr ((SoL × SoL × Option SoL) × List Str) :=
  match tableLength (entry d 5) with
  | some n => do
    let (t, ls) ← readTable Fmt.gener0 n [] ls
    let (r, ls) ← readTable Fmt.gener0 n [] ls
    if truthy (entry d 8) then do
      let (h, ls) ← readTable Fmt.gener0 n [] ls
      .ok ((.many t, .many r, some (.many h)), ls)
    else .ok ((.many t, .many r, none), ls)
  | none => .ok ((.one .none, .one (entry d 9), some (.one (entry d 10))), ls)

/-- `v += tmp[k]` for the enthalpies: an existing list needs the key in `tmp`, an
absent list stays absent. -/
def mergeEnthalpy : Option (List SoL) → Option (List SoL) → Except PyErr (Option (List SoL))
  | none, _ => .ok none
  | some a, some b => .ok (some (a ++ b))
  | some _, none => .error .keyError

/-- `for k, v in gener["generators"][label].items(): v += tmp[k]`
(`_read.py`, 509-511). -/
def mergeGen (g t : GenAcc) : Except PyErr GenAcc := do
  let h ← mergeEnthalpy g.enthalpy t.enthalpy
  .ok ⟨g.name ++ t.name, g.nseq ++ t.nseq, g.nadd ++ t.nadd, g.nads ++ t.nads, g.type ++ t.type,
    g.thickness ++ t.thickness, g.times ++ t.times, g.rates ++ t.rates, h⟩

/-- Adding what was read for a label (`_read.py`, 509-513). -/
def addGen (s : List (Val × GenAcc)) (k : Val) (t : GenAcc) :
    Except PyErr (List (Val × GenAcc)) :=
  match s.lookup k with
  | some g => do
    let g ← mergeGen g t
    .ok (dictSet s k g)
  | none => .ok (dictSet s k t)

/-- One turn of the loop of `_read_gener` (`_read.py`, 471-517). -/
def generStep (fmt : Except PyErr (List Tok)) (s : List (Val × GenAcc)) (ls : List Str) :
    Except PyErr (Turn (List (Val × GenAcc)) × List Str) := do
  let (line, ls) ← next ls
  if isBlank line then .ok (.stop s, ls)
  else
    let f ← fmt
    let d ← readRecord f line
    let ((t, r, h), ls) ← readTables d ls
    let s ← addGen s (entry d 0) ⟨[entry d 1], [entry d 2], [entry d 3], [entry d 4], [entry d 7],
      [entry d 11], [t], [r], h.map fun x => [x]⟩
    .ok (.more s, ls)

/-- A value per element or one per component. -/
inductive Out (α : Type)
  | one (v : α)
  | list (l : List α)
  deriving DecidableEq

/-- The tidying of one key (`_read.py`, 520-526): a list of one value is replaced
by the value, a list of missing values by `None`. -/
def tidy {α : Type} [DecidableEq α] (none : α) : List α → Out α
  | [x] => .one x
  | l => if l.all (· = none) then .one none else .list l

/-- What is returned for one element; `Out.one None` is an absent key
(`_read.py`, 528). -/
structure GenOut where
  name : Out Val
  nseq : Out Val
  nadd : Out Val
  nads : Out Val
  type : Out Val
  thickness : Out Val
  times : Out SoL
  rates : Out SoL
  enthalpy : Out SoL
  deriving DecidableEq

/-- The tidying of the enthalpies, whose key may be absent. -/
def tidyEnthalpy : Option (List SoL) → Out SoL
  | some h => tidy (.one .none) h
  | none => .one (.one .none)

/-- The tidying of one element (`_read.py`, 519-528). -/
def tidyGen (g : GenAcc) : GenOut :=
  ⟨tidy .none g.name, tidy .none g.nseq, tidy .none g.nadd, tidy .none g.nads, tidy .none g.type,
    tidy .none g.thickness, tidy (.one .none) g.times, tidy (.one .none) g.rates,
    tidyEnthalpy g.enthalpy⟩

/-- `_read_gener` (`_read.py`, 462-528). The first line is looked at before the
loop, which then starts with it. -/
def readGener (given : Option ℕ) (ls : List Str) :
    Except PyErr (List (Val × GenOut) × List Str) := do
  let (line, _) ← next ls
  let (s, ls) ← whileTrue (generStep (formatFor Fmt.gener (labelLength given line))) [] ls
  .ok (s.map fun e => (e.1, tidyGen e.2), ls)

end Verif.Model
