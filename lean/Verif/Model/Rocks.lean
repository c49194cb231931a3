import Verif.Model.IO

/-!
# ROCKS, RPCAP and FLAC blocks

Writers: `/repo/toughio/_io/input/tough/_write.py`, lines 153-332.
Readers: `/repo/toughio/_io/input/tough/_read.py`, lines 131-229.
-/

namespace Verif.Model
open Verif.Py

/-- A model dictionary `{"id": ..., "parameters": [...]}`. -/
structure Mod where
  id : Val
  params : List Val
  deriving DecidableEq

/-- The dictionary of one rock; `V` is the type of scalar properties and `P` the
type of the permeability. A model or initial condition that is `none` is an
absent key. Simplification: a model key holding `None` itself is not
represented. -/
structure RockOf (V P : Type) where
  density : V
  porosity : V
  permeability : P
  conductivity : V
  specificHeat : V
  compressibility : V
  expansivity : V
  conductivityDry : V
  tortuosity : V
  klinkenberg : V
  dist3 : V
  dist4 : V
  relPerm : Option Mod
  cap : Option Mod
  permModel : Option Mod
  eqPore : Option Mod
  initCond : Option (List Val)
  deriving DecidableEq

/-- A rock after the defaults were merged in (`_write.py`, 48-60), and a rock as
read: a scalar property that is missing is `Val.none`. -/
abbrev Rock := RockOf Val SoL

/-- A rock without any property. -/
def Rock.empty : Rock :=
  ⟨.none, .none, .one .none, .none, .none, .none, .none, .none, .none, .none, .none, .none,
    none, none, none, none, none⟩

/-- The seven properties of record 2 (`_write.py`, 186-197). -/
def Rock.secondary (r : Rock) : List Val :=
  [r.compressibility, r.expansivity, r.conductivityDry, r.tortuosity, r.klinkenberg, r.dist3,
    r.dist4]

/-- `cond` (`_write.py`, 186-197). -/
def Rock.hasSecondary (r : Rock) : Bool := r.secondary.any (· ≠ .none)

/-- `nad` (`_write.py`, 198-202). -/
def Rock.nad (r : Rock) : ℕ :=
  if r.relPerm.isSome || r.cap.isSome then 2 else if r.hasSecondary then 1 else 0

/-- `per` (`_write.py`, 205-208). -/
def permList : SoL → Except PyErr (Val × Val × Val)
  | .one v => .ok (v, v, v)
  | .many [a, b, c] => .ok (a, b, c)
  | .many _ => .error .typeError

/-- `write_record([], [])`: a blank record. -/
def blankRecord : Str := recLine []

/-- One model line of `_write_rocks` and `_write_rpcap` (`_write.py`, 240-247 and
264-271): id, blank, parameters; a blank line if the key is absent. -/
def writeMod (m : Option Mod) : Except PyErr Str :=
  match m with
  | some m => writeRecord Fmt.rpcap (m.id :: .none :: m.params)
  | none => .ok blankRecord

/-- The lines of one rock (`_write.py`, 182-247). -/
def writeRock (k : Val) (r : Rock) : Except PyErr (List Str) := do
  let (p1, p2, p3) ← permList r.permeability
  let l1 ← writeRecord Fmt.rocks1
    [k, if r.nad = 0 then .str [] else .int r.nad, r.density, r.porosity, p1, p2, p3,
      r.conductivity, r.specificHeat]
  let l2 ← if r.hasSecondary then do
      let l ← writeRecord Fmt.rocks2 r.secondary
      .ok [l]
    else if r.nad = 2 then .ok [blankRecord] else .ok []
  let l3 ← if r.nad = 2 then do
      let a ← writeMod r.relPerm
      let b ← writeMod r.cap
      .ok [a, b]
    else .ok []
  .ok (l1 :: l2 ++ l3)

/-- The order in which rocks are written (`_write.py`, 164-170, 292-298,
536-541): the order list followed by the rocks it does not name. -/
def rockOrder {β : Type} (order : Option (List Val)) (rocks : List (Val × β)) : List Val :=
  match order with
  | some o => o ++ (rocks.map (·.1)).filter (· ∉ o)
  | none => rocks.map (·.1)

/-- `_write_rocks` (`_write.py`, 153-249). -/
def writeRocks (order : Option (List Val)) (rocks : List (Val × Rock)) :
    Except PyErr (List Str) :=
  block "ROCKS" true (concatM (fun k => do
    let r ← dictGet rocks k
    writeRock k r) (rockOrder order rocks))

/-- Entry `i` of a record that was read; `read_record` returns one entry per
token, so the index is always valid. -/
def entry (d : List Val) (i : ℕ) : Val := d.getD i .none

/-- `==` of floats. -/
def fltEq : Flt → Flt → Bool
  | .fin n m, .fin n' m' => m = m' && (n = n' || m = 0)
  | .inf n, .inf n' => n = n'
  | _, _ => false

/-- `==` of two fields of an `e` column that were read separately. -/
def valEq : Val → Val → Bool
  | .flt x, .flt y => fltEq x y
  | a, b => a = b

/-- `data[4] if len(set(data[4:7])) == 1 else data[4:7]` (`_read.py`, 146). -/
def readPerm (a b c : Val) : SoL :=
  if valEq a b && valEq a c then .one a else .many [a, b, c]

/-- One model line of `_read_rpcap` (`_read.py`, 186-192). -/
def readMod (ls : List Str) : Except PyErr (Option Mod × List Str) := do
  let (line, ls) ← next ls
  let d ← readRecord Fmt.rpcap line
  .ok (if entry d 0 ≠ .none then some ⟨entry d 0, pruneNones (d.drop 2)⟩ else none, ls)

/-- `_read_rpcap` (`_read.py`, 180-194). -/
def readRpcap (ls : List Str) : Except PyErr ((Option Mod × Option Mod) × List Str) := do
  let (a, ls) ← readMod ls
  let (b, ls) ← readMod ls
  .ok ((a, b), ls)

/-- State of `_read_rocks`: the rocks and their order. -/
abbrev RocksState := List (Val × Rock) × List Val

/-- One turn of the loop of `_read_rocks` (`_read.py`, 136-173). `prune_nones_dict`
at the end (line 175) is implicit: a missing property is `Val.none`. -/
def rockStep (s : RocksState) (ls : List Str) : Except PyErr (Turn RocksState × List Str) := do
  let (line, ls) ← next ls
  if isBlank line then .ok (.stop s, ls)
  else
    let d ← readRecord Fmt.rocks1 line
    let rock : Rock := { Rock.empty with
      density := entry d 2
      porosity := entry d 3
      permeability := readPerm (entry d 4) (entry d 5) (entry d 6)
      conductivity := entry d 7
      specificHeat := entry d 8 }
    let (rock, ls) ← if entry d 1 ≠ .none then do
        let (line, ls) ← next ls
        let d ← readRecord Fmt.rocks2 line
        .ok ({ rock with
          compressibility := entry d 0
          expansivity := entry d 1
          conductivityDry := entry d 2
          tortuosity := entry d 3
          klinkenberg := entry d 4
          dist3 := entry d 5
          dist4 := entry d 6 }, ls)
      else .ok (rock, ls)
    let big := match entry d 1 with
      | .int i => decide (1 < i)
      | _ => false
    let (rock, ls) ← if big then do
        let ((a, b), ls) ← readRpcap ls
        .ok ({ rock with relPerm := a, cap := b }, ls)
      else .ok (rock, ls)
    .ok (.more (dictSet s.1 (entry d 0) rock, s.2 ++ [entry d 0]), ls)

/-- `_read_rocks` (`_read.py`, 131-177). -/
def readRocks (ls : List Str) : Except PyErr (RocksState × List Str) := whileTrue rockStep ([], []) ls

/-- `_write_rpcap` (`_write.py`, 255-273); the arguments are the models found in
`default`, absent keys standing for `{"id": None, "parameters": []}`
(`_common.py`, 139-140), which prints as a blank record too. -/
def writeRpcap (relPerm cap : Option Mod) : Except PyErr (List Str) :=
  block "RPCAP" false (do
    let a ← writeMod relPerm
    let b ← writeMod cap
    .ok [a, b])

/-- The `flac` dictionary (`_common.py`, 37-41). -/
structure Flac where
  creep : Val
  porosityModel : Val
  version : Val
  deriving DecidableEq

/-- Python truth value of a scalar. -/
def truthy : Val → Bool
  | .none => false
  | .bool b => b
  | .int i => i ≠ 0
  | .flt (.fin _ m) => m ≠ 0
  | .flt _ => true
  | .str s => s ≠ []

/-- The two lines of one rock in the FLAC block (`_write.py`, 317-330). The
models are those left after merging the defaults, so they are always present. -/
def writeFlacRock (perm pore : Mod) : Except PyErr (List Str) := do
  let a ← writeRecord Fmt.flac2 (perm.id :: perm.params)
  let b ← writeRecord Fmt.flac3 (pore.id :: .none :: pore.params)
  .ok [a, b]

/-- `_write_flac` (`_write.py`, 276-332); `rocks` gives the two models of each
rock after merging the defaults (`_write.py`, 318-320). -/
def writeFlac (flac : Flac) (order : Option (List Val)) (rocks : List (Val × (Mod × Mod))) :
    Except PyErr (List Str) :=
  block "FLAC" true (do
    let l ← writeRecord Fmt.flac1 [.bool (truthy flac.creep), flac.porosityModel, flac.version]
    let r ← concatM (fun k => do
      let m ← dictGet rocks k
      writeFlacRock m.1 m.2) (rockOrder order rocks)
    .ok (l :: r))

/-- The additional records of `_read_flac` (`_read.py`, 210-225). -/
def readFlacRocks : List Val → List (Val × (Mod × Mod)) → List Str →
    Except PyErr (List (Val × (Mod × Mod)) × List Str)
  | [], acc, ls => .ok (acc, ls)
  | k :: ks, acc, ls => do
    let (line, ls) ← next ls
    let d ← readRecord Fmt.flac2 line
    let perm : Mod := ⟨entry d 0, pruneNones (d.drop 1)⟩
    let (line, ls) ← next ls
    let d ← readRecord Fmt.flac3 line
    let pore : Mod := ⟨entry d 0, pruneNones (d.drop 2)⟩
    readFlacRocks ks (dictSet acc k (perm, pore)) ls

/-- `_read_flac` (`_read.py`, 197-229). The blank line that ends the block is
left to the main loop. -/
def readFlac (order : List Val) (ls : List Str) :
    Except PyErr ((Flac × List (Val × (Mod × Mod))) × List Str) := do
  let (line, ls) ← next ls
  let d ← readRecord Fmt.flac1 line
  let flac : Flac := ⟨entry d 0, entry d 1, entry d 2⟩
  let (rocks, ls) ← readFlacRocks order [] ls
  .ok ((flac, rocks), ls)

end Verif.Model
