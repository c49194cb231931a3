import Mathlib.Data.List.Sort
import Verif.Model.Tree
import Verif.Model.Opts

/-!
# JSON parameter files

Model of `read` and `write` (`/repo/toughio/_io/input/json/_json.py`, lines
13-81). The text of a JSON file is not modelled: a file is the tree that
`json.load` builds from it, and `json.dump` followed by `json.load` is the
function `dumped`, which is what the documentation of the standard library says
about it (keys become texts, tuples become lists, other types are rejected).
-/

namespace Verif.Model
open Verif.Py

mutual
/-- `jsonify` (`_json.py`, 64-76). -/
def jsonify : Tree → Tree
  | .npInt i => .int i
  | .list l => .list (jsonifyList l)
  | .tuple l => .list (jsonifyList l)
  | .array t => t
  | .dict d => .dict (jsonifyDict d)
  | .none => .none
  | .bool b => .bool b
  | .int i => .int i
  | .flt x => .flt x
  | .npFloat32 x => .npFloat32 x
  | .npFloat64 x => .npFloat64 x
  | .str s => .str s
  | .other => .other

/-- `[jsonify(xx) for xx in x]`. -/
def jsonifyList : List Tree → List Tree
  | [] => []
  | t :: r => jsonify t :: jsonifyList r

/-- `{k: jsonify(v) for k, v in x.items()}`. -/
def jsonifyDict : List (Key × Tree) → List (Key × Tree)
  | [] => []
  | (k, t) :: r => (k, jsonify t) :: jsonifyDict r
end

/-- The text of a key in a JSON file. -/
def keyText : Key → Str
  | .str s => s
  | .int i => intStr i
  | .null => "null".toList

mutual
/-- What `json.load` returns for a value written by `json.dump`. -/
def dumped : Tree → Except PyErr Tree
  | .none => .ok .none
  | .bool b => .ok (.bool b)
  | .int i => .ok (.int i)
  | .flt x => .ok (.flt x)
  | .npFloat64 x => .ok (.flt x)
  | .str s => .ok (.str s)
  | .list l => do
    let l ← dumpedList l
    .ok (.list l)
  | .tuple l => do
    let l ← dumpedList l
    .ok (.list l)
  | .dict d => do
    let d ← dumpedDict d
    .ok (.dict (updateDict [] d))
  | .npInt _ | .npFloat32 _ | .array _ | .other => .error .typeError

/-- The entries of a list. -/
def dumpedList : List Tree → Except PyErr (List Tree)
  | [] => .ok []
  | t :: r => do
    let t ← dumped t
    let r ← dumpedList r
    .ok (t :: r)

/-- The entries of a dictionary, before those with the same text as key are
merged. -/
def dumpedDict : List (Key × Tree) → Except PyErr (List (Key × Tree))
  | [] => .ok []
  | (k, t) :: r => do
    let t ← dumped t
    let r ← dumpedDict r
    .ok ((.str (keyText k), t) :: r)
end

/-- `write` (`_json.py`, 50-81): what the file contains. -/
def writeJson (p : Tree) : Except PyErr Tree := dumped (jsonify p)

/-- `s <= t` of texts, by code points. -/
def strLe : Str → Str → Bool
  | [], _ => true
  | _ :: _, [] => false
  | a :: s, b :: t => if a = b then strLe s t else decide (a.toNat < b.toNat)

/-- `int(k)` for a key; keys of a file are texts. -/
def intKey : Key → Except PyErr Key
  | .str s => match pyInt s with
    | some i => .ok (.int i)
    | none => .error .valueError
  | .int i => .ok (.int i)
  | .null => .error .typeError

/-- `int(k): data[k]` for the keys in order. -/
def intKeys : List (Key × Tree) → Except PyErr (List (Key × Tree))
  | [] => .ok []
  | (k, t) :: r => do
    let k ← intKey k
    let r ← intKeys r
    .ok ((k, t) :: r)

/-- `to_int` (`_json.py`, 29-31). -/
def toInt : Tree → Except PyErr Tree
  | .dict d => do
    let l ← intKeys (d.insertionSort fun a b => strLe (keyText a.1) (keyText b.1))
    .ok (.dict (updateDict [] l))
  | _ => .error .attributeError

/-- `if k in parameters.keys(): parameters[k] = f(parameters[k])`. -/
def updateKey (p : List (Key × Tree)) (k : Key) (f : Tree → Except PyErr Tree) :
    Except PyErr (List (Key × Tree)) :=
  match p.lookup k with
  | some v => do
    let v ← f v
    .ok (dictSet p k v)
  | none => .ok p

/-- `selections["integers"] = to_int(selections["integers"])` (`_json.py`,
42-45). -/
def selectionsInt : Tree → Except PyErr Tree
  | .dict d => match d.lookup (key "integers") with
    | some v => do
      let v ← toInt v
      .ok (.dict (dictSet d (key "integers") v))
    | none => .error .keyError
  | _ => .error .typeError

/-- `read` (`_json.py`, 13-47). A file that is not an object has no `keys`. -/
def readJson : Tree → Except PyErr Tree
  | .dict p => do
    let p ← updateKey p (key "extra_options") toInt
    let p ← updateKey p (key "more_options") toInt
    let p ← updateKey p (key "selections") selectionsInt
    .ok (.dict p)
  | _ => .error .attributeError

end Verif.Model
