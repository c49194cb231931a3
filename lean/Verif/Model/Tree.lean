import Verif.Py.Num

/-!
# Python values as they occur in parameter dictionaries

Used for the validation of parameters and for JSON files.
-/

namespace Verif.Model
open Verif.Py

/-- A key of a dictionary: a text, an integer or `None`. Other kinds of keys are not
represented. -/
inductive Key
  | str (s : Str)
  | int (i : ℤ)
  | null
  deriving DecidableEq

/-- A Python value. `npInt` stands for `numpy.int32` and `numpy.int64`,
`npFloat32` and `npFloat64` for the two floating point types of numpy, `array`
for an `ndarray` given by what its `tolist()` returns, `other` for anything else
(a set, a `numpy.bool_`, an object...). -/
inductive Tree
  | none
  | bool (b : Bool)
  | int (i : ℤ)
  | npInt (i : ℤ)
  | flt (x : Flt)
  | npFloat32 (x : Flt)
  | npFloat64 (x : Flt)
  | str (s : Str)
  | list (l : List Tree)
  | tuple (l : List Tree)
  | array (t : Tree)
  | dict (d : List (Key × Tree))
  | other

/-- The text key made of a Lean string. -/
def key (s : String) : Key := .str s.toList

/-- `d[k]` on the entries of a dictionary. -/
def Tree.find (d : List (Key × Tree)) (k : Key) : Option Tree := d.lookup k

end Verif.Model
