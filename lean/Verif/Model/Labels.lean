import Verif.Py.Num

/-!
# Cell labels

Model of `get_label_length` (`/repo/toughio/_common.py`, lines 92-98) and
`labeler` (`/repo/toughio/_mesh/_common.py`, lines 181-222).
-/

namespace Verif.Model
open Verif.Py

/-- Number of leading digits: the iterations of the `while` loop of
`get_label_length` (`_common.py`, 95-96). -/
def countDigits : Str → ℕ
  | [] => 0
  | c :: r => if isDigit c then countDigits r + 1 else 0

/-- `get_label_length(label)` (`_common.py`, 92-98). -/
def getLabelLength (label : Str) : ℕ := 5 + countDigits (label.drop 5)

/-- `ascii_uppercase` (`_mesh/_common.py`, 212). -/
def alpha : List Char := "ABCDEFGHIJKLMNOPQRSTUVWXYZ".toList

/-- The digits 1-9 followed by the letters (`_mesh/_common.py`, 214). -/
def nomen : List Char := "123456789".toList ++ alpha

/-- `numpy.digitize(n_cells, bins) + 5` with
`bins = 3185000 * 10 ** arange(5) + 1` (`_mesh/_common.py`, 205-206): the number
of bin edges not greater than `n_cells`, plus 5. -/
def autoLength (n : ℕ) : ℕ :=
  ((List.range 5).filter fun k => 3185000 * 10 ^ k + 1 ≤ n).length + 5

/-- `"{:0>n}".format(i)` (`_mesh/_common.py`, 211, 213). -/
def zeroFill (n i : ℕ) : Str := List.replicate (n - (natStr i).length) '0' ++ natStr i

/-- The label of cell `i` (`_mesh/_common.py`, 210-222), where `n` is the label
length less three. `IndexError` is that of `alpha[r4]`. -/
def label (n i : ℕ) : Except PyErr Str :=
  let size := 10 ^ n
  let q1 := i / size
  let r1 := i % size
  let q2 := q1 / nomen.length
  let r2 := q1 % nomen.length
  let q3 := q2 / nomen.length
  let r3 := q2 % nomen.length
  let r4 := q3 % nomen.length
  match alpha[r4]?, nomen[r3]?, nomen[r2]? with
  | some a, some b, some c => .ok (a :: b :: c :: zeroFill n r1)
  | _, _, _ => .error .indexError

/-- The length used (`_mesh/_common.py`, 204-208): `None` and `0` select the
automatic length. -/
def usedLength (n : ℕ) : Option ℤ → ℤ
  | none => autoLength n
  | some l => if l = 0 then autoLength n else l

/-- `labeler(n_cells, label_length)` (`_mesh/_common.py`, 181-222). Below length 3
`10 ** n` is a `float` and `range` raises `TypeError`. The memory needed for the
array `numer` is ignored. -/
def labeler (n : ℕ) (len : Option ℤ) : Except PyErr (List Str) :=
  if usedLength n len < 3 then .error .typeError
  else (List.range n).mapM (label (usedLength n len - 3).toNat)

end Verif.Model
