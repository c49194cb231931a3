import Verif.Py.Num

/-!
# Fixed-width records

Model of `str2format` (`/repo/toughio/_common.py`, lines 66-89) and of
`read_record`, `write_record`, `str2float`, `prune_nones_list`,
`prune_nones_dict` (`/repo/toughio/_io/input/tough/_helpers.py`, lines 235-304).
-/

namespace Verif.Model
open Verif.Py

/-- The scalar Python values found in records. -/
inductive Val
  | none
  | bool (b : Bool)
  | int (i : ℤ)
  | flt (x : Flt)
  | str (s : Str)
  deriving DecidableEq

/-- Last character of a format token (`_common.py`, 70-76). -/
inductive Kind
  | s | S | d | f | e
  deriving DecidableEq, Repr

/-- A format token such as `5s`, `10d` or `10.4e`: type, width and digits. -/
structure Tok where
  kind : Kind
  w : ℕ
  p : ℕ
  deriving DecidableEq, Repr

/-- `fmt.split(",")` (and any other one-character `str.split`). -/
def splitOn (sep : Char) : Str → List Str
  | [] => [[]]
  | c :: r =>
    if c = sep then [] :: splitOn sep r
    else match splitOn sep r with
      | [] => [[c]]
      | x :: xs => (c :: x) :: xs

/-- The type letter of a token (`_helpers.py`, 237-243; `_common.py`, 70-76). -/
def kindOf : Char → Option Kind
  | 's' => some .s
  | 'S' => some .S
  | 'd' => some .d
  | 'f' => some .f
  | 'e' => some .e
  | _ => none

/-- One token: `token[:-1].split(".")` are the width and the digits, `token[-1]`
is the type (`_helpers.py`, 247-251; `_common.py`, 80-87). -/
def parseTok (t : Str) : Option Tok := do
  let k ← kindOf (← t.getLast?)
  match splitOn '.' t.dropLast with
  | [w] => if strIsDigit w then some ⟨k, digVal w, 0⟩ else none
  | [w, p] => if strIsDigit w && strIsDigit p then some ⟨k, digVal w, digVal p⟩ else none
  | _ => none

/-- A record format text such as `"5s,5d,10.4e"` as a list of tokens; the empty
list if some token is malformed (no format of the library is). -/
def parseFmt (s : String) : List Tok := ((splitOn ',' s.toList).mapM parseTok).getD []

/-- `"{:.p}".format(x)` of a float: `p` significant digits without trailing zeros, but
with one decimal at least in fixed notation, which is used for exponents from -4 on
that are less than `p - 1`. -/
def fmtN (p : ℕ) : Flt → Str
  | .nan => ['n', 'a', 'n']
  | .inf neg => signStr neg ++ ['i', 'n', 'f']
  | .fin neg mag =>
    let (m, e) := if mag = 0 then (0, 0) else roundSig (p - 1) mag
    if -4 ≤ e ∧ e + 1 < p then
      let d := (p - 1 - e).toNat
      let t := stripZeros (natStr (m / 10 ^ d) ++ '.' :: padDigits d (m % 10 ^ d))
      signStr neg ++ (if '.' ∈ t then t else t ++ ['.', '0'])
    else signStr neg ++ (if p ≤ 1 then mantStr 0 m else stripZeros (mantStr (p - 1) m)) ++ expStr e

/-- `to_str(x, fmt)` of `write_record` (`_helpers.py`, 260-266) with the format
`str2format` builds for the token (`_common.py`, 79-87): `{:w.w}` for text,
`{:>wg}` for `d`, `{:>w.pe}` and `{:>w.pf}`. Missing values are written as the
empty string; for a string the letters `g` and `e` are removed from the format,
so a string in an `e` column is cut to `p` characters and a string (or `None`)
in an `f` column is a `ValueError`. An `int` or `bool` in a text column is a
`ValueError` (precision not allowed); a `float` in a text column is printed in
general format and may be longer than the column. -/
def toStr (t : Tok) (v : Val) : Except PyErr Str :=
  match v, t.kind with
  | .none, .f => .error .valueError
  | .none, _ => .ok (blanks t.w)
  | .str s, .s | .str s, .S => .ok (padRight t.w (s.take t.w))
  | .str s, .d => .ok (padLeft t.w s)
  | .str s, .e => .ok (padLeft t.w (s.take t.p))
  | .str _, .f => .error .valueError
  | .bool _, .s | .bool _, .S | .int _, .s | .int _, .S => .error .valueError
  | .flt x, .s | .flt x, .S => .ok (padLeft t.w (fmtN t.w x))
  | .bool b, .d => .ok (padLeft t.w (fmtG (fltOfInt (if b then 1 else 0))))
  | .bool b, .e => .ok (padLeft t.w (fmtE t.p (fltOfInt (if b then 1 else 0))))
  | .bool b, .f => .ok (padLeft t.w (fmtF t.p (fltOfInt (if b then 1 else 0))))
  | .int i, .d => .ok (padLeft t.w (fmtG (fltOfInt i)))
  | .int i, .e => .ok (padLeft t.w (fmtE t.p (fltOfInt i)))
  | .int i, .f => .ok (padLeft t.w (fmtF t.p (fltOfInt i)))
  | .flt x, .d => .ok (padLeft t.w (fmtG x))
  | .flt x, .e => .ok (padLeft t.w (fmtE t.p x))
  | .flt x, .f => .ok (padLeft t.w (fmtF t.p x))

/-- The texts of a record: `[to_str(d, f) for d, f in zip(data, fmt)]`
(`_helpers.py`, 269 and 281), joined. -/
def recText : List Tok → List Val → Except PyErr Str
  | [], _ => .ok []
  | _ :: _, [] => .ok []
  | t :: ts, v :: vs => do
    let a ← toStr t v
    let b ← recText ts vs
    .ok (a ++ b)

/-- `"{:80}\n".format(text)` (`_helpers.py`, 270 and 282). -/
def recLine (text : Str) : Str := padRight 80 text ++ ['\n']

/-- `write_record(data, fmt)` (`_helpers.py`, 257-270): one line. -/
def writeRecord (ts : List Tok) (vs : List Val) : Except PyErr Str := do
  .ok (recLine (← recText ts vs))

/-- The chunks of `write_record(..., multi=True)` (`_helpers.py`, 272-277). -/
def chunks {α : Type} (k : ℕ) (l : List α) : List (List α) :=
  (List.range ((l.length + k - 1) / k)).map fun i => (l.drop (k * i)).take k

/-- `write_record(data, fmt, multi=True)` (`_helpers.py`, 271-284). -/
def writeMulti (ts : List Tok) (vs : List Val) : Except PyErr (List Str) :=
  (chunks ts.length vs).mapM (writeRecord ts)

/-- `str2float` (`_helpers.py`, 287-294). -/
def str2float (s : Str) : Except PyErr Flt :=
  match pyFloat s with
  | some x => .ok x
  | none =>
    match pyFloat (s.take (s.length - 4) ++ 'e' :: s.drop (s.length - 4)) with
    | some x => .ok x
    | none => .error .valueError

/-- One field of `read_record` (`_helpers.py`, 249-251). -/
def readField (t : Tok) (txt : Str) : Except PyErr Val :=
  let tmp := if t.kind = .S then txt else strip txt
  if tmp = [] then .ok .none
  else match t.kind with
    | .s | .S => .ok (.str tmp)
    | .d => match pyInt tmp with
      | some i => .ok (.int i)
      | none => .error .valueError
    | .f | .e => do .ok (.flt (← str2float tmp))

/-- The loop of `read_record` from column `i` on (`_helpers.py`, 245-254). -/
def readFrom (line : Str) : ℕ → List Tok → Except PyErr (List Val)
  | _, [] => .ok []
  | i, t :: ts => do
    let v ← readField t (slice line i t.w)
    let vs ← readFrom line (i + t.w) ts
    .ok (v :: vs)

/-- `read_record(line, fmt)` (`_helpers.py`, 235-254). -/
def readRecord (ts : List Tok) (line : Str) : Except PyErr (List Val) := readFrom line 0 ts

/-- `prune_nones_list` (`_helpers.py`, 302-304): keep an entry if some entry at
or after it is present. -/
def pruneNones : List Val → List Val
  | [] => []
  | x :: xs => if (x :: xs).any (· ≠ .none) then x :: pruneNones xs else pruneNones xs

/-- `prune_nones_dict` (`_helpers.py`, 297-299) on an association list. -/
def pruneDict {κ : Type} (d : List (κ × Val)) : List (κ × Val) := d.filter (·.2 ≠ .none)

end Verif.Model
