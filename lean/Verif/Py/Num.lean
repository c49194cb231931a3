import Mathlib.Data.Int.Log
import Mathlib.Data.NNRat.Floor
import Mathlib.Data.NNRat.Defs
import Mathlib.Data.Rat.Floor
import Verif.Py.Str

/-!
# Python numbers: binary64 floats, formatting and parsing

These definitions mirror CPython's `float`, `int`, `format` and number parsing,
which `/repo/toughio/_io/input/tough/_helpers.py` (`read_record`,
`write_record`, `str2float`) relies on.
-/

namespace Verif.Py

/-- A Python float. A finite value is a sign bit and a magnitude; binary64
values are particular rationals, so everything stated for all `Flt` covers all
doubles. -/
inductive Flt
  | fin (neg : Bool) (mag : ℚ≥0)
  | inf (neg : Bool)
  | nan
  deriving DecidableEq

/-- Round a non-negative rational to the nearest natural number, ties to even. -/
def rhe (q : ℚ) : ℕ :=
  let f := ⌊q⌋₊
  if q - f < 1 / 2 then f
  else if 1 / 2 < q - f then f + 1
  else if f % 2 = 0 then f else f + 1

/-- Number of decimal digits of `n` (1 for 0). -/
def numDigits (n : ℕ) : ℕ := Nat.log 10 n + 1

/-- `str(n)` for a natural number. -/
def natStr (n : ℕ) : Str := padDigits (numDigits n) n

/-- `str(i)` for an integer. -/
def intStr (i : ℤ) : Str := (if i < 0 then ['-'] else []) ++ natStr i.natAbs

/-- The correctly rounded decimal of `q > 0` with `p + 1` significant digits:
`(m, e)` stands for `m * 10 ^ (e - p)` with `10 ^ p ≤ m < 10 ^ (p + 1)`. -/
def roundSig (p : ℕ) (q : ℚ) : ℕ × ℤ :=
  let e := Int.log 10 q
  let m := rhe (q * (10 : ℚ) ^ ((p : ℤ) - e))
  if m = 10 ^ (p + 1) then (10 ^ p, e + 1) else (m, e)

/-- Exponent text `e+05`, `e-123`: a sign and at least two digits. -/
def expStr (e : ℤ) : Str :=
  'e' :: (if e < 0 then '-' else '+') :: padDigits (max 2 (numDigits e.natAbs)) e.natAbs

/-- Mantissa text `d.ddd` of a `p + 1` digit number. -/
def mantStr (p m : ℕ) : Str :=
  digitChar (m / 10 ^ p) :: (if p = 0 then [] else '.' :: padDigits p (m % 10 ^ p))

/-- Sign text of a float. -/
def signStr (neg : Bool) : Str := if neg then ['-'] else []

/-- `format(x, '.pe')`. -/
def fmtE (p : ℕ) : Flt → Str
  | .nan => ['n', 'a', 'n']
  | .inf neg => signStr neg ++ ['i', 'n', 'f']
  | .fin neg mag =>
    if mag = 0 then signStr neg ++ mantStr p 0 ++ expStr 0
    else
      let me := roundSig p mag
      signStr neg ++ mantStr p me.1 ++ expStr me.2

/-- `format(x, '.pf')`. -/
def fmtF (p : ℕ) : Flt → Str
  | .nan => ['n', 'a', 'n']
  | .inf neg => signStr neg ++ ['i', 'n', 'f']
  | .fin neg mag =>
    let m := rhe ((mag : ℚ) * 10 ^ p)
    signStr neg ++ natStr (m / 10 ^ p) ++ (if p = 0 then [] else '.' :: padDigits p (m % 10 ^ p))

/-- Remove trailing zeros, and the decimal point if nothing follows it. -/
def stripZeros (s : Str) : Str :=
  let t := (s.reverse.dropWhile (· == '0'))
  match t with
  | '.' :: r => r.reverse
  | t => t.reverse

/-- `format(x, 'g')` (precision 6). -/
def fmtG : Flt → Str
  | .nan => ['n', 'a', 'n']
  | .inf neg => signStr neg ++ ['i', 'n', 'f']
  | .fin neg mag =>
    if mag = 0 then signStr neg ++ ['0']
    else
      let (m, e) := roundSig 5 mag
      if -4 ≤ e ∧ e < 6 then
        -- fixed notation with 5 - e decimals
        let d := (5 - e).toNat
        let t := natStr (m / 10 ^ d)
        signStr neg ++
          (if d = 0 then t else stripZeros (t ++ '.' :: padDigits d (m % 10 ^ d)))
      else
        signStr neg ++ stripZeros (mantStr 5 m) ++ expStr e

/-- Round a non-negative rational to binary64 (nearest, ties to even),
ignoring overflow. -/
def rnd64q (q : ℚ) : ℚ :=
  let e := max (Int.log 2 q - 52) (-1074)
  rhe (q * (2 : ℚ) ^ (-e)) * (2 : ℚ) ^ e

/-- The float with the given sign nearest to the decimal `q ≥ 0`. -/
def ofDecimal (neg : Bool) (q : ℚ) : Flt :=
  if q = 0 then .fin neg 0
  else if (2 : ℚ) ^ (1024 : ℕ) ≤ rnd64q q then .inf neg
  else .fin neg (rnd64q q).toNNRat

/-- PEP 515: underscores are allowed only between digits; they are removed. The
first argument says whether the previous character was a digit. -/
def unUnderscore : Bool → Str → Option Str
  | _, [] => some []
  | prev, '_' :: c :: r =>
    if prev && isDigit c then (unUnderscore true r).map (c :: ·) else none
  | _, ['_'] => none
  | _, c :: r => (unUnderscore (isDigit c) r).map (c :: ·)

/-- Split off an optional sign. -/
def splitSign : Str → Bool × Str
  | '-' :: r => (true, r)
  | '+' :: r => (false, r)
  | r => (false, r)

/-- Exponent part of a float literal: empty, or `e`/`E`, optional sign, digits. -/
def parseExp : Str → Option ℤ
  | [] => some 0
  | c :: r =>
    if c = 'e' ∨ c = 'E' then
      let (neg, d) := splitSign r
      if strIsDigit d then some (if neg then -(digVal d : ℤ) else digVal d) else none
    else none

/-- Unsigned decimal literal: value as an exact rational. -/
def parseDec (s : Str) : Option ℚ :=
  let ip := s.takeWhile isDigit
  let r := s.dropWhile isDigit
  let fr : Str × Str := match r with
    | '.' :: r' => (r'.takeWhile isDigit, r'.dropWhile isDigit)
    | _ => ([], r)
  if ip.isEmpty && fr.1.isEmpty then none
  else
    (parseExp fr.2).map fun e =>
      (digVal (ip ++ fr.1) : ℚ) * (10 : ℚ) ^ (e - (fr.1.length : ℤ))

/-- `float(s)`; `none` is `ValueError`. -/
def pyFloat (s : Str) : Option Flt :=
  match unUnderscore false (strip s) with
  | none => none
  | some t =>
    let (neg, r) := splitSign t
    let l := lower r
    if l = ['i', 'n', 'f'] ∨ l = ['i', 'n', 'f', 'i', 'n', 'i', 't', 'y'] then some (.inf neg)
    else if l = ['n', 'a', 'n'] then some .nan
    else (parseDec r).map (ofDecimal neg)

/-- `int(s)`; `none` is `ValueError`. -/
def pyInt (s : Str) : Option ℤ :=
  match unUnderscore false (strip s) with
  | none => none
  | some t =>
    let (neg, r) := splitSign t
    if strIsDigit r then some (if neg then -(digVal r : ℤ) else digVal r) else none

/-- `float(i)` as done by `format(i, 'e')` and `format(i, 'g')` for an integer.
Simplification: the rounding of integers beyond 2^53 is done by `ofDecimal`;
the `OverflowError` beyond 2^1024 is not modelled (it becomes infinity). -/
def fltOfInt (i : ℤ) : Flt := ofDecimal (decide (i < 0)) (i.natAbs : ℚ)

end Verif.Py
