/-!
# Python text primitives

Text is `List Char`. These definitions mirror the CPython built-ins that
`/repo/toughio` calls (they are not part of the repository itself).
-/

namespace Verif.Py

deriving instance DecidableEq for Except

/-- Python `str`. -/
abbrev Str := List Char

/-- The exceptions the modelled code can raise; `diverges` stands for a loop
that never ends. -/
inductive PyErr
  | valueError | typeError | keyError | indexError | attributeError
  | stopIteration | unboundLocalError | zeroDivisionError | overflowError | assertionError | structError | diverges
  deriving DecidableEq, Repr

/-- `str.isspace` for one character (the characters removed by `str.strip()`). -/
def isSpace (c : Char) : Bool :=
  let n := c.toNat
  (9 ≤ n && n ≤ 13) || (28 ≤ n && n ≤ 32) || n == 0x85 || n == 0xa0 || n == 0x1680 ||
  (0x2000 ≤ n && n ≤ 0x200a) || n == 0x2028 || n == 0x2029 || n == 0x202f ||
  n == 0x205f || n == 0x3000

/-- `str.isdigit` for one character. Simplification: ASCII digits only. -/
def isDigit (c : Char) : Bool := 48 ≤ c.toNat && c.toNat ≤ 57

/-- `str.lstrip()`. -/
def lstrip (s : Str) : Str := s.dropWhile isSpace

/-- `str.rstrip()`. -/
def rstrip (s : Str) : Str := (s.reverse.dropWhile isSpace).reverse

/-- `str.strip()`. -/
def strip (s : Str) : Str := rstrip (lstrip s)

/-- `str.isdigit()` (false on the empty string). -/
def strIsDigit (s : Str) : Bool := !s.isEmpty && s.all isDigit

/-- `str.startswith(p)`. -/
def startsWith (s p : Str) : Bool := p.isPrefixOf s

/-- `str.lower()` for one character. Simplification: ASCII only. -/
def lowerC (c : Char) : Char :=
  if 65 ≤ c.toNat && c.toNat ≤ 90 then Char.ofNat (c.toNat + 32) else c

/-- `str.upper()` for one character. Simplification: ASCII only. -/
def upperC (c : Char) : Char :=
  if 97 ≤ c.toNat && c.toNat ≤ 122 then Char.ofNat (c.toNat - 32) else c

/-- `str.lower()`. -/
def lower (s : Str) : Str := s.map lowerC

/-- `str.upper()`. -/
def upper (s : Str) : Str := s.map upperC

/-- A run of blanks. -/
def blanks (n : Nat) : Str := List.replicate n ' '

/-- `"{:n}".format(s)` for text (left aligned, padded on the right, not cut). -/
def padRight (n : Nat) (s : Str) : Str := s ++ blanks (n - s.length)

/-- `"{:>n}".format(s)` for text (right aligned, not cut). -/
def padLeft (n : Nat) (s : Str) : Str := blanks (n - s.length) ++ s

/-- The slice `s[i:i+n]`. -/
def slice (s : Str) (i n : Nat) : Str := (s.drop i).take n

/-- The character of a decimal digit. -/
def digitChar (d : Nat) : Char := Char.ofNat (48 + d)

/-- The `k` last decimal digits of `n`, zero padded on the left. -/
def padDigits : Nat → Nat → Str
  | 0, _ => []
  | k + 1, n => padDigits k (n / 10) ++ [digitChar (n % 10)]

/-- Value of a digit character. -/
def digitVal (c : Char) : Nat := c.toNat - 48

/-- Value of a digit string. -/
def digVal (s : Str) : Nat := s.foldl (fun a c => 10 * a + digitVal c) 0

end Verif.Py
