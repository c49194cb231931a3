import Verif.Py.Num

/-!
# Bytes: the parts of `struct` and of UTF-8 that the library uses

Model of `struct.pack` and `struct.unpack` with little-endian byte order for the codes
`H`, `I`, `d` and `s`, of `str.encode("utf-8")` and of `bytes.decode("utf-8")`. A byte is
a natural number; what is written is less than 256.

Simplifications: every NaN is packed as the same one; text has no lone surrogates;
`pack` rounds a float that is not of binary64, which Python does not have.
-/

namespace Verif.Py

/-- The `k` bytes of `n`, the least significant first. -/
def bytesOf : ℕ → ℕ → List ℕ
  | 0, _ => []
  | k + 1, n => n % 256 :: bytesOf k (n / 256)

/-- The number with these bytes. -/
def ofBytes : List ℕ → ℕ
  | [] => 0
  | b :: r => b + 256 * ofBytes r

/-- `struct.pack` of an unsigned number of `k` bytes. -/
def packUInt (k n : ℕ) : Except PyErr (List ℕ) :=
  if n < 256 ^ k then .ok (bytesOf k n) else .error .structError

/-- The bits of a float of binary64. -/
def bitsOf : Flt → ℕ
  | .nan => 2047 * 2 ^ 52 + 2 ^ 51
  | .inf neg => (if neg then 2 ^ 63 else 0) + 2047 * 2 ^ 52
  | .fin neg mag =>
    (if neg then 2 ^ 63 else 0) +
      if mag = 0 then 0
      else
        let e := max (Int.log 2 (mag : ℚ)) (-1022)
        (e + 1022).toNat * 2 ^ 52 + ⌊(mag : ℚ) * (2 : ℚ) ^ (52 - e)⌋.toNat

/-- The float with these bits. -/
def ofBits (n : ℕ) : Flt :=
  let neg := decide (n / 2 ^ 63 % 2 = 1)
  let e : ℕ := n / 2 ^ 52 % 2048
  let f : ℕ := n % 2 ^ 52
  if e = 2047 then if f = 0 then .inf neg else .nan
  else if e = 0 then .fin neg ((f : ℚ≥0) * (2 : ℚ≥0) ^ (-1074 : ℤ))
  else .fin neg (((2 ^ 52 + f : ℕ) : ℚ≥0) * (2 : ℚ≥0) ^ ((e : ℤ) - 1075))

/-- `struct.pack("<d", x)`. -/
def packDouble (x : Flt) : List ℕ := bytesOf 8 (bitsOf x)

/-- `struct.pack("{k}s", s)`: cut or filled with zeros. -/
def packText (k : ℕ) (s : List ℕ) : List ℕ := s.take k ++ List.replicate (k - s.length) 0

/-- `k` bytes of what is left of a file. -/
def takeBytes (k : ℕ) (bs : List ℕ) : Except PyErr (List ℕ × List ℕ) :=
  if bs.length < k then .error .structError else .ok (bs.take k, bs.drop k)

/-- `struct.unpack` of an unsigned number of `k` bytes. -/
def unpackUInt (k : ℕ) (bs : List ℕ) : Except PyErr (ℕ × List ℕ) := do
  let (x, r) ← takeBytes k bs
  .ok (ofBytes x, r)

/-- `struct.unpack("<d", …)`. -/
def unpackDouble (bs : List ℕ) : Except PyErr (Flt × List ℕ) := do
  let (x, r) ← takeBytes 8 bs
  .ok (ofBits (ofBytes x), r)

/-- `struct.unpack("<{n}I", …)`. -/
def unpackMany : ℕ → List ℕ → Except PyErr (List ℕ × List ℕ)
  | 0, bs => .ok ([], bs)
  | n + 1, bs => do
    let (x, bs) ← unpackUInt 4 bs
    let (xs, bs) ← unpackMany n bs
    .ok (x :: xs, bs)

/-- The bytes of one character in UTF-8. -/
def utf8Char (c : Char) : List ℕ :=
  let n := c.toNat
  if n < 0x80 then [n]
  else if n < 0x800 then [0xC0 + n / 64, 0x80 + n % 64]
  else if n < 0x10000 then [0xE0 + n / 4096, 0x80 + n / 64 % 64, 0x80 + n % 64]
  else [0xF0 + n / 262144, 0x80 + n / 4096 % 64, 0x80 + n / 64 % 64, 0x80 + n % 64]

/-- `s.encode("utf-8")`. -/
def utf8 (s : Str) : List ℕ := s.flatMap utf8Char

/-- A character that needs at least `least` in its length, with continuation bytes
`cs`; `lead` are the bits of the first byte. -/
def utf8Value (lead least : ℕ) (cs : List ℕ) : Option Char :=
  if cs.all fun c => 0x80 ≤ c && c < 0xC0 then
    let n := cs.foldl (fun n c => n * 64 + (c - 0x80)) lead
    if least ≤ n ∧ n.isValidChar then some (Char.ofNat n) else none
  else none

/-- `bs.decode("utf-8")`. `UnicodeDecodeError` is a `ValueError`. -/
def utf8Decode : List ℕ → Except PyErr Str
  | [] => .ok []
  | b :: r =>
    if b < 0x80 then do
      let s ← utf8Decode r
      .ok (Char.ofNat b :: s)
    else
      match r with
      | [] => .error .valueError
      | c₁ :: r =>
        if 0xC0 ≤ b ∧ b < 0xE0 then
          match utf8Value (b - 0xC0) 0x80 [c₁] with
          | some c => do
            let s ← utf8Decode r
            .ok (c :: s)
          | none => .error .valueError
        else
          match r with
          | [] => .error .valueError
          | c₂ :: r =>
            if 0xE0 ≤ b ∧ b < 0xF0 then
              match utf8Value (b - 0xE0) 0x800 [c₁, c₂] with
              | some c => do
                let s ← utf8Decode r
                .ok (c :: s)
              | none => .error .valueError
            else
              match r with
              | [] => .error .valueError
              | c₃ :: r =>
                if 0xF0 ≤ b ∧ b < 0xF8 then
                  match utf8Value (b - 0xF0) 0x10000 [c₁, c₂, c₃] with
                  | some c => do
                    let s ← utf8Decode r
                    .ok (c :: s)
                  | none => .error .valueError
                else .error .valueError

end Verif.Py
