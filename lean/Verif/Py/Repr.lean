import Verif.Py.Num

/-!
# `str` of floats

`str(x)` and `"{}".format(x)` of a float (and of a numpy `float64`): the shortest
decimal that `float` turns into `x` again, of several such decimals the nearest to `x`.
-/

namespace Verif.Py

/-- The decimals with `p + 1` digits next to `q > 0`, the nearest first: `(m, e)` stands
for `m * 10 ^ (e - p)`. -/
def nearDecimals (p : ℕ) (q : ℚ) : List (ℕ × ℤ) :=
  let e := Int.log 10 q
  let s := q * (10 : ℚ) ^ ((p : ℤ) - e)
  [rhe s, ⌊s⌋₊, ⌊s⌋₊ + 1].map fun m => if m = 10 ^ (p + 1) then (10 ^ p, e + 1) else (m, e)

/-- The shortest decimal `(p, m, e)` for `q > 0`. -/
def shortest (q : ℚ) : ℕ × ℕ × ℤ :=
  (((List.range 17).flatMap fun p => (nearDecimals p q).map fun c => (p, c)).find? fun c =>
    rnd64q ((c.2.1 : ℚ) * (10 : ℚ) ^ (c.2.2 - (c.1 : ℤ))) = q).getD (16, roundSig 16 q)

/-- The text of `m * 10 ^ (e - p)`, `m` of `p + 1` digits: with an exponent if there are
more than 16 digits before the point or more than three zeros after it. -/
def reprText (p m : ℕ) (e : ℤ) : Str :=
  if -4 ≤ e ∧ e < 16 then
    if (p : ℤ) ≤ e then natStr (m * 10 ^ (e - p).toNat) ++ ['.', '0']
    else natStr (m / 10 ^ (p - e).toNat) ++ '.' :: padDigits (p - e).toNat (m % 10 ^ (p - e).toNat)
  else mantStr p m ++ expStr e

/-- `str(x)`. -/
def fltStr : Flt → Str
  | .nan => ['n', 'a', 'n']
  | .inf neg => signStr neg ++ ['i', 'n', 'f']
  | .fin neg mag =>
    if mag = 0 then signStr neg ++ ['0', '.', '0']
    else
      let d := shortest mag
      signStr neg ++ reprText d.1 d.2.1 d.2.2

end Verif.Py
