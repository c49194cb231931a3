import Verif.Py.Num

/-!
# Specification: the number stored in a column

`quant p x` is the float that a column with `p` digits after the decimal point
can hold for `x`: the binary64 number nearest to the `p + 1` digit decimal
nearest to `x`. Its accuracy is the content of C03.
-/

namespace Verif.Spec
open Verif.Py

/-- The float that survives storing `x` with `p + 1` significant digits. -/
def quant (p : ℕ) : Flt → Flt
  | .nan => .nan
  | .inf neg => .inf neg
  | .fin neg mag =>
    if mag = 0 then .fin neg 0
    else ofDecimal neg (((roundSig p mag).1 : ℚ) * (10 : ℚ) ^ ((roundSig p mag).2 - (p : ℤ)))

/-- Range in which binary64 keeps full relative precision and does not overflow:
zero, infinities, NaN, and magnitudes from `2^-1021` to `10^308`. -/
def InRange : Flt → Prop
  | .nan => True
  | .inf _ => True
  | .fin _ mag => mag = 0 ∨ ((2 : ℚ) ^ (-1021 : ℤ) ≤ mag ∧ (mag : ℚ) ≤ 10 ^ 308)

end Verif.Spec
