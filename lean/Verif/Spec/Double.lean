import Verif.Py.Num

/-!
# Specification: the numbers of binary64
-/

namespace Verif.Spec
open Verif.Py

/-- A float of binary64: NaN, an infinity, or a number `m * 2 ^ e` with `m` of at most
53 bits and an exponent in the range. -/
def IsDouble : Flt → Prop
  | .nan => True
  | .inf _ => True
  | .fin _ mag => ∃ (m : ℕ) (e : ℤ), m < 2 ^ 53 ∧ -1074 ≤ e ∧ e ≤ 971 ∧ (mag : ℚ) = m * (2 : ℚ) ^ e

end Verif.Spec
