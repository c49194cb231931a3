import Verif.Py.Num

/-!
# Comparison and multiplication of floats
-/

namespace Verif.Py

/-- `x > -q` for a finite `q > 0`; comparisons with a NaN are false. -/
def gtNeg (q : ℚ) : Flt → Bool
  | .fin false _ => true
  | .fin true m => decide ((m : ℚ) < q)
  | .inf neg => !neg
  | .nan => false

/-- `x * y`: the exact product rounded to binary64. -/
def mulF : Flt → Flt → Flt
  | .nan, _ => .nan
  | _, .nan => .nan
  | .inf a, .inf b => .inf (a != b)
  | .inf a, .fin b n => if n = 0 then .nan else .inf (a != b)
  | .fin a m, .inf b => if m = 0 then .nan else .inf (a != b)
  | .fin a m, .fin b n => ofDecimal (a != b) ((m : ℚ) * n)

end Verif.Py
