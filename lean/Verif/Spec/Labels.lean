import Verif.Py.Num

/-!
# Specification of generated cell labels
-/

namespace Verif.Spec
open Verif.Py

/-- Upper case letters. -/
def IsUpper (c : Char) : Prop := 65 ≤ c.toNat ∧ c.toNat ≤ 90

/-- The digits 1-9. -/
def IsPosDigit (c : Char) : Prop := 49 ≤ c.toNat ∧ c.toNat ≤ 57

/-- The digits 0-9. -/
def IsDec (c : Char) : Prop := 48 ≤ c.toNat ∧ c.toNat ≤ 57

/-- A well formed label of `L` characters. -/
def WellFormed (L : ℕ) (s : Str) : Prop :=
  s.length = L ∧ ∃ a b c d, s = a :: b :: c :: d ∧ IsUpper a ∧ (IsPosDigit b ∨ IsUpper b) ∧
    (IsPosDigit c ∨ IsUpper c) ∧ ∀ x ∈ d, IsDec x

/-- The number of labels of `L` characters. -/
def capacity (L : ℕ) : ℕ := 26 * 35 * 35 * 10 ^ (L - 3)

end Verif.Spec
