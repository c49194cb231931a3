import Verif.Model.Curves
import Mathlib.Order.Monotone.Defs
import Mathlib.Order.Interval.Set.Defs

/-!
# Specification of the curves (C49, C50)
-/

namespace Verif.Spec
open Verif.Py Verif.Curves

/-- A relative permeability curve that gives two numbers in [0, 1] for every saturation
in [0, 1], liquid not decreasing and gas not increasing. -/
def GoodRelPerm (f : ℝ → Except PyErr (Num × Num)) : Prop :=
  ∃ kl kg : ℝ → ℝ, (∀ s ∈ Set.Icc (0 : ℝ) 1, f s = .ok (.re (kl s), .re (kg s))) ∧
    (∀ s ∈ Set.Icc (0 : ℝ) 1, kl s ∈ Set.Icc (0 : ℝ) 1 ∧ kg s ∈ Set.Icc (0 : ℝ) 1) ∧
    MonotoneOn kl (Set.Icc 0 1) ∧ AntitoneOn kg (Set.Icc 0 1)

/-- A capillary pressure curve that gives a number between `-bound` (if there is a bound)
and 0 for every saturation in [0, 1], the magnitude of which does not increase. -/
def GoodCapPres (bound : Option ℝ) (f : ℝ → Except PyErr Num) : Prop :=
  ∃ p : ℝ → ℝ, (∀ s ∈ Set.Icc (0 : ℝ) 1, f s = .ok (.re (p s))) ∧
    (∀ s ∈ Set.Icc (0 : ℝ) 1, p s ≤ 0 ∧ ∀ b ∈ bound, -b ≤ p s) ∧
    MonotoneOn p (Set.Icc 0 1)

end Verif.Spec
