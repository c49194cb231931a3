import Verif.Lemmas.Repr
import Verif.Spec.Quant

/-!
# Seventeen significant digits
-/

namespace Verif.Py
open Verif.Spec

/-- Seventeen significant digits are enough for all floats. -/
theorem quant_double {p : ℕ} (hp : 16 ≤ p) {x : Flt} (h : IsDouble x) : quant p x = x := by
  cases x with
  | nan => rfl
  | inf neg => rfl
  | fin neg mag =>
    obtain ⟨m, e, hm, he1, he2, hq⟩ := h
    simp only [quant]
    by_cases h0 : mag = 0
    · simp [h0]
    · rw [if_neg h0]
      have hpos : (0 : ℚ) < (mag : ℚ) := by exact_mod_cast pos_iff_ne_zero.2 h0
      have hb : |sigVal p (mag : ℚ) - mag| ≤ (mag : ℚ) / (2 * 10 ^ 16) := by
        refine le_trans (sigVal_relErr p hpos) ?_
        gcongr
        norm_num
      have s2 : rnd64q (((roundSig p (mag : ℚ)).1 : ℚ) * (10 : ℚ) ^ ((roundSig p (mag : ℚ)).2 - (p : ℤ))) = mag :=
        rnd64q_near hm he1 hq hpos hb
      unfold ofDecimal
      have hne : ((roundSig p (mag : ℚ)).1 : ℚ) * (10 : ℚ) ^ ((roundSig p (mag : ℚ)).2 - (p : ℤ)) ≠ 0 := by
        intro hz
        rw [hz] at s2
        have : rnd64q 0 = 0 := by unfold rnd64q; simp [rhe]
        rw [this] at s2
        exact absurd s2.symm hpos.ne'
      rw [if_neg hne, s2, if_neg (not_le.2 (double_lt hm he2 hq))]
      simp

end Verif.Py
