import Verif.Lemmas.NumStable

/-! Helper lemmas: numbers with fifteen digits survive as floats. -/

set_option exponentiation.threshold 2000

namespace Verif.Py
open Verif.Spec

/-- A decimal with `p+1` digits is recovered by rounding any number close to it. -/
theorem roundSig_near (p : ℕ) {m : ℕ} {e : ℤ} {x : ℚ}
    (hm1 : 10 ^ p ≤ m) (hm2 : m < 10 ^ (p + 1))
    (hx : |x - m * (10 : ℚ) ^ (e - (p : ℤ))| * 2 < (10 : ℚ) ^ (e - (p : ℤ))) (hne : m ≠ 10 ^ p) :
    roundSig p x = (m, e) := by
  set u := (10 : ℚ) ^ (e - (p : ℤ)) with hu
  have hupos : 0 < u := by rw [hu]; positivity
  have hm1' : (10 : ℚ) ^ p + 1 ≤ m := by
    have : 10 ^ p + 1 ≤ m := by omega
    exact_mod_cast this
  have hm2' : (m : ℚ) + 1 ≤ 10 ^ (p + 1) := by exact_mod_cast hm2
  have habs := abs_lt.1 (show |x - m * u| < u / 2 by linarith)
  have hten : (1 : ℚ) ≤ 10 ^ p := one_le_pow₀ (by norm_num)
  have hmpos : (1 : ℚ) ≤ m := by linarith
  have hmu : u ≤ m * u := by nlinarith
  have hxpos : 0 < x := by linarith [habs.1]
  have hup : x < (10 : ℚ) ^ (e + 1) := by
    have : (10 : ℚ) ^ (e + 1) = 10 ^ (p + 1) * u := by
      rw [hu, ← zpow_natCast, ← zpow_add₀ (by norm_num)]; congr 1; push_cast; ring
    rw [this]; nlinarith [habs.2]
  have hupe : (10 : ℚ) ^ e = 10 ^ p * u := by
    rw [hu, ← zpow_natCast, ← zpow_add₀ (by norm_num)]; congr 1; ring
  have hlow : (10 : ℚ) ^ e ≤ x := by
    rw [hupe]; nlinarith [habs.1]
  have hlog : Int.log 10 x = e := by
    apply le_antisymm
    · have := (Int.lt_zpow_iff_log_lt (b := 10) (x := e + 1) (r := x) (by norm_num) hxpos).1
        (by push_cast; exact hup)
      omega
    · exact (Int.zpow_le_iff_le_log (b := 10) (by norm_num) hxpos).1 (by push_cast; exact hlow)
  have hr : rhe (x * (10 : ℚ) ^ ((p : ℤ) - e)) = m := by
    apply rhe_eq_of_close (by positivity)
    have hv : (10 : ℚ) ^ ((p : ℤ) - e) = u⁻¹ := by
      rw [hu, ← zpow_neg]; congr 1; ring
    rw [hv]
    have : x * u⁻¹ - m = (x - m * u) * u⁻¹ := by field_simp
    rw [this, abs_mul, abs_of_pos (inv_pos.2 hupos), ← div_eq_mul_inv, div_lt_iff₀ hupos]
    rw [abs_lt]; constructor <;> linarith [habs.1, habs.2]
  unfold roundSig
  simp only [hlog, hr]
  rw [if_neg (by omega)]

/-- 15-digit decimals survive binary64 rounding. -/
theorem roundSig_rnd64_fifteen (p : ℕ) (hp : p ≤ 14) {m : ℕ} {e : ℤ}
    (hm1 : 10 ^ p ≤ m) (hm2 : m < 10 ^ (p + 1))
    (hn : minNormal ≤ m * (10 : ℚ) ^ (e - (p : ℤ))) :
    roundSig p (rnd64q (m * (10 : ℚ) ^ (e - (p : ℤ)))) = (m, e) := by
  have h := rnd64q_err hn
  have hupos : (0 : ℚ) < (10 : ℚ) ^ (e - (p : ℤ)) := by positivity
  have h3 : (0 : ℚ) < (2 : ℚ) ^ (-53 : ℤ) := by positivity
  by_cases hm : m = 10 ^ p
  · apply roundSig_close p hm1 hm2
    set u := (10 : ℚ) ^ (e - (p : ℤ)) with hu
    have hm3 : (m : ℚ) ≤ 10 ^ 14 := by
      have : m ≤ 10 ^ 14 := by rw [hm]; exact Nat.pow_le_pow_right (by norm_num) hp
      exact_mod_cast this
    have h2 : (10 : ℚ) ^ 14 * ((2 : ℚ) ^ (-53 : ℤ)) * 20 < 1 := by norm_num
    calc |rnd64q (m * u) - m * u| * (10 * 2)
        ≤ m * u * (2 : ℚ) ^ (-53 : ℤ) * (10 * 2) := by gcongr
      _ ≤ 10 ^ 14 * u * (2 : ℚ) ^ (-53 : ℤ) * (10 * 2) := by gcongr
      _ = 10 ^ 14 * (2 : ℚ) ^ (-53 : ℤ) * 20 * u := by ring
      _ < 1 * u := by gcongr
      _ = u := one_mul u
  · apply roundSig_near p hm1 hm2 _ hm
    set u := (10 : ℚ) ^ (e - (p : ℤ)) with hu
    have hm3 : (m : ℚ) < 10 ^ 15 := by
      have : m < 10 ^ 15 := lt_of_lt_of_le hm2 (Nat.pow_le_pow_right (by norm_num) (by omega))
      exact_mod_cast this
    have h2 : (10 : ℚ) ^ 15 * ((2 : ℚ) ^ (-53 : ℤ)) * 2 < 1 := by norm_num
    calc |rnd64q (m * u) - m * u| * 2
        ≤ m * u * (2 : ℚ) ^ (-53 : ℤ) * 2 := by gcongr
      _ ≤ 10 ^ 15 * u * (2 : ℚ) ^ (-53 : ℤ) * 2 := by gcongr
      _ = 10 ^ 15 * (2 : ℚ) ^ (-53 : ℤ) * 2 * u := by ring
      _ < 1 * u := by gcongr
      _ = u := one_mul u

/-- Writing the number that was read gives the same text. -/
theorem fmtE_quant_fifteen (p : ℕ) (hp : p ≤ 14) (x : Flt) (hx : InRange x) :
    fmtE p (quant p x) = fmtE p x := by
  cases x with
  | nan => rfl
  | inf neg => rfl
  | fin neg mag =>
    by_cases h : mag = 0
    · simp [quant, h, fmtE]
    · have hr : (2 : ℚ) ^ (-1021 : ℤ) ≤ mag ∧ (mag : ℚ) ≤ 10 ^ 308 := by
        rcases hx with hx | hx
        · exact absurd hx h
        · exact hx
      have hpos : (0 : ℚ) < (mag : ℚ) := lt_of_lt_of_le (by positivity) hr.1
      obtain ⟨ha, hb, hc⟩ := sigVal_range p hr.1 hr.2
      rw [quant_fin_eq p neg h, ofDecimal_sigVal p neg hr.1 hr.2]
      have hne : (rnd64q (sigVal p mag)).toNNRat ≠ 0 := by
        rw [ne_eq, Rat.toNNRat_eq_zero]; linarith
      simp only [fmtE, hne, if_false, h, Rat.coe_toNNRat _ hc.le]
      have := roundSig_rnd64_fifteen p hp (roundSig_bounds p hpos).1 (roundSig_bounds p hpos).2
        (e := (roundSig p mag).2) ha
      unfold sigVal
      rw [this]

end Verif.Py
