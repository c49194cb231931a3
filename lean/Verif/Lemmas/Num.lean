import Verif.Py.Num
import Verif.Lemmas.Str
import Mathlib.Tactic.Positivity
import Mathlib.Tactic.FieldSimp
import Mathlib.Tactic.NormNum
import Mathlib.Algebra.Order.Floor.Semiring
import Mathlib.Algebra.Order.Field.Power

/-! Helper lemmas about rounding, formatting and parsing of numbers. -/

namespace Verif.Py

/-! ### rounding -/

theorem rhe_err {q : ℚ} (h : 0 ≤ q) : |(rhe q : ℚ) - q| ≤ 1 / 2 := by
  have h1 : ((⌊q⌋₊ : ℕ) : ℚ) ≤ q := Nat.floor_le h
  have h2 : q < (⌊q⌋₊ : ℕ) + 1 := Nat.lt_floor_add_one q
  unfold rhe
  simp only
  split_ifs with ha hb hc
  · rw [abs_le]; constructor <;> linarith
  · rw [abs_le]; push_cast; constructor <;> linarith
  · rw [abs_le]; constructor <;> linarith
  · rw [abs_le]; push_cast; constructor <;> linarith

theorem rhe_eq_of_close {q : ℚ} {n : ℕ} (h0 : 0 ≤ q) (h : |q - n| < 1 / 2) : rhe q = n := by
  have h1 := rhe_err h0
  have h2 : |((rhe q : ℕ) : ℚ) - n| < 1 := by
    calc |((rhe q : ℕ) : ℚ) - n| = |(rhe q - q) + (q - n)| := by ring_nf
      _ ≤ |(rhe q : ℚ) - q| + |q - n| := abs_add_le _ _
      _ < 1 := by linarith
  have h3 : |((rhe q : ℤ) - (n : ℤ))| < 1 := by exact_mod_cast h2
  have := Int.abs_lt_one_iff.1 h3
  omega

theorem rhe_nat (n : ℕ) : rhe (n : ℚ) = n :=
  rhe_eq_of_close (by positivity) (by simp)

theorem le_rhe {q : ℚ} {n : ℕ} (h : (n : ℚ) ≤ q) : n ≤ rhe q := by
  have h1 := (abs_le.1 (rhe_err (le_trans (by positivity) h))).1
  by_contra hc
  push Not at hc
  have h3 : ((rhe q : ℕ) : ℚ) + 1 ≤ n := by exact_mod_cast hc
  linarith

theorem rhe_le {q : ℚ} {n : ℕ} (h0 : 0 ≤ q) (h : q ≤ n) : rhe q ≤ n := by
  have h1 := (abs_le.1 (rhe_err h0)).2
  by_contra hc
  push Not at hc
  have h3 : (n : ℚ) + 1 ≤ (rhe q : ℕ) := by exact_mod_cast hc
  linarith

/-! ### significant digits -/

theorem log_bounds {b : ℕ} (hb : 1 < b) {q : ℚ} (hq : 0 < q) :
    (b : ℚ) ^ Int.log b q ≤ q ∧ q < (b : ℚ) ^ (Int.log b q + 1) :=
  ⟨Int.zpow_log_le_self hb hq, Int.lt_zpow_succ_log_self hb q⟩

/-- The scaled mantissa lies between `10^p` and `10^(p+1)`. -/
theorem scaled_bounds (p : ℕ) {q : ℚ} (hq : 0 < q) :
    (10 : ℚ) ^ p ≤ q * (10 : ℚ) ^ ((p : ℤ) - Int.log 10 q) ∧
    q * (10 : ℚ) ^ ((p : ℤ) - Int.log 10 q) < (10 : ℚ) ^ (p + 1) := by
  obtain ⟨h1, h2⟩ := log_bounds (b := 10) (by norm_num) hq
  push_cast at h1 h2
  have hpos : (0 : ℚ) < (10 : ℚ) ^ ((p : ℤ) - Int.log 10 q) := by positivity
  constructor
  · calc (10 : ℚ) ^ p = (10 : ℚ) ^ Int.log 10 q * (10 : ℚ) ^ ((p : ℤ) - Int.log 10 q) := by
          rw [← zpow_add₀ (by norm_num)]; rw [← zpow_natCast]; congr 1; ring
      _ ≤ _ := mul_le_mul_of_nonneg_right h1 hpos.le
  · calc q * (10 : ℚ) ^ ((p : ℤ) - Int.log 10 q)
        < (10 : ℚ) ^ (Int.log 10 q + 1) * (10 : ℚ) ^ ((p : ℤ) - Int.log 10 q) :=
          mul_lt_mul_of_pos_right h2 hpos
      _ = (10 : ℚ) ^ (p + 1) := by
          rw [← zpow_add₀ (by norm_num)]; rw [← zpow_natCast]; congr 1; push_cast; ring

theorem roundSig_bounds (p : ℕ) {q : ℚ} (hq : 0 < q) :
    10 ^ p ≤ (roundSig p q).1 ∧ (roundSig p q).1 < 10 ^ (p + 1) := by
  obtain ⟨h1, h2⟩ := scaled_bounds p hq
  have h3 : 10 ^ p ≤ rhe (q * (10 : ℚ) ^ ((p : ℤ) - Int.log 10 q)) := by
    apply le_rhe; push_cast; exact h1
  have h4 : rhe (q * (10 : ℚ) ^ ((p : ℤ) - Int.log 10 q)) ≤ 10 ^ (p + 1) := by
    apply rhe_le (le_trans (by positivity) h1); push_cast; exact h2.le
  unfold roundSig
  simp only
  split_ifs with h
  · exact ⟨le_refl _, Nat.pow_lt_pow_right (by norm_num) (by omega)⟩
  · exact ⟨h3, lt_of_le_of_ne h4 h⟩

/-- The decimal chosen by `roundSig`. -/
def sigVal (p : ℕ) (q : ℚ) : ℚ :=
  ((roundSig p q).1 : ℚ) * (10 : ℚ) ^ ((roundSig p q).2 - (p : ℤ))

/-- `sigVal` is the rounded scaled mantissa, scaled back. -/
theorem sigVal_eq (p : ℕ) (q : ℚ) :
    sigVal p q = (rhe (q * (10 : ℚ) ^ ((p : ℤ) - Int.log 10 q)) : ℚ) *
      (10 : ℚ) ^ (Int.log 10 q - (p : ℤ)) := by
  unfold sigVal roundSig
  simp only
  split_ifs with h
  · rw [h]; push_cast
    rw [← zpow_natCast, ← zpow_natCast, ← zpow_add₀ (by norm_num), ← zpow_add₀ (by norm_num)]
    congr 1; push_cast; ring
  · rfl

theorem sigVal_err (p : ℕ) {q : ℚ} (hq : 0 < q) :
    |sigVal p q - q| ≤ (10 : ℚ) ^ (Int.log 10 q - (p : ℤ)) / 2 := by
  rw [sigVal_eq]
  set e := Int.log 10 q
  have hpos : (0 : ℚ) < (10 : ℚ) ^ (e - (p : ℤ)) := by positivity
  have h0 : (0 : ℚ) ≤ q * (10 : ℚ) ^ ((p : ℤ) - e) := by positivity
  have h1 := rhe_err h0
  have h2 : (rhe (q * (10 : ℚ) ^ ((p : ℤ) - e)) : ℚ) * (10 : ℚ) ^ (e - (p : ℤ)) - q
      = ((rhe (q * (10 : ℚ) ^ ((p : ℤ) - e)) : ℚ) - q * (10 : ℚ) ^ ((p : ℤ) - e)) *
        (10 : ℚ) ^ (e - (p : ℤ)) := by
    rw [sub_mul, mul_assoc q, ← zpow_add₀ (by norm_num)]
    have : (p : ℤ) - e + (e - p) = 0 := by ring
    rw [this]; simp
  rw [h2, abs_mul, abs_of_pos hpos]
  nlinarith

theorem sigVal_relErr (p : ℕ) {q : ℚ} (hq : 0 < q) :
    |sigVal p q - q| ≤ q / (2 * 10 ^ p) := by
  refine le_trans (sigVal_err p hq) ?_
  have h1 := (log_bounds (b := 10) (by norm_num) hq).1
  push_cast at h1
  rw [zpow_sub₀ (by norm_num), zpow_natCast, div_div, mul_comm ((10 : ℚ) ^ p)]
  gcongr

theorem sigVal_pos (p : ℕ) {q : ℚ} (hq : 0 < q) : 0 < sigVal p q := by
  have h := (roundSig_bounds p hq).1
  have : 0 < (roundSig p q).1 := lt_of_lt_of_le (by positivity) h
  unfold sigVal
  positivity

/-- A decimal with `p+1` digits is recovered by rounding any number close to it. -/
theorem roundSig_close (p : ℕ) {m : ℕ} {e : ℤ} {x : ℚ}
    (hm1 : 10 ^ p ≤ m) (hm2 : m < 10 ^ (p + 1))
    (hx : |x - m * (10 : ℚ) ^ (e - (p : ℤ))| * (10 * 2) < (10 : ℚ) ^ (e - (p : ℤ))) :
    roundSig p x = (m, e) := by
  set u := (10 : ℚ) ^ (e - (p : ℤ)) with hu
  have hupos : 0 < u := by rw [hu]; positivity
  have hm1' : (10 : ℚ) ^ p ≤ m := by exact_mod_cast hm1
  have hm2' : (m : ℚ) + 1 ≤ 10 ^ (p + 1) := by exact_mod_cast hm2
  have habs := abs_lt.1 (show |x - m * u| < u / 20 by linarith)
  have hmpos : (1 : ℚ) ≤ m := le_trans (one_le_pow₀ (by norm_num)) hm1'
  have hmu : u ≤ m * u := by nlinarith
  have hxpos : 0 < x := by linarith [habs.1]
  -- upper bound
  have hup : x < (10 : ℚ) ^ (e + 1) := by
    have : (10 : ℚ) ^ (e + 1) = 10 ^ (p + 1) * u := by
      rw [hu, ← zpow_natCast, ← zpow_add₀ (by norm_num)]; congr 1; push_cast; ring
    rw [this]; nlinarith [habs.2]
  have hupe : (10 : ℚ) ^ e = 10 ^ p * u := by
    rw [hu, ← zpow_natCast, ← zpow_add₀ (by norm_num)]; congr 1; ring
  by_cases hlow : (10 : ℚ) ^ e ≤ x
  · have hlog : Int.log 10 x = e := by
      apply le_antisymm
      · have := (Int.lt_zpow_iff_log_lt (b := 10) (x := e + 1) (r := x) (by norm_num) hxpos).1
          (by push_cast; exact hup)
        omega
      · exact (Int.zpow_le_iff_le_log (b := 10) (by norm_num) hxpos).1 (by push_cast; exact hlow)
    have hr : rhe (x * (10 : ℚ) ^ ((p : ℤ) - e)) = m := by
      apply rhe_eq_of_close (by positivity)
      have hv : (10 : ℚ) ^ ((p : ℤ) - e) = u⁻¹ := by
        rw [hu, ← zpow_neg]; congr 1; ring
      rw [hv]
      have : x * u⁻¹ - m = (x - m * u) * u⁻¹ := by field_simp
      rw [this, abs_mul, abs_of_pos (inv_pos.2 hupos), ← div_eq_mul_inv, div_lt_iff₀ hupos]
      rw [abs_lt]; constructor <;> linarith [habs.1, habs.2]
    unfold roundSig
    simp only [hlog, hr]
    rw [if_neg (by omega)]
  · push Not at hlow
    -- then `m = 10^p` and `x` is just below the power of ten
    have hm : m = 10 ^ p := by
      by_contra hne
      have : 10 ^ p + 1 ≤ m := by omega
      have h' : (10 : ℚ) ^ p + 1 ≤ m := by exact_mod_cast this
      nlinarith [habs.1]
    have hlog : Int.log 10 x = e - 1 := by
      apply le_antisymm
      · have := (Int.lt_zpow_iff_log_lt (b := 10) (x := e) (r := x) (by norm_num) hxpos).1
          (by push_cast; exact hlow)
        omega
      · apply (Int.zpow_le_iff_le_log (b := 10) (by norm_num) hxpos).1
        push_cast
        have : (10 : ℚ) ^ (e - 1) = 10 ^ e / 10 := by rw [zpow_sub₀ (by norm_num)]; simp
        rw [this, hupe]
        nlinarith [habs.1]
    have hr : rhe (x * (10 : ℚ) ^ ((p : ℤ) - (e - 1))) = 10 ^ (p + 1) := by
      apply rhe_eq_of_close (by positivity)
      have hv : (10 : ℚ) ^ ((p : ℤ) - (e - 1)) = 10 * u⁻¹ := by
        have : (p : ℤ) - (e - 1) = 1 + -(e - p) := by ring
        rw [hu, ← zpow_neg, this, zpow_add₀ (by norm_num)]; simp
      rw [hv]
      have : x * (10 * u⁻¹) - ((10 ^ (p + 1) : ℕ) : ℚ) = (x - m * u) * 10 * u⁻¹ := by
        rw [hm]; push_cast; field_simp; ring
      rw [this, abs_mul, abs_of_pos (inv_pos.2 hupos), ← div_eq_mul_inv, div_lt_iff₀ hupos]
      rw [abs_lt]; constructor <;> linarith [habs.1, habs.2]
    unfold roundSig
    simp only [hlog, hr]
    simp [hm]

/-! ### binary64 rounding -/

/-- Lower end of the normal range: below it relative precision is lost. -/
def minNormal : ℚ := (2 : ℚ) ^ (-1022 : ℤ)

theorem rnd64q_err {q : ℚ} (hq : minNormal ≤ q) : |rnd64q q - q| ≤ q * (2 : ℚ) ^ (-53 : ℤ) := by
  have hqpos : 0 < q := lt_of_lt_of_le (by unfold minNormal; positivity) hq
  obtain ⟨h1, h2⟩ := log_bounds (b := 2) (by norm_num) hqpos
  push_cast at h1 h2
  have hl : -1022 ≤ Int.log 2 q :=
    (Int.zpow_le_iff_le_log (b := 2) (by norm_num) hqpos).1 (by push_cast; exact hq)
  unfold rnd64q
  simp only
  rw [max_eq_left (by omega)]
  set e := Int.log 2 q - 52 with he
  have hpos : (0 : ℚ) < (2 : ℚ) ^ e := by positivity
  have h0 : (0 : ℚ) ≤ q * (2 : ℚ) ^ (-e) := by positivity
  have h3 := rhe_err h0
  have h4 : (rhe (q * (2 : ℚ) ^ (-e)) : ℚ) * (2 : ℚ) ^ e - q
      = ((rhe (q * (2 : ℚ) ^ (-e)) : ℚ) - q * (2 : ℚ) ^ (-e)) * (2 : ℚ) ^ e := by
    rw [sub_mul, mul_assoc q, ← zpow_add₀ (by norm_num)]; simp
  rw [h4, abs_mul, abs_of_pos hpos]
  have h5 : (2 : ℚ) ^ e = (2 : ℚ) ^ Int.log 2 q * (2 : ℚ) ^ (-52 : ℤ) := by
    rw [← zpow_add₀ (by norm_num)]; rfl
  have h6 : (2 : ℚ) ^ (-52 : ℤ) = 2 * (2 : ℚ) ^ (-53 : ℤ) := by norm_num
  have h7 : (0 : ℚ) < (2 : ℚ) ^ (-53 : ℤ) := by positivity
  calc |(rhe (q * (2 : ℚ) ^ (-e)) : ℚ) - q * (2 : ℚ) ^ (-e)| * (2 : ℚ) ^ e
      ≤ 1 / 2 * (2 : ℚ) ^ e := mul_le_mul_of_nonneg_right h3 hpos.le
    _ = (2 : ℚ) ^ Int.log 2 q * (2 : ℚ) ^ (-53 : ℤ) := by rw [h5, h6]; ring
    _ ≤ q * (2 : ℚ) ^ (-53 : ℤ) := mul_le_mul_of_nonneg_right h1 h7.le

theorem rnd64q_nonneg {q : ℚ} : 0 ≤ rnd64q q := by unfold rnd64q; positivity

/-- 14-digit decimals survive binary64 rounding. -/
theorem roundSig_rnd64 (p : ℕ) (hp : p ≤ 13) {m : ℕ} {e : ℤ}
    (hm1 : 10 ^ p ≤ m) (hm2 : m < 10 ^ (p + 1))
    (hn : minNormal ≤ m * (10 : ℚ) ^ (e - (p : ℤ))) :
    roundSig p (rnd64q (m * (10 : ℚ) ^ (e - (p : ℤ)))) = (m, e) := by
  apply roundSig_close p hm1 hm2
  have h := rnd64q_err hn
  set u := (10 : ℚ) ^ (e - (p : ℤ)) with hu
  have hupos : 0 < u := by rw [hu]; positivity
  have hm3 : (m : ℚ) < 10 ^ 14 := by
    have : m < 10 ^ 14 := lt_of_lt_of_le hm2 (Nat.pow_le_pow_right (by norm_num) (by omega))
    exact_mod_cast this
  have h2 : (10 : ℚ) ^ 14 * ((2 : ℚ) ^ (-53 : ℤ)) * 20 < 1 := by norm_num
  have h3 : (0 : ℚ) < (2 : ℚ) ^ (-53 : ℤ) := by positivity
  calc |rnd64q (m * u) - m * u| * (10 * 2)
      ≤ m * u * (2 : ℚ) ^ (-53 : ℤ) * (10 * 2) := by gcongr
    _ ≤ 10 ^ 14 * u * (2 : ℚ) ^ (-53 : ℤ) * (10 * 2) := by gcongr
    _ = 10 ^ 14 * (2 : ℚ) ^ (-53 : ℤ) * 20 * u := by ring
    _ < 1 * u := by gcongr
    _ = u := one_mul u

end Verif.Py
