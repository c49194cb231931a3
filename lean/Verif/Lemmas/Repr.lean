import Verif.Py.Repr
import Verif.Spec.Double
import Verif.Lemmas.NumStable

/-!
# Lemmas about `str` of floats
-/

namespace Verif.Py
open Verif.Spec

/-! ### seventeen digits suffice -/

theorem log_eq {q : ℚ} {k : ℤ} (h1 : (2 : ℚ) ^ k ≤ q) (h2 : q < (2 : ℚ) ^ (k + 1)) : Int.log 2 q = k := by
  have hq : 0 < q := lt_of_lt_of_le (by positivity) h1
  apply le_antisymm
  · have := (Int.lt_zpow_iff_log_lt (b := 2) (x := k + 1) (r := q) (by norm_num) hq).1 (by push_cast; exact h2)
    omega
  · exact (Int.zpow_le_iff_le_log (b := 2) (by norm_num) hq).1 (by push_cast; exact h1)

/-- A decimal within half a unit of seventeen digits of a double is rounded to it. -/
theorem rnd64q_near {q y : ℚ} {m : ℕ} {e : ℤ} (hm : m < 2 ^ 53) (he : -1074 ≤ e) (hq : q = m * (2 : ℚ) ^ e)
    (hq0 : 0 < q) (hy : |y - q| ≤ q / (2 * 10 ^ 16)) : rnd64q y = q := by
  obtain ⟨hl1, hl2⟩ := log_bounds (b := 2) (by norm_num) hq0
  push_cast at hl1 hl2
  set L := Int.log 2 q with hL
  have hLe : L ≤ e + 52 := by
    have : q < (2 : ℚ) ^ (e + 53) := by
      rw [hq, zpow_add₀ (by norm_num), mul_comm ((2 : ℚ) ^ e)]
      have : (m : ℚ) < (2 : ℚ) ^ (53 : ℤ) := by
        have : (m : ℚ) < ((2 ^ 53 : ℕ) : ℚ) := by exact_mod_cast hm
        calc (m : ℚ) < ((2 ^ 53 : ℕ) : ℚ) := this
          _ = (2 : ℚ) ^ (53 : ℤ) := by norm_num
      exact mul_lt_mul_of_pos_right this (by positivity)
    have := (Int.lt_zpow_iff_log_lt (b := 2) (x := e + 53) (r := q) (by norm_num) hq0).1 (by push_cast; exact this)
    omega
  set e0 := max (L - 52) (-1074) with he0
  have he0e : e0 ≤ e := max_le (by omega) he
  -- `q` as a multiple of the unit
  obtain ⟨d, hd⟩ : ∃ d : ℕ, e = e0 + d := ⟨(e - e0).toNat, by omega⟩
  set n := m * 2 ^ d with hn
  have hqn : q = n * (2 : ℚ) ^ e0 := by
    rw [hq, hd, zpow_add₀ (by norm_num), hn]
    push_cast
    rw [zpow_natCast]
    ring
  have hu : (0 : ℚ) < (2 : ℚ) ^ e0 := by positivity
  have hLe0 : e0 ≤ L := by
    refine max_le (by omega) ?_
    have hn1 : 1 ≤ n := by
      rcases Nat.eq_zero_or_pos n with h | h
      · rw [h] at hqn; simp at hqn; rw [hqn] at hq0; exact absurd hq0 (lt_irrefl _)
      · exact h
    have : (2 : ℚ) ^ (-1074 : ℤ) ≤ q := by
      rw [hqn]
      have h1 : (1 : ℚ) ≤ n := by exact_mod_cast hn1
      have h2 : (2 : ℚ) ^ (-1074 : ℤ) ≤ (2 : ℚ) ^ e0 := zpow_le_zpow_right₀ (by norm_num) (le_max_right _ _)
      nlinarith
    exact (Int.zpow_le_iff_le_log (b := 2) (by norm_num) hq0).1 (by push_cast; exact this)
  have h53 : q < (2 : ℚ) ^ (53 : ℤ) * (2 : ℚ) ^ e0 := by
    refine lt_of_lt_of_le hl2 ?_
    rw [← zpow_add₀ (by norm_num)]
    exact zpow_le_zpow_right₀ (by norm_num) (by have := le_max_left (L - 52) (-1074); omega)
  have herr : |y - q| < (2 : ℚ) ^ e0 / 2 := by
    refine lt_of_le_of_lt hy ?_
    have : q / (2 * 10 ^ 16) < ((2 : ℚ) ^ (53 : ℤ) * (2 : ℚ) ^ e0) / (2 * 10 ^ 16) := by gcongr
    refine lt_trans this ?_
    have h3 : (2 : ℚ) ^ (53 : ℤ) < 10 ^ 16 := by norm_num
    rw [div_lt_div_iff₀ (by norm_num) (by norm_num)]
    nlinarith
  obtain ⟨a1, a2⟩ := abs_lt.1 herr
  -- the upper power of two
  have hup : y < (2 : ℚ) ^ (L + 1) := by
    obtain ⟨k, hk⟩ : ∃ k : ℕ, L + 1 = e0 + k := ⟨(L + 1 - e0).toNat, by omega⟩
    have hk2 : (2 : ℚ) ^ (L + 1) = ((2 ^ k : ℕ) : ℚ) * (2 : ℚ) ^ e0 := by
      rw [hk, zpow_add₀ (by norm_num)]
      push_cast
      rw [zpow_natCast]
      ring
    rw [hk2] at hl2 ⊢
    rw [hqn] at hl2
    have h4 : (n : ℚ) < ((2 ^ k : ℕ) : ℚ) := lt_of_mul_lt_mul_right hl2 hu.le
    have h5 : (n : ℚ) + 1 ≤ ((2 ^ k : ℕ) : ℚ) := by
      have : n < 2 ^ k := by exact_mod_cast h4
      exact_mod_cast this
    have : y < (n : ℚ) * (2 : ℚ) ^ e0 + (2 : ℚ) ^ e0 / 2 := by linarith
    nlinarith
  have hypos : 0 < y := by
    have : q / (2 * 10 ^ 16) < q := div_lt_self hq0 (by norm_num)
    have := (abs_le.1 hy).1
    linarith
  have main : ∀ (e' : ℤ) (n' : ℕ), max (Int.log 2 y - 52) (-1074) = e' → q = n' * (2 : ℚ) ^ e' →
      |y - q| < (2 : ℚ) ^ e' / 2 → rnd64q y = q := by
    intro e' n' h1 h2 h3
    unfold rnd64q
    simp only
    rw [h1]
    have hu' : (0 : ℚ) < (2 : ℚ) ^ e' := by positivity
    have hr : rhe (y * (2 : ℚ) ^ (-e')) = n' := by
      apply rhe_eq_of_close (by positivity)
      have : y * (2 : ℚ) ^ (-e') - n' = (y - q) * ((2 : ℚ) ^ e')⁻¹ := by
        rw [h2, zpow_neg]
        field_simp
      rw [this, abs_mul, abs_of_pos (inv_pos.2 hu'), ← div_eq_mul_inv, div_lt_iff₀ hu']
      linarith
    rw [hr, h2]
  by_cases hlow : (2 : ℚ) ^ L ≤ y
  · exact main e0 n (by rw [log_eq hlow hup]) hqn herr
  · push Not at hlow
    by_cases hs : L - 52 ≤ -1074
    · refine main e0 n ?_ hqn herr
      have : Int.log 2 y ≤ L := by
        have := (Int.lt_zpow_iff_log_lt (b := 2) (x := L) (r := y) (by norm_num) hypos).1 (by push_cast; exact hlow)
        omega
      rw [he0, max_eq_right hs, max_eq_right (by omega)]
    · have hee : e0 = L - 52 := by rw [he0]; exact max_eq_left (by omega)
      have hL2 : (2 : ℚ) ^ L = ((2 ^ 52 : ℕ) : ℚ) * (2 : ℚ) ^ e0 := by
        have : L = 52 + e0 := by omega
        rw [this, zpow_add₀ (by norm_num)]
        norm_num
      have hnn : n = 2 ^ 52 := by
        rw [hL2] at hlow hl1
        rw [hqn] at hl1
        have h4 : ((2 ^ 52 : ℕ) : ℚ) ≤ (n : ℚ) := le_of_mul_le_mul_right hl1 hu
        have h5 : 2 ^ 52 ≤ n := by exact_mod_cast h4
        by_contra hne
        have h6 : ((2 ^ 52 : ℕ) : ℚ) + 1 ≤ (n : ℚ) := by
          have : 2 ^ 52 + 1 ≤ n := by omega
          exact_mod_cast this
        nlinarith
      have hqL : q = (2 : ℚ) ^ L := by rw [hqn, hL2, hnn]
      have hquart : |y - q| < (2 : ℚ) ^ e0 / 4 := by
        refine lt_of_le_of_lt hy ?_
        rw [hqn, hnn, div_lt_div_iff₀ (by norm_num) (by norm_num)]
        push_cast
        have : (2 : ℚ) ^ 52 * 4 < 2 * 10 ^ 16 := by norm_num
        nlinarith
      have he1 : (2 : ℚ) ^ e0 = 2 * (2 : ℚ) ^ (L - 53) := by
        rw [hee, show L - 52 = 1 + (L - 53) by ring, zpow_add₀ (by norm_num)]
        norm_num
      have hlow' : (2 : ℚ) ^ (L - 1) ≤ y := by
        have h7 : (2 : ℚ) ^ L = 2 * (2 : ℚ) ^ (L - 1) := by
          rw [show L = 1 + (L - 1) by ring, zpow_add₀ (by norm_num)]
          norm_num
        have h8 : q / (2 * 10 ^ 16) ≤ q / 2 := by gcongr; norm_num
        have h9 := (abs_le.1 hy).1
        linarith
      refine main (L - 53) (2 ^ 53) ?_ ?_ ?_
      · rw [log_eq hlow' (by rw [sub_add_cancel]; exact hlow), show L - 1 - 52 = L - 53 by ring]
        exact max_eq_left (by omega)
      · rw [hqn, hnn, he1]
        push_cast
        ring
      · rw [he1] at hquart
        linarith

/-! ### the shortest decimal -/

theorem roundSig_mem (q : ℚ) (p : ℕ) : roundSig p q ∈ nearDecimals p q := by
  unfold nearDecimals roundSig
  simp

theorem nearDecimals_lt {p : ℕ} {q : ℚ} (hq : 0 < q) : ∀ c ∈ nearDecimals p q, c.1 < 10 ^ (p + 1) := by
  intro c hc
  obtain ⟨h1, h2⟩ := scaled_bounds p hq
  unfold nearDecimals at hc
  simp only [List.mem_map] at hc
  obtain ⟨m, hm, rfl⟩ := hc
  have hle : m ≤ 10 ^ (p + 1) := by
    simp only [List.mem_cons, List.not_mem_nil, or_false] at hm
    have hf : ⌊q * (10 : ℚ) ^ ((p : ℤ) - Int.log 10 q)⌋₊ < 10 ^ (p + 1) := by
      rw [Nat.floor_lt (le_trans (by positivity) h1)]
      push_cast
      exact h2
    rcases hm with rfl | rfl | rfl
    · apply rhe_le (le_trans (by positivity) h1); push_cast; exact h2.le
    · exact hf.le
    · exact hf
  split_ifs with h
  · exact Nat.pow_lt_pow_right (by norm_num) (by omega)
  · exact lt_of_le_of_ne hle h

theorem shortest_spec {q : ℚ} {m : ℕ} {e : ℤ} (hm : m < 2 ^ 53) (he : -1074 ≤ e) (hq : q = m * (2 : ℚ) ^ e)
    (hq0 : 0 < q) :
    (shortest q).2.1 < 10 ^ ((shortest q).1 + 1) ∧
      rnd64q (((shortest q).2.1 : ℚ) * (10 : ℚ) ^ ((shortest q).2.2 - ((shortest q).1 : ℤ))) = q := by
  have h16 : rnd64q (((roundSig 16 q).1 : ℚ) * (10 : ℚ) ^ ((roundSig 16 q).2 - ((16 : ℕ) : ℤ))) = q :=
    rnd64q_near hm he hq hq0 (sigVal_relErr 16 hq0)
  unfold shortest
  cases hf : (((List.range 17).flatMap fun p => (nearDecimals p q).map fun c => (p, c)).find? fun c =>
    rnd64q ((c.2.1 : ℚ) * (10 : ℚ) ^ (c.2.2 - (c.1 : ℤ))) = q) with
  | none => exact ⟨(roundSig_bounds 16 hq0).2, h16⟩
  | some c =>
    have h1 := List.find?_some hf
    have h2 := List.mem_of_find?_eq_some hf
    obtain ⟨p, -, h2⟩ := List.mem_flatMap.1 h2
    obtain ⟨d, hd, rfl⟩ := List.mem_map.1 h2
    exact ⟨nearDecimals_lt hq0 d hd, by simpa using h1⟩

/-! ### the text -/

theorem parseDec_point {a b : Str} (ha : ∀ c ∈ a, isDigit c = true) (ha0 : a ≠ [])
    (hb : ∀ c ∈ b, isDigit c = true) :
    parseDec (a ++ '.' :: b) = some ((digVal (a ++ b) : ℚ) * (10 : ℚ) ^ (-(b.length : ℤ))) := by
  have hdot : ∀ c ∈ ('.' :: b).head?, isDigit c = false := by
    intro c hc; simp at hc; subst hc; decide
  have h1 := takeWhile_append_stop (p := isDigit) ha hdot
  have h2 := dropWhile_append_stop (p := isDigit) ha hdot
  have h3 := takeWhile_append_stop (p := isDigit) (r := []) hb (by simp)
  have h4 := dropWhile_append_stop (p := isDigit) (r := []) hb (by simp)
  rw [List.append_nil] at h3 h4
  have hne : a.isEmpty = false := by
    cases a with
    | nil => exact absurd rfl ha0
    | cons => rfl
  simp only [parseDec, h1, h2, h3, h4, hne, Bool.false_and, Bool.false_eq_true, if_false,
    parseExp, Option.map_some, zero_sub]

theorem reprText_spec {p m : ℕ} {e : ℤ} (hm : m < 10 ^ (p + 1)) :
    (∀ c ∈ reprText p m e, isNumChar c = true) ∧
    (∃ c t, reprText p m e = c :: t ∧ isDigit c = true) ∧
    parseDec (reprText p m e) = some ((m : ℚ) * (10 : ℚ) ^ (e - (p : ℤ))) := by
  have hnat : ∀ n, ∃ c t, natStr n = c :: t ∧ isDigit c = true := by
    intro n
    cases h : natStr n with
    | nil => exact absurd h (natStr_ne_nil n)
    | cons c t => exact ⟨c, t, rfl, natStr_isDigit n c (by rw [h]; simp)⟩
  unfold reprText
  split_ifs with h1 h2
  · obtain ⟨k, hk⟩ : ∃ k : ℕ, e - p = k := ⟨(e - p).toNat, by omega⟩
    rw [hk, Int.toNat_natCast]
    refine ⟨?_, ?_, ?_⟩
    · intro c hc
      rcases List.mem_append.1 hc with hc | hc
      · exact isNumChar_of_isDigit (natStr_isDigit _ c hc)
      · simp at hc
        rcases hc with rfl | rfl <;> decide
    · obtain ⟨c, t, h, hd⟩ := hnat (m * 10 ^ k)
      exact ⟨c, t ++ ['.', '0'], by rw [h]; rfl, hd⟩
    · rw [show ['.', '0'] = '.' :: ['0'] from rfl, parseDec_point (natStr_isDigit _) (natStr_ne_nil _) (by decide),
        digVal_append, digVal_natStr]
      simp [digVal, digitVal]
  · obtain ⟨k, hk⟩ : ∃ k : ℕ, (p : ℤ) - e = k := ⟨(p - e).toNat, by omega⟩
    rw [hk, Int.toNat_natCast]
    refine ⟨?_, ?_, ?_⟩
    · intro c hc
      rcases List.mem_append.1 hc with hc | hc
      · exact isNumChar_of_isDigit (natStr_isDigit _ c hc)
      · rcases List.mem_cons.1 hc with rfl | hc
        · decide
        · exact isNumChar_of_isDigit (padDigits_isDigit _ _ c hc)
    · obtain ⟨c, t, h, hd⟩ := hnat (m / 10 ^ k)
      exact ⟨c, t ++ '.' :: padDigits k (m % 10 ^ k), by rw [h]; rfl, hd⟩
    · rw [parseDec_point (natStr_isDigit _) (natStr_ne_nil _) (padDigits_isDigit _ _), digVal_append,
        digVal_natStr, digVal_padDigits, padDigits_length, Nat.mod_mod, Nat.div_add_mod' m,
        show e - (p : ℤ) = -(k : ℤ) by omega]
  · refine ⟨?_, mantStr_head hm _, parseDec_mant p m e hm⟩
    intro c hc
    rcases List.mem_append.1 hc with hc | hc
    · exact mantStr_numChar hm _ hc
    · exact expStr_numChar _ _ hc

theorem double_lt {mag : ℚ} {m : ℕ} {e : ℤ} (hm : m < 2 ^ 53) (he : e ≤ 971) (h : mag = m * (2 : ℚ) ^ e) :
    mag < (2 : ℚ) ^ (1024 : ℕ) := by
  have h1 : (m : ℚ) < (2 : ℚ) ^ (53 : ℕ) := by exact_mod_cast hm
  have h2 : (2 : ℚ) ^ e ≤ (2 : ℚ) ^ (971 : ℤ) := zpow_le_zpow_right₀ (by norm_num) he
  have h3 : (0 : ℚ) < (2 : ℚ) ^ e := by positivity
  calc mag = m * (2 : ℚ) ^ e := h
    _ < (2 : ℚ) ^ (53 : ℕ) * (2 : ℚ) ^ e := by gcongr
    _ ≤ (2 : ℚ) ^ (53 : ℕ) * (2 : ℚ) ^ (971 : ℤ) := by gcongr
    _ = (2 : ℚ) ^ (1024 : ℕ) := by
      rw [← zpow_natCast, ← zpow_natCast, ← zpow_add₀ (by norm_num)]
      norm_num

/-- `float(str(x))` is `x`. -/
theorem pyFloat_fltStr (x : Flt) (h : IsDouble x) : pyFloat (fltStr x) = some x := by
  cases x with
  | nan => rfl
  | inf neg => cases neg <;> rfl
  | fin neg mag =>
    simp only [fltStr]
    by_cases h0 : mag = 0
    · subst h0
      cases neg <;> decide +kernel
    · rw [if_neg h0]
      obtain ⟨m, e, hm, he1, he2, hq⟩ := h
      have hpos : (0 : ℚ) < (mag : ℚ) := by
        have : 0 < mag := pos_iff_ne_zero.2 h0
        exact_mod_cast this
      obtain ⟨s1, s2⟩ := shortest_spec hm he1 hq hpos
      obtain ⟨t1, t2, t3⟩ := reprText_spec (p := (shortest mag).1) (e := (shortest mag).2.2) s1
      rw [pyFloat_signed t1 t2 t3]
      unfold ofDecimal
      have hne : ((shortest mag).2.1 : ℚ) * (10 : ℚ) ^ ((shortest mag).2.2 - ((shortest mag).1 : ℤ)) ≠ 0 := by
        intro hz
        rw [hz] at s2
        have : rnd64q 0 = 0 := by unfold rnd64q; simp [rhe]
        rw [this] at s2
        exact absurd s2.symm hpos.ne'
      rw [if_neg hne, s2, if_neg (not_le.2 (double_lt hm he2 hq))]
      simp

theorem fltStr_nospace (x : Flt) (h : IsDouble x) : ∀ c ∈ fltStr x, isSpace c = false := by
  cases x with
  | nan => decide
  | inf neg => cases neg <;> decide
  | fin neg mag =>
    simp only [fltStr]
    by_cases h0 : mag = 0
    · rw [if_pos h0]
      cases neg <;> decide
    · rw [if_neg h0]
      obtain ⟨m, e, hm, he1, he2, hq⟩ := h
      have hpos : (0 : ℚ) < (mag : ℚ) := by
        have : 0 < mag := pos_iff_ne_zero.2 h0
        exact_mod_cast this
      obtain ⟨t1, -, -⟩ := reprText_spec (p := (shortest mag).1) (e := (shortest mag).2.2)
        (shortest_spec hm he1 hq hpos).1
      intro c hc
      rcases List.mem_append.1 hc with hc | hc
      · exact isSpace_of_isNumChar (signStr_numChar _ c hc)
      · exact isSpace_of_isNumChar (t1 c hc)

theorem fltStr_ne_nil (x : Flt) (h : IsDouble x) : fltStr x ≠ [] := by
  intro h0
  have := pyFloat_fltStr x h
  rw [h0] at this
  revert this
  rw [show pyFloat [] = none by decide]
  simp

end Verif.Py
