import Verif.Lemmas.NumText

/-! Helper lemmas: storing a number twice, and integers in number columns. -/

set_option linter.unusedSimpArgs false
set_option exponentiation.threshold 2000

namespace Verif.Py
open Verif.Spec

theorem quant_fin_eq (p : ℕ) (neg : Bool) {mag : ℚ≥0} (h : mag ≠ 0) :
    quant p (.fin neg mag) = ofDecimal neg (sigVal p mag) := by
  simp [quant, h, sigVal]

theorem sigVal_range (p : ℕ) {q : ℚ} (h1 : (2 : ℚ) ^ (-1021 : ℤ) ≤ q) (h2 : q ≤ 10 ^ 308) :
    minNormal ≤ sigVal p q ∧ rnd64q (sigVal p q) < 2 ^ 1024 ∧ 0 < rnd64q (sigVal p q) := by
  have hq : 0 < q := lt_of_lt_of_le (by positivity) h1
  obtain ⟨h3, h3'⟩ := abs_le.1 (sigVal_relErr p hq)
  have h4 : q / (2 * 10 ^ p) ≤ q / 2 := by
    apply div_le_div_of_nonneg_left hq.le (by norm_num)
    have : (1 : ℚ) ≤ 10 ^ p := one_le_pow₀ (by norm_num)
    linarith
  have h5 : minNormal ≤ sigVal p q := by
    have : minNormal = (2 : ℚ) ^ (-1021 : ℤ) / 2 := by
      unfold minNormal
      rw [eq_div_iff (by norm_num)]
      rw [show (-1021 : ℤ) = -1022 + 1 by norm_num, zpow_add₀ (by norm_num)]; simp
    rw [this]
    generalize (2 : ℚ) ^ (-1021 : ℤ) = a at *
    linarith
  obtain ⟨h6, h6'⟩ := abs_le.1 (rnd64q_err h5)
  have h7 : (2 : ℚ) ^ (-53 : ℤ) ≤ 1 / 100 := by norm_num
  have hs := sigVal_pos p hq
  refine ⟨h5, ?_⟩
  have h8 : sigVal p q * (2 : ℚ) ^ (-53 : ℤ) ≤ sigVal p q / 100 := by
    have := mul_le_mul_of_nonneg_left h7 hs.le
    linarith
  clear h1 h5 h7
  generalize (2 : ℚ) ^ (-53 : ℤ) = t at *
  refine ⟨?_, by linarith⟩
  have h9 : rnd64q (sigVal p q) ≤ 10 ^ 308 * (8 / 5) := by
    have : sigVal p q ≤ 10 ^ 308 * (3 / 2) := by linarith
    linarith
  exact lt_of_le_of_lt h9 (by norm_num)

theorem ofDecimal_sigVal (p : ℕ) (neg : Bool) {q : ℚ} (h1 : (2 : ℚ) ^ (-1021 : ℤ) ≤ q)
    (h2 : q ≤ 10 ^ 308) :
    ofDecimal neg (sigVal p q) = .fin neg (rnd64q (sigVal p q)).toNNRat := by
  have hq : 0 < q := lt_of_lt_of_le (by positivity) h1
  obtain ⟨_, hb, _⟩ := sigVal_range p h1 h2
  unfold ofDecimal
  rw [if_neg (sigVal_pos p hq).ne', if_neg (not_le.2 hb)]

/-- Writing the number that was read gives the same text. -/
theorem fmtE_quant (p : ℕ) (hp : p ≤ 13) (x : Flt) (hx : InRange x) :
    fmtE p (quant p x) = fmtE p x := by
  cases x with
  | nan => rfl
  | inf neg => rfl
  | fin neg mag =>
    by_cases h : mag = 0
    · simp [quant, h, fmtE]
    · have hr : (2 : ℚ) ^ (-1021 : ℤ) ≤ mag ∧ (mag : ℚ) ≤ 10 ^ 308 := by
        rcases hx with hx | hx
        · exact absurd hx h
        · exact hx
      have hpos : (0 : ℚ) < (mag : ℚ) := lt_of_lt_of_le (by positivity) hr.1
      obtain ⟨ha, hb, hc⟩ := sigVal_range p hr.1 hr.2
      rw [quant_fin_eq p neg h, ofDecimal_sigVal p neg hr.1 hr.2]
      have hne : (rnd64q (sigVal p mag)).toNNRat ≠ 0 := by
        rw [ne_eq, Rat.toNNRat_eq_zero]; linarith
      simp only [fmtE, hne, if_false, h, Rat.coe_toNNRat _ hc.le]
      have := roundSig_rnd64 p hp (roundSig_bounds p hpos).1 (roundSig_bounds p hpos).2
        (e := (roundSig p mag).2) ha
      unfold sigVal
      rw [this]

/-- Storing twice is storing once. -/
theorem quant_quant (p : ℕ) (hp : p ≤ 13) (x : Flt) (hx : InRange x) :
    quant p (quant p x) = quant p x := by
  have h1 := pyFloat_fmtE p (quant p x)
  rw [fmtE_quant p hp x hx, pyFloat_fmtE] at h1
  exact (Option.some.inj h1).symm

/-! ### integers in number columns -/

theorem rnd64q_nat {n : ℕ} (h0 : n ≠ 0) (h : n < 2 ^ 53) : rnd64q (n : ℚ) = n := by
  have hlog : Int.log 2 (n : ℚ) = Nat.log 2 n := Int.log_natCast 2 n
  have hl : Nat.log 2 n < 53 := Nat.log_lt_of_lt_pow h0 h
  unfold rnd64q
  simp only [hlog]
  rw [max_eq_left (by omega)]
  obtain ⟨k, hk⟩ : ∃ k : ℕ, (k : ℤ) = -((Nat.log 2 n : ℤ) - 52) :=
    ⟨(52 - Nat.log 2 n), by omega⟩
  rw [← hk]
  have : ((Nat.log 2 n : ℤ) - 52) = -(k : ℤ) := by omega
  rw [this]
  have h2 : (n : ℚ) * (2 : ℚ) ^ (k : ℤ) = ((n * 2 ^ k : ℕ) : ℚ) := by
    rw [zpow_natCast]; push_cast; ring
  rw [h2, rhe_nat, zpow_neg, zpow_natCast]
  push_cast
  field_simp

theorem ofDecimal_nat (neg : Bool) {n : ℕ} (h : n < 2 ^ 53) :
    ofDecimal neg (n : ℚ) = .fin neg (n : ℚ≥0) := by
  by_cases h0 : n = 0
  · subst h0; simp [ofDecimal]
  · unfold ofDecimal
    have hn0 : (n : ℚ) ≠ 0 := by exact_mod_cast h0
    rw [if_neg hn0, rnd64q_nat h0 h, if_neg]
    · congr 1
      apply NNRat.coe_injective
      rw [Rat.coe_toNNRat _ (by positivity)]; simp
    · push Not
      have : (n : ℚ) < (2 : ℚ) ^ 53 := by exact_mod_cast h
      exact this.trans (by norm_num)

theorem stripZeros_point_zeros {t : Str} (d : ℕ) :
    stripZeros (t ++ '.' :: List.replicate d '0') = t := by
  unfold stripZeros
  have : (t ++ '.' :: List.replicate d '0').reverse =
      List.replicate d '0' ++ ('.' :: t.reverse) := by simp
  rw [this, dropWhile_append_stop (by intro c hc; rw [List.eq_of_mem_replicate hc]; rfl)
    (by intro c hc; simp at hc; subst hc; decide)]
  simp

theorem padDigits_zero (d : ℕ) : padDigits d 0 = List.replicate d '0' := by
  induction d with
  | zero => rfl
  | succ d ih =>
    rw [padDigits, Nat.zero_div, ih, List.replicate_succ']; rfl

/-- An integer of at most six digits is printed exactly by `format(i, 'g')`. -/
theorem fmtG_int {i : ℤ} (h : i.natAbs < 10 ^ 6) : fmtG (fltOfInt i) = intStr i := by
  have h53 : i.natAbs < 2 ^ 53 := lt_trans h (by norm_num)
  unfold fltOfInt
  rw [ofDecimal_nat _ h53]
  by_cases h0 : i.natAbs = 0
  · have : i = 0 := by omega
    subst this
    rfl
  · have hne : ((i.natAbs : ℕ) : ℚ≥0) ≠ 0 := by exact_mod_cast h0
    set n := i.natAbs with hn
    have hsign : signStr (decide (i < 0)) = (if i < 0 then ['-'] else []) := by
      unfold signStr; simp
    have hlog : Int.log 10 ((n : ℚ≥0) : ℚ) = Nat.log 10 n := by
      push_cast; exact Int.log_natCast 10 n
    have hl : Nat.log 10 n < 6 := Nat.log_lt_of_lt_pow h0 h
    obtain ⟨d, hd⟩ : ∃ d : ℕ, d = 5 - Nat.log 10 n := ⟨_, rfl⟩
    have hd' : ((5 : ℕ) : ℤ) - (Nat.log 10 n : ℤ) = (d : ℤ) := by omega
    have hr : roundSig 5 ((n : ℚ≥0) : ℚ) = (n * 10 ^ d, (Nat.log 10 n : ℤ)) := by
      unfold roundSig
      simp only [hlog]
      rw [hd']
      have : ((n : ℚ≥0) : ℚ) * (10 : ℚ) ^ (d : ℤ) = ((n * 10 ^ d : ℕ) : ℚ) := by
        rw [zpow_natCast]; push_cast; ring
      rw [this, rhe_nat, if_neg]
      have h1 : n < 10 ^ (Nat.log 10 n + 1) := Nat.lt_pow_succ_log_self (by norm_num) n
      have h2 : n * 10 ^ d < 10 ^ (Nat.log 10 n + 1) * 10 ^ d :=
        Nat.mul_lt_mul_of_pos_right h1 (by positivity)
      rw [← pow_add] at h2
      have : Nat.log 10 n + 1 + d = 5 + 1 := by omega
      rw [this] at h2
      omega
    have hdt : ((5 : ℤ) - (Nat.log 10 n : ℤ)).toNat = d := by omega
    simp only [fmtG, hne, if_false, hr]
    rw [if_pos (by omega), hdt, Nat.mul_div_cancel _ (by positivity), Nat.mul_mod_left,
      padDigits_zero]
    unfold intStr
    rw [hsign]
    congr 1
    split_ifs with hd0
    · rfl
    · exact stripZeros_point_zeros _

theorem natStr_isDigit (n : ℕ) : ∀ c ∈ natStr n, isDigit c = true := padDigits_isDigit _ _

theorem natStr_ne_nil (n : ℕ) : natStr n ≠ [] := by
  intro h
  have := congrArg List.length h
  simp [natStr, numDigits] at this

theorem intStr_numChar (i : ℤ) : ∀ c ∈ intStr i, isNumChar c = true := by
  intro c hc
  rcases List.mem_append.1 hc with hc | hc
  · split at hc
    · simp at hc; subst hc; decide
    · simp at hc
  · exact isNumChar_of_isDigit (natStr_isDigit _ _ hc)

theorem pyInt_intStr (i : ℤ) : pyInt (intStr i) = some i := by
  unfold pyInt
  rw [strip_eq_self (fun c hc => isSpace_of_isNumChar (intStr_numChar i c hc)),
    unUnderscore_eq_self (fun c hc => ne_underscore_of_isNumChar (intStr_numChar i c hc))]
  have hd : strIsDigit (natStr i.natAbs) = true := strIsDigit_of (natStr_ne_nil _) (natStr_isDigit _)
  by_cases hi : i < 0
  · simp only [intStr, hi, if_true, List.singleton_append, splitSign, hd, digVal_natStr]
    congr 1; omega
  · have hs : splitSign (natStr i.natAbs) = (false, natStr i.natAbs) :=
      splitSign_digit (fun c hc => natStr_isDigit _ c (List.mem_of_mem_head? hc))
    simp only [intStr, hi, if_false, List.nil_append, hs, hd, digVal_natStr]
    simp; omega

/-! ### integers in an `f` column -/

theorem fltOfInt_eq {i : ℤ} (h : i.natAbs < 10 ^ 6) :
    fltOfInt i = .fin (decide (i < 0)) (i.natAbs : ℚ≥0) :=
  ofDecimal_nat _ (lt_trans h (by norm_num))

theorem fmtF_nat (p : ℕ) (neg : Bool) (n : ℕ) :
    fmtF p (.fin neg (n : ℚ≥0)) =
      signStr neg ++ (natStr n ++ (if p = 0 then [] else '.' :: List.replicate p '0')) := by
  have h : (((n : ℚ≥0) : ℚ)) * 10 ^ p = ((n * 10 ^ p : ℕ) : ℚ) := by push_cast; ring
  simp only [fmtF, h, rhe_nat]
  rw [Nat.mul_div_cancel _ (by positivity), Nat.mul_mod_left, padDigits_zero, List.append_assoc]

theorem digVal_zeros (p : ℕ) : digVal (List.replicate p '0') = 0 := by
  rw [← padDigits_zero, digVal_padDigits, Nat.zero_mod]

theorem parseDec_fixed (n p : ℕ) :
    parseDec (natStr n ++ (if p = 0 then [] else '.' :: List.replicate p '0')) = some (n : ℚ) := by
  have hz : ∀ c ∈ List.replicate p '0', isDigit c = true := by
    intro c hc; rw [List.eq_of_mem_replicate hc]; decide
  have hne : (natStr n).isEmpty = false := by
    cases h : natStr n with
    | nil => exact absurd h (natStr_ne_nil n)
    | cons => rfl
  by_cases hp : p = 0
  · subst hp
    have h1 := takeWhile_append_stop (p := isDigit) (a := natStr n) (r := []) (natStr_isDigit n)
      (by simp)
    have h2 := dropWhile_append_stop (p := isDigit) (a := natStr n) (r := []) (natStr_isDigit n)
      (by simp)
    simp only [if_true, parseDec, h1, h2]
    simp [hne, parseExp, digVal_natStr]
  · have hdot : ∀ c ∈ ('.' :: List.replicate p '0').head?, isDigit c = false := by
      intro c hc; simp at hc; subst hc; decide
    have h1 := takeWhile_append_stop (p := isDigit) (natStr_isDigit n) hdot
    have h2 := dropWhile_append_stop (p := isDigit) (natStr_isDigit n) hdot
    have h3 := takeWhile_append_stop (p := isDigit) (r := []) hz (by simp)
    have h4 := dropWhile_append_stop (p := isDigit) (r := []) hz (by simp)
    rw [List.append_nil] at h3 h4
    simp only [hp, if_false, parseDec, h1, h2, h3, h4, hne, Bool.false_and, Bool.false_eq_true,
      parseExp, Option.map_some, digVal_append, digVal_natStr, digVal_zeros]
    simp

/-- An integer of at most six digits printed with `format(i, '.pf')` reads back
as itself. -/
theorem pyFloat_fmtF_int {i : ℤ} (h : i.natAbs < 10 ^ 6) (p : ℕ) :
    pyFloat (fmtF p (fltOfInt i)) = some (fltOfInt i) := by
  rw [fltOfInt_eq h, fmtF_nat]
  have h53 : i.natAbs < 2 ^ 53 := lt_trans h (by norm_num)
  rw [← ofDecimal_nat _ h53]
  apply pyFloat_signed
  · intro c hc
    rcases List.mem_append.1 hc with hc | hc
    · exact isNumChar_of_isDigit (natStr_isDigit _ c hc)
    · split at hc
      · simp at hc
      · rcases List.mem_cons.1 hc with rfl | hc
        · decide
        · rw [List.eq_of_mem_replicate hc]; decide
  · cases hs : natStr i.natAbs with
    | nil => exact absurd hs (natStr_ne_nil _)
    | cons c t => exact ⟨c, _, rfl, natStr_isDigit i.natAbs c (by rw [hs]; simp)⟩
  · exact parseDec_fixed _ _

theorem fmtF_int_numChar {i : ℤ} (h : i.natAbs < 10 ^ 6) (p : ℕ) :
    ∀ c ∈ fmtF p (fltOfInt i), isNumChar c = true := by
  rw [fltOfInt_eq h, fmtF_nat]
  intro c hc
  rcases List.mem_append.1 hc with hc | hc
  · exact signStr_numChar _ c hc
  rcases List.mem_append.1 hc with hc | hc
  · exact isNumChar_of_isDigit (natStr_isDigit _ c hc)
  · split at hc
    · simp at hc
    · rcases List.mem_cons.1 hc with rfl | hc
      · decide
      · rw [List.eq_of_mem_replicate hc]; decide

theorem fmtF_int_ne_nil {i : ℤ} (h : i.natAbs < 10 ^ 6) (p : ℕ) : fmtF p (fltOfInt i) ≠ [] := by
  rw [fltOfInt_eq h, fmtF_nat]
  simp [natStr_ne_nil]

end Verif.Py

/-! ### nearest decimals and accuracy -/

namespace Verif.Py
open Verif.Spec

theorem rhe_nearest {q : ℚ} (hq : 0 ≤ q) (n : ℕ) : |(rhe q : ℚ) - q| ≤ |(n : ℚ) - q| := by
  by_cases h : n = rhe q
  · rw [h]
  · have h1 := rhe_err hq
    have h2 : (1 : ℤ) ≤ |(n : ℤ) - rhe q| := by
      apply Int.one_le_abs; omega
    have h3 : (1 : ℚ) ≤ |(n : ℚ) - rhe q| := by exact_mod_cast h2
    have h4 : |(n : ℚ) - rhe q| ≤ |(n : ℚ) - q| + |(rhe q : ℚ) - q| := by
      have := abs_sub_le (n : ℚ) q (rhe q)
      rwa [abs_sub_comm q] at this
    linarith

theorem sigVal_nearest (p : ℕ) {q : ℚ} (hq : 0 < q) (m : ℕ) (k : ℤ) (hm : m ≤ 10 ^ (p + 1)) :
    |sigVal p q - q| ≤ |(m : ℚ) * (10 : ℚ) ^ k - q| := by
  set e := Int.log 10 q with he
  set u := (10 : ℚ) ^ (e - (p : ℤ)) with hu
  have hupos : 0 < u := by rw [hu]; positivity
  have hmul : ∀ n : ℕ, |sigVal p q - q| ≤ |(n : ℚ) * u - q| := by
    intro n
    have h0 : (0 : ℚ) ≤ q * (10 : ℚ) ^ ((p : ℤ) - e) := by positivity
    have h1 := rhe_nearest h0 n
    have hv : (10 : ℚ) ^ ((p : ℤ) - e) = u⁻¹ := by rw [hu, ← zpow_neg]; congr 1; ring
    rw [sigVal_eq]
    rw [hv] at h1 ⊢
    have e1 : ((rhe (q * u⁻¹) : ℚ)) * u - q = ((rhe (q * u⁻¹) : ℚ) - q * u⁻¹) * u := by
      field_simp
    have e2 : (n : ℚ) * u - q = ((n : ℚ) - q * u⁻¹) * u := by field_simp
    rw [e1, e2, abs_mul, abs_mul]
    exact mul_le_mul_of_nonneg_right h1 (abs_nonneg _)
  by_cases hk : e - (p : ℤ) ≤ k
  · obtain ⟨j, hj⟩ : ∃ j : ℕ, (j : ℤ) = k - (e - p) := ⟨(k - (e - p)).toNat, by omega⟩
    have : (m : ℚ) * (10 : ℚ) ^ k = ((m * 10 ^ j : ℕ) : ℚ) * u := by
      have : k = (j : ℤ) + (e - p) := by omega
      rw [this, zpow_add₀ (by norm_num), zpow_natCast]; push_cast; ring
    rw [this]; exact hmul _
  · push Not at hk
    have hlow : (m : ℚ) * (10 : ℚ) ^ k ≤ (10 : ℚ) ^ e := by
      have h1 : (m : ℚ) ≤ 10 ^ (p + 1) := by exact_mod_cast hm
      have h2 : (10 : ℚ) ^ k ≤ (10 : ℚ) ^ (e - p - 1) := zpow_le_zpow_right₀ (by norm_num) (by omega)
      calc (m : ℚ) * (10 : ℚ) ^ k ≤ 10 ^ (p + 1) * (10 : ℚ) ^ (e - p - 1) := by gcongr
        _ = (10 : ℚ) ^ e := by
          rw [← zpow_natCast, ← zpow_add₀ (by norm_num)]; congr 1; push_cast; ring
    have hle : (10 : ℚ) ^ e ≤ q := by
      have := (log_bounds (b := 10) (by norm_num) hq).1
      push_cast at this; exact this
    have h3 := hmul (10 ^ p)
    have h4 : ((10 ^ p : ℕ) : ℚ) * u = (10 : ℚ) ^ e := by
      rw [hu]; push_cast; rw [← zpow_natCast, ← zpow_add₀ (by norm_num)]; congr 1; ring
    rw [h4] at h3
    refine le_trans h3 ?_
    rw [abs_sub_comm, abs_sub_comm _ q, abs_of_nonneg (by linarith), abs_of_nonneg (by linarith)]
    linarith

theorem quant_accuracy (p : ℕ) (neg : Bool) (mag : ℚ≥0) (h : InRange (.fin neg mag)) :
    ∃ mag' : ℚ≥0, quant p (.fin neg mag) = .fin neg mag' ∧
      |(mag' : ℚ) - mag| ≤ mag * (1 / (2 * 10 ^ p) + (2 : ℚ) ^ (-52 : ℤ)) := by
  rcases h with h | ⟨h1, h2⟩
  · subst h; exact ⟨0, by simp [quant], by simp⟩
  · have hpos : (0 : ℚ) < (mag : ℚ) := lt_of_lt_of_le (by positivity) h1
    have hne : mag ≠ 0 := by rintro rfl; simp at hpos
    obtain ⟨ha, hb, hc⟩ := sigVal_range p h1 h2
    refine ⟨(rnd64q (sigVal p mag)).toNNRat, ?_, ?_⟩
    · rw [quant_fin_eq p neg hne, ofDecimal_sigVal p neg h1 h2]
    · rw [Rat.coe_toNNRat _ hc.le]
      have e1 := rnd64q_err ha
      have e2 := sigVal_relErr p hpos
      have e3 : sigVal p mag ≤ 2 * mag := by
        have h4 : (mag : ℚ) / (2 * 10 ^ p) ≤ mag := by
          apply div_le_self hpos.le
          have : (1 : ℚ) ≤ 10 ^ p := one_le_pow₀ (by norm_num)
          linarith
        have := (abs_le.1 e2).2
        linarith
      have e4 : (2 : ℚ) ^ (-52 : ℤ) = 2 * (2 : ℚ) ^ (-53 : ℤ) := by norm_num
      have e5 : (0 : ℚ) < (2 : ℚ) ^ (-53 : ℤ) := by positivity
      calc |rnd64q (sigVal p mag) - mag|
          ≤ |rnd64q (sigVal p mag) - sigVal p mag| + |sigVal p mag - mag| := abs_sub_le _ _ _
        _ ≤ sigVal p mag * (2 : ℚ) ^ (-53 : ℤ) + mag / (2 * 10 ^ p) := add_le_add e1 e2
        _ ≤ 2 * mag * (2 : ℚ) ^ (-53 : ℤ) + mag / (2 * 10 ^ p) := by gcongr
        _ = mag * (1 / (2 * 10 ^ p) + (2 : ℚ) ^ (-52 : ℤ)) := by rw [e4]; ring

end Verif.Py
