import Verif.Lemmas.Num
import Verif.Spec.Quant

/-! Helper lemmas: parsing the text of formatted numbers. -/

set_option linter.unusedSimpArgs false

namespace Verif.Py
open Verif.Spec

theorem unUnderscore_eq_self {s : Str} (h : ∀ c ∈ s, c ≠ '_') (b : Bool) :
    unUnderscore b s = some s := by
  induction s generalizing b with
  | nil => simp [unUnderscore]
  | cons c s ih =>
    have hc : c ≠ '_' := h c (by simp)
    have ih' := fun b => ih (fun c hc => h c (by simp [hc])) b
    unfold unUnderscore
    split
    · rename_i heq; simp_all
    · rename_i heq; simp_all
    · rename_i heq; simp_all
    · rename_i heq
      obtain ⟨rfl, rfl⟩ := List.cons.inj heq
      rw [ih' _]; rfl

theorem takeWhile_append_stop {p : Char → Bool} {a r : Str} (ha : ∀ c ∈ a, p c = true)
    (hr : ∀ c ∈ r.head?, p c = false) : (a ++ r).takeWhile p = a := by
  induction a with
  | nil =>
    cases r with
    | nil => rfl
    | cons c r => simp [List.takeWhile, hr c (by simp)]
  | cons c a ih =>
    have : p c = true := ha c (by simp)
    simp [List.takeWhile, this, ih (fun c hc => ha c (by simp [hc]))]

theorem dropWhile_append_stop {p : Char → Bool} {a r : Str} (ha : ∀ c ∈ a, p c = true)
    (hr : ∀ c ∈ r.head?, p c = false) : (a ++ r).dropWhile p = r := by
  induction a with
  | nil =>
    cases r with
    | nil => rfl
    | cons c r => simp [List.dropWhile, hr c (by simp)]
  | cons c a ih =>
    have : p c = true := ha c (by simp)
    simp [List.dropWhile, this, ih (fun c hc => ha c (by simp [hc]))]

theorem strIsDigit_of {s : Str} (h0 : s ≠ []) (h : ∀ c ∈ s, isDigit c = true) :
    strIsDigit s = true := by
  simp only [strIsDigit, Bool.and_eq_true, List.all_eq_true]
  exact ⟨by cases s <;> simp_all, h⟩

theorem numDigits_spec (n : ℕ) : n < 10 ^ numDigits n := Nat.lt_pow_succ_log_self (by norm_num) n

theorem digVal_natStr (n : ℕ) : digVal (natStr n) = n := by
  rw [natStr, digVal_padDigits, Nat.mod_eq_of_lt (numDigits_spec n)]

theorem splitSign_digit {s : Str} (h : ∀ c ∈ s.head?, isDigit c = true) :
    splitSign s = (false, s) := by
  cases s with
  | nil => rfl
  | cons c s =>
    have hc := h c (by simp)
    have h1 : c ≠ '-' := ne_of_isDigit hc (by decide)
    have h2 : c ≠ '+' := ne_of_isDigit hc (by decide)
    unfold splitSign
    split <;> simp_all

theorem parseExp_expStr (e : ℤ) : parseExp (expStr e) = some e := by
  unfold expStr parseExp
  simp only [true_or, if_true]
  set d := padDigits (max 2 (numDigits e.natAbs)) e.natAbs with hd
  have hlen : d.length = max 2 (numDigits e.natAbs) := by simp [hd]
  have hd1 : strIsDigit d = true :=
    strIsDigit_of (by intro h; rw [h] at hlen; simp at hlen; omega) (padDigits_isDigit _ _)
  have hd2 : digVal d = e.natAbs := by
    rw [hd, digVal_padDigits, Nat.mod_eq_of_lt]
    exact lt_of_lt_of_le (numDigits_spec _) (Nat.pow_le_pow_right (by norm_num) (le_max_right _ _))
  by_cases he : e < 0
  · simp only [he, if_true, splitSign, hd1, hd2]
    congr 1; omega
  · simp only [he, if_false, splitSign, hd1, hd2]
    simp; omega

theorem parseDec_mant (p m : ℕ) (e : ℤ) (hm : m < 10 ^ (p + 1)) :
    parseDec (mantStr p m ++ expStr e) = some ((m : ℚ) * (10 : ℚ) ^ (e - (p : ℤ))) := by
  have hd0 : m / 10 ^ p < 10 := by
    rw [Nat.div_lt_iff_lt_mul (by positivity)]; rw [pow_succ] at hm; linarith
  have hdig : isDigit (digitChar (m / 10 ^ p)) = true := isDigit_digitChar hd0
  have hexph : ∀ c ∈ (expStr e).head?, isDigit c = false := by
    intro c hc; simp [expStr] at hc; subst hc; decide
  have hv0 : digVal [digitChar (m / 10 ^ p)] = m / 10 ^ p := by
    simp [digVal, digitVal_digitChar hd0]
  unfold parseDec
  by_cases hp : p = 0
  · subst hp
    have hs : mantStr 0 m ++ expStr e = [digitChar (m / 10 ^ 0)] ++ expStr e := by
      simp [mantStr]
    rw [hs, takeWhile_append_stop (by simpa using hdig) hexph,
      dropWhile_append_stop (by simpa using hdig) hexph]
    have hpe := parseExp_expStr e
    obtain ⟨t, ht⟩ : ∃ t, expStr e = 'e' :: t := ⟨_, rfl⟩
    rw [ht] at hpe ⊢
    simp [hpe] at hv0 ⊢
    rw [hv0]
    simp
  · have hs : mantStr p m ++ expStr e =
        [digitChar (m / 10 ^ p)] ++ ('.' :: (padDigits p (m % 10 ^ p) ++ expStr e)) := by
      simp [mantStr, hp]
    have hdot : ∀ c ∈ ('.' :: (padDigits p (m % 10 ^ p) ++ expStr e)).head?, isDigit c = false := by
      intro c hc; simp at hc; subst hc; decide
    rw [hs, takeWhile_append_stop (by simpa using hdig) hdot,
      dropWhile_append_stop (by simpa using hdig) hdot]
    simp only
    rw [takeWhile_append_stop (padDigits_isDigit _ _) hexph,
      dropWhile_append_stop (padDigits_isDigit _ _) hexph, parseExp_expStr]
    simp only [List.isEmpty_cons, Bool.false_and, Bool.false_eq_true, if_false, Option.map_some]
    rw [digVal_append, hv0, digVal_padDigits]
    simp only [padDigits_length, Nat.mod_mod]
    have : m / 10 ^ p * 10 ^ p + m % 10 ^ p = m := Nat.div_add_mod' m _
    rw [this]

/-! ### characters of formatted numbers -/

/-- Characters occurring in formatted finite numbers. -/
def isNumChar (c : Char) : Bool := isDigit c || c == '.' || c == 'e' || c == '+' || c == '-'

theorem isSpace_of_isNumChar {c : Char} (h : isNumChar c = true) : isSpace c = false := by
  simp only [isNumChar, Bool.or_eq_true, beq_iff_eq] at h
  rcases h with (((h | rfl) | rfl) | rfl) | rfl
  · exact isSpace_of_isDigit h
  all_goals decide

theorem ne_underscore_of_isNumChar {c : Char} (h : isNumChar c = true) : c ≠ '_' := by
  rintro rfl; revert h; decide

theorem isNumChar_of_isDigit {c : Char} (h : isDigit c = true) : isNumChar c = true := by
  simp [isNumChar, h]

theorem expStr_numChar (e : ℤ) : ∀ c ∈ expStr e, isNumChar c = true := by
  intro c hc
  simp only [expStr, List.mem_cons] at hc
  rcases hc with rfl | rfl | hc
  · decide
  · split <;> decide
  · exact isNumChar_of_isDigit (padDigits_isDigit _ _ _ hc)

theorem mantStr_numChar {p m : ℕ} (hm : m < 10 ^ (p + 1)) : ∀ c ∈ mantStr p m, isNumChar c = true := by
  have hd0 : m / 10 ^ p < 10 := by
    rw [Nat.div_lt_iff_lt_mul (by positivity)]; rw [pow_succ] at hm; linarith
  intro c hc
  simp only [mantStr, List.mem_cons] at hc
  rcases hc with rfl | hc
  · exact isNumChar_of_isDigit (isDigit_digitChar hd0)
  · split at hc
    · simp at hc
    · simp only [List.mem_cons] at hc
      rcases hc with rfl | hc
      · decide
      · exact isNumChar_of_isDigit (padDigits_isDigit _ _ _ hc)

theorem signStr_numChar (neg : Bool) : ∀ c ∈ signStr neg, isNumChar c = true := by
  cases neg
  · simp [signStr]
  · intro c hc; simp [signStr] at hc; subst hc; decide

theorem fmtE_fin_numChar (p : ℕ) (neg : Bool) (mag : ℚ≥0) :
    ∀ c ∈ fmtE p (.fin neg mag), isNumChar c = true := by
  intro c hc
  simp only [fmtE] at hc
  split at hc
  · simp only [List.mem_append] at hc
    rcases hc with (hc | hc) | hc
    · exact signStr_numChar _ _ hc
    · exact mantStr_numChar (by positivity) _ hc
    · exact expStr_numChar _ _ hc
  · rename_i hmag
    have hpos : (0 : ℚ) < (mag : ℚ) := by
      have : 0 < mag := pos_iff_ne_zero.2 hmag
      exact_mod_cast this
    simp only [List.mem_append] at hc
    rcases hc with (hc | hc) | hc
    · exact signStr_numChar _ _ hc
    · exact mantStr_numChar (roundSig_bounds p hpos).2 _ hc
    · exact expStr_numChar _ _ hc

theorem fmtE_nospace (p : ℕ) (x : Flt) : ∀ c ∈ fmtE p x, isSpace c = false := by
  cases x with
  | nan => simp only [fmtE]; decide
  | inf neg => cases neg <;> (simp only [fmtE]; decide)
  | fin neg mag => intro c hc; exact isSpace_of_isNumChar (fmtE_fin_numChar p neg mag c hc)

/-- Parsing an unsigned literal that starts with a digit, with a sign in front. -/
theorem pyFloat_signed {neg : Bool} {s : Str} {q : ℚ}
    (hc : ∀ c ∈ s, isNumChar c = true) (hh : ∃ c t, s = c :: t ∧ isDigit c = true)
    (hq : parseDec s = some q) : pyFloat (signStr neg ++ s) = some (ofDecimal neg q) := by
  obtain ⟨c, t, rfl, hd⟩ := hh
  have hall : ∀ x ∈ signStr neg ++ (c :: t), isNumChar x = true := by
    intro x hx
    rcases List.mem_append.1 hx with hx | hx
    · exact signStr_numChar _ _ hx
    · exact hc x hx
  unfold pyFloat
  rw [strip_eq_self (fun x hx => isSpace_of_isNumChar (hall x hx)),
    unUnderscore_eq_self (fun x hx => ne_underscore_of_isNumChar (hall x hx))]
  have hsplit : splitSign (signStr neg ++ (c :: t)) = (neg, c :: t) := by
    cases neg
    · simpa [signStr] using splitSign_digit (s := c :: t) (by simpa using hd)
    · rfl
  simp only [hsplit]
  have hlow : lowerC c = c := by
    have : 48 ≤ c.toNat ∧ c.toNat ≤ 57 := by simpa [isDigit] using hd
    unfold lowerC
    rw [if_neg]; simp; omega
  have hl : lower (c :: t) = c :: lower t := by simp [lower, hlow]
  have hi : c ≠ 'i' := ne_of_isDigit hd (by decide)
  have hn : c ≠ 'n' := ne_of_isDigit hd (by decide)
  rw [hl, if_neg (by simp [hi]), if_neg (by simp [hn]), hq]
  rfl

theorem mantStr_head {p m : ℕ} (hm : m < 10 ^ (p + 1)) (r : Str) :
    ∃ c t, mantStr p m ++ r = c :: t ∧ isDigit c = true := by
  have hd0 : m / 10 ^ p < 10 := by
    rw [Nat.div_lt_iff_lt_mul (by positivity)]; rw [pow_succ] at hm; linarith
  refine ⟨_, _, rfl, isDigit_digitChar hd0⟩

theorem pyFloat_mant (neg : Bool) (p m : ℕ) (e : ℤ) (hm : m < 10 ^ (p + 1)) :
    pyFloat (signStr neg ++ (mantStr p m ++ expStr e)) =
      some (ofDecimal neg ((m : ℚ) * (10 : ℚ) ^ (e - (p : ℤ)))) := by
  apply pyFloat_signed
  · intro c hc
    rcases List.mem_append.1 hc with hc | hc
    · exact mantStr_numChar hm _ hc
    · exact expStr_numChar _ _ hc
  · exact mantStr_head hm _
  · exact parseDec_mant p m e hm

/-- Reading a formatted number gives the number its column can hold. -/
theorem pyFloat_fmtE (p : ℕ) (x : Flt) : pyFloat (fmtE p x) = some (quant p x) := by
  cases x with
  | nan => simp only [fmtE, quant]; rfl
  | inf neg => cases neg <;> (simp only [fmtE, quant]; rfl)
  | fin neg mag =>
    by_cases h : mag = 0
    · simp only [fmtE, quant, h, if_true, List.append_assoc]
      rw [pyFloat_mant neg p 0 0 (by positivity)]
      simp [ofDecimal]
    · have hpos : (0 : ℚ) < (mag : ℚ) := by
        have : 0 < mag := pos_iff_ne_zero.2 h
        exact_mod_cast this
      simp only [fmtE, quant, h, if_false, List.append_assoc]
      exact pyFloat_mant _ _ _ _ (roundSig_bounds p hpos).2

end Verif.Py
