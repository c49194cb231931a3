import Verif.Lemmas.Record

/-! Helper lemmas: Fortran numbers without the exponent letter. -/

set_option linter.unusedSimpArgs false

namespace Verif.Py

/-- `float` of an optional sign and an unsigned literal that starts with a digit
or a point. -/
theorem pyFloat_unsigned {sg s : Str} (hsg : sg = [] ∨ sg = ['-'] ∨ sg = ['+'])
    (hc : ∀ c ∈ s, isSpace c = false ∧ c ≠ '_')
    (hh : ∃ c t, s = c :: t ∧ (isDigit c = true ∨ c = '.')) :
    pyFloat (sg ++ s) = (parseDec s).map (ofDecimal (decide (sg = ['-']))) := by
  obtain ⟨c, t, rfl, hd⟩ := hh
  have hall : ∀ x ∈ sg ++ (c :: t), isSpace x = false ∧ x ≠ '_' := by
    intro x hx
    rcases List.mem_append.1 hx with hx | hx
    · rcases hsg with rfl | rfl | rfl <;> simp at hx <;> subst hx <;> decide
    · exact hc x hx
  have hne : ∀ d : Char, isDigit d = false → d ≠ '.' → c ≠ d := by
    intro d h1 h2
    rcases hd with hd | rfl
    · exact ne_of_isDigit hd h1
    · exact fun h => h2 h.symm
  unfold pyFloat
  rw [strip_eq_self (fun x hx => (hall x hx).1),
    unUnderscore_eq_self (fun x hx => (hall x hx).2)]
  have hsplit : splitSign (sg ++ (c :: t)) = (decide (sg = ['-']), c :: t) := by
    rcases hsg with rfl | rfl | rfl
    · have h1 := hne '-' (by decide) (by decide)
      have h2 := hne '+' (by decide) (by decide)
      simp only [List.nil_append]
      unfold splitSign
      split <;> simp_all
    · rfl
    · rfl
  simp only [hsplit]
  have hlow : lowerC c = c := by
    unfold lowerC
    rw [if_neg]
    rcases hd with hd | rfl
    · have : 48 ≤ c.toNat ∧ c.toNat ≤ 57 := by simpa [isDigit] using hd
      simp; omega
    · decide
  have hl : lower (c :: t) = c :: lower t := by simp [lower, hlow]
  have hi : c ≠ 'i' := hne _ (by decide) (by decide)
  have hn : c ≠ 'n' := hne _ (by decide) (by decide)
  rw [hl, if_neg (by simp [hi]), if_neg (by simp [hn])]

/-- A significand: digits, optionally a point and digits. -/
def signif (a : Str) : Option Str → Str
  | none => a
  | some b => a ++ '.' :: b

theorem parseDec_signif (a : Str) (b : Option Str) (r : Str)
    (ha : ∀ c ∈ a, isDigit c = true) (hb : ∀ s ∈ b, ∀ c ∈ s, isDigit c = true)
    (hne : a ++ b.getD [] ≠ [])
    (hr : ∀ c ∈ r.head?, isDigit c = false ∧ c ≠ '.') :
    parseDec (signif a b ++ r) = (parseExp r).map fun e =>
      (digVal (a ++ b.getD []) : ℚ) * (10 : ℚ) ^ (e - ((b.getD []).length : ℤ)) := by
  have hr1 : ∀ c ∈ r.head?, isDigit c = false := fun c hc => (hr c hc).1
  cases b with
  | none =>
    simp only [signif, Option.getD_none, List.append_nil] at hne ⊢
    unfold parseDec
    rw [takeWhile_append_stop ha hr1, dropWhile_append_stop ha hr1]
    cases r with
    | nil => simp [hne]
    | cons c r =>
      have hc : c ≠ '.' := (hr c (by simp)).2
      simp only []
      split
      · rename_i heq; exact absurd (List.cons.inj heq).1 hc
      · simp [hne]
  | some b =>
    have hb' := hb b rfl
    simp only [signif, Option.getD_some, List.append_assoc, List.cons_append] at hne ⊢
    unfold parseDec
    have hdot : ∀ c ∈ ('.' :: (b ++ r)).head?, isDigit c = false := by
      intro c hc; simp at hc; subst hc; decide
    rw [takeWhile_append_stop ha hdot, dropWhile_append_stop ha hdot]
    simp only
    rw [takeWhile_append_stop hb' hr1, dropWhile_append_stop hb' hr1]
    rw [if_neg]
    intro h
    simp at h
    exact hne (by simp [h])

theorem pyFloat_signif (sg a : Str) (b : Option Str) (r : Str)
    (hsg : sg = [] ∨ sg = ['-'] ∨ sg = ['+'])
    (ha : ∀ c ∈ a, isDigit c = true) (hb : ∀ s ∈ b, ∀ c ∈ s, isDigit c = true)
    (hne : a ++ b.getD [] ≠ [])
    (hr : ∀ c ∈ r.head?, isDigit c = false ∧ c ≠ '.')
    (hrc : ∀ c ∈ r, isSpace c = false ∧ c ≠ '_') :
    pyFloat (sg ++ (signif a b ++ r)) = (parseExp r).map fun e =>
      ofDecimal (decide (sg = ['-']))
        ((digVal (a ++ b.getD []) : ℚ) * (10 : ℚ) ^ (e - ((b.getD []).length : ℤ))) := by
  have hdig : ∀ c : Char, isDigit c = true → isSpace c = false ∧ c ≠ '_' := fun c hc =>
    ⟨isSpace_of_isDigit hc, ne_of_isDigit hc (by decide)⟩
  have hsn : ∀ c ∈ signif a b, isSpace c = false ∧ c ≠ '_' := by
    intro c hc
    cases b with
    | none => exact hdig c (ha c hc)
    | some b =>
      simp only [signif, List.mem_append, List.mem_cons] at hc
      rcases hc with hc | rfl | hc
      · exact hdig c (ha c hc)
      · decide
      · exact hdig c (hb b rfl c hc)
  have hhead : ∃ c t, signif a b ++ r = c :: t ∧ (isDigit c = true ∨ c = '.') := by
    cases a with
    | nil =>
      cases b with
      | none => simp at hne
      | some b => exact ⟨'.', b ++ r, rfl, Or.inr rfl⟩
    | cons c a =>
      cases b with
      | none => exact ⟨c, a ++ r, rfl, Or.inl (ha c (by simp))⟩
      | some b => exact ⟨c, a ++ '.' :: b ++ r, by simp [signif], Or.inl (ha c (by simp))⟩
  rw [pyFloat_unsigned hsg (fun c hc => (List.mem_append.1 hc).elim (hsn c) (hrc c)) hhead,
    parseDec_signif a b r ha hb hne hr, Option.map_map]
  rfl

theorem parseExp_letter (c : Char) (hc : c = 'e' ∨ c = 'E') (neg : Bool) (ex : Str)
    (hex : ex ≠ []) (hexd : ∀ c ∈ ex, isDigit c = true) :
    parseExp (c :: (if neg then '-' else '+') :: ex) =
      some (if neg then -(digVal ex : ℤ) else digVal ex) := by
  have hd : strIsDigit ex = true := strIsDigit_of hex hexd
  simp only [parseExp]
  rw [if_pos hc]
  cases neg <;> simp [splitSign, hd]

theorem parseExp_sign (neg : Bool) (ex : Str) :
    parseExp ((if neg then '-' else '+') :: ex) = none := by
  cases neg <;> simp [parseExp]

end Verif.Py
