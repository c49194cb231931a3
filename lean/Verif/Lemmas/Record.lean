import Verif.Spec.Record
import Verif.Model.Formats
import Verif.Lemmas.NumStable

/-! Helper lemmas about records. -/

set_option linter.unusedSimpArgs false

namespace Verif.Model
open Verif.Py Verif.Spec

theorem fmtE_ne_nil (p : ℕ) (x : Flt) : fmtE p x ≠ [] := by
  cases x with
  | nan => simp [fmtE]
  | inf neg => simp [fmtE]
  | fin neg mag => simp only [fmtE]; split <;> simp [expStr]

theorem str2float_fmtE (p : ℕ) (x : Flt) : str2float (fmtE p x) = .ok (quant p x) := by
  unfold str2float; rw [pyFloat_fmtE]

theorem strip_fmtE (w p : ℕ) (x : Flt) : strip (padLeft w (fmtE p x)) = fmtE p x := by
  rw [strip_padLeft, strip_eq_self (fmtE_nospace p x)]

theorem strip_intStr (w : ℕ) (i : ℤ) : strip (padLeft w (intStr i)) = intStr i := by
  rw [strip_padLeft, strip_eq_self (fun c hc => isSpace_of_isNumChar (intStr_numChar i c hc))]

theorem intStr_ne_nil (i : ℤ) : intStr i ≠ [] := by
  simp [intStr, natStr_ne_nil]

theorem strip_padLeft_nil (w : ℕ) : strip (padLeft w []) = [] := by
  rw [strip_padLeft]; rfl

/-- Writing one fitting value fills its column and reading the column gives the
stored value. -/
theorem toStr_field (t : Tok) (v : Val) (h : Fits t v) :
    ∃ a, toStr t v = .ok a ∧ a.length = t.w ∧ readField t a = .ok (stored t v) := by
  obtain ⟨k, w, p⟩ := t
  cases v with
  | none =>
    simp only [Fits] at h
    refine ⟨blanks w, ?_, by simp, ?_⟩
    · cases k <;> simp_all [toStr]
    · cases k <;> simp_all [readField, stored, strip_blanks]
      all_goals (by_cases hw : w = 0 <;> simp [hw, blanks])
  | str s =>
    cases k <;> simp only [Fits] at h
    · obtain ⟨h1, h2⟩ := h
      refine ⟨padRight w s, by simp [toStr, List.take_of_length_le h1],
        by simp [padRight_length, h1], ?_⟩
      simp only [readField, strip_padRight, h2, stored]
      by_cases hs : s = [] <;> simp [hs]
    · obtain ⟨h1, h2⟩ := h
      refine ⟨padRight w s, by simp [toStr, List.take_of_length_le h1.le],
        by simp [padRight_length, h1], ?_⟩
      have : padRight w s = s := by simp [padRight, h1, blanks]
      simp [readField, this, h2, stored]
    · subst h
      refine ⟨padLeft w [], by simp [toStr], by simp [padLeft_length], ?_⟩
      simp [readField, strip_padLeft_nil, stored]
    · subst h
      refine ⟨padLeft w [], by simp [toStr], by simp [padLeft_length], ?_⟩
      simp [readField, strip_padLeft_nil, stored]
  | bool b =>
    cases k <;> simp only [Fits] at h
    have h6 : (if b then (1 : ℤ) else 0).natAbs < 10 ^ 6 := by cases b <;> norm_num
    refine ⟨padLeft w (intStr (if b then 1 else 0)), by simp [toStr, fmtG_int h6],
      by simp only [padLeft_length]; omega, ?_⟩
    simp [readField, strip_intStr, intStr_ne_nil, pyInt_intStr, stored]
  | int i =>
    cases k <;> simp only [Fits] at h
    · obtain ⟨h1, h2⟩ := h
      refine ⟨padLeft w (intStr i), by simp [toStr, fmtG_int h2],
        by simp only [padLeft_length]; omega, ?_⟩
      simp [readField, strip_intStr, intStr_ne_nil, pyInt_intStr, stored]
    · obtain ⟨h1, h2⟩ := h
      refine ⟨padLeft w (fmtF p (fltOfInt i)), by simp [toStr],
        by simp only [padLeft_length]; omega, ?_⟩
      have h3 : strip (padLeft w (fmtF p (fltOfInt i))) = fmtF p (fltOfInt i) := by
        rw [strip_padLeft, strip_eq_self
          (fun c hc => isSpace_of_isNumChar (fmtF_int_numChar h2 p c hc))]
      simp [readField, h3, fmtF_int_ne_nil h2, str2float, pyFloat_fmtF_int h2, stored]
      rfl
    · refine ⟨padLeft w (fmtE p (fltOfInt i)), by simp [toStr],
        by simp only [padLeft_length]; omega, ?_⟩
      simp [readField, strip_fmtE, fmtE_ne_nil, str2float_fmtE, stored]
      rfl
  | flt x =>
    cases k <;> simp only [Fits] at h
    refine ⟨padLeft w (fmtE p x), by simp [toStr],
      by simp only [padLeft_length]; omega, ?_⟩
    simp [readField, strip_fmtE, fmtE_ne_nil, str2float_fmtE, stored]
    rfl

theorem slice_mid (a b c : Str) {i n : ℕ} (hi : i = a.length) (hn : n = b.length) :
    slice (a ++ (b ++ c)) i n = b := by
  subst hi; subst hn; simp [slice]

theorem readField_blanks (t : Tok) : readField t (blanks t.w) = .ok (stored t .none) := by
  obtain ⟨k, w, p⟩ := t
  cases k <;> simp [readField, stored, strip_blanks]
  all_goals (by_cases hw : w = 0 <;> simp [hw, blanks])

/-- Reading the blank tail of a record. -/
theorem readFrom_blanks (ts : List Tok) (a r : Str) (n : ℕ) (hn : width ts ≤ n) :
    readFrom (a ++ (blanks n ++ r)) a.length ts = .ok (storedAll ts []) := by
  induction ts generalizing a n with
  | nil => rfl
  | cons t ts ih =>
    have hw : t.w + width ts ≤ n := by simpa [width] using hn
    have hb : blanks n = blanks t.w ++ blanks (n - t.w) := by
      simp [blanks, ← List.replicate_add]; omega
    simp only [readFrom, storedAll]
    rw [hb, List.append_assoc, slice_mid _ _ _ rfl (by simp), readField_blanks]
    have := ih (a ++ blanks t.w) (n - t.w) (by omega)
    simp only [List.length_append, blanks_length, List.append_assoc] at this
    rw [this]; rfl

theorem recText_length (ts : List Tok) (vs : List Val) (h : AllFit ts vs) :
    ∃ a, recText ts vs = .ok a ∧ a.length = width (ts.take vs.length) := by
  induction ts generalizing vs with
  | nil => exact ⟨[], by simp [recText], by simp [width]⟩
  | cons t ts ih =>
    cases vs with
    | nil => exact ⟨[], rfl, by simp [width]⟩
    | cons v vs =>
      obtain ⟨h1, h2⟩ := h
      obtain ⟨a, ha, hal, -⟩ := toStr_field t v h1
      obtain ⟨b, hb, hbl⟩ := ih vs h2
      exact ⟨a ++ b, by simp [recText, ha, hb]; rfl, by simp [hal, hbl, width]⟩

/-- Reading the text of a fitting record preceded by `a` and followed by
enough blanks. -/
theorem readFrom_recText (ts : List Tok) (vs : List Val) (h : AllFit ts vs) (a r : Str) (n : ℕ)
    (hn : width (ts.drop vs.length) ≤ n) :
    ∃ b, recText ts vs = .ok b ∧
      readFrom (a ++ (b ++ (blanks n ++ r))) a.length ts = .ok (storedAll ts vs) := by
  induction ts generalizing vs a with
  | nil => exact ⟨[], by simp [recText], rfl⟩
  | cons t ts ih =>
    cases vs with
    | nil =>
      refine ⟨[], rfl, ?_⟩
      rw [List.nil_append]
      exact readFrom_blanks (t :: ts) a r n (by simpa using hn)
    | cons v vs =>
      obtain ⟨h1, h2⟩ := h
      obtain ⟨x, hx, hxl, hxr⟩ := toStr_field t v h1
      obtain ⟨b, hb, hbr⟩ := ih vs h2 (a ++ x) (by simpa using hn)
      refine ⟨x ++ b, by simp [recText, hx, hb]; rfl, ?_⟩
      simp only [readFrom, storedAll]
      rw [List.append_assoc, slice_mid _ _ _ rfl hxl.symm, hxr]
      simp only [List.length_append, List.append_assoc, hxl] at hbr
      rw [hbr]; rfl

theorem width_take_drop (ts : List Tok) (n : ℕ) :
    width (ts.take n) + width (ts.drop n) = width ts := by
  unfold width
  rw [← List.sum_append, ← List.map_append, List.take_append_drop]

/-- The record round trip. -/
theorem readRecord_writeRecord (ts : List Tok) (vs : List Val) (hw : width ts ≤ 80)
    (h : AllFit ts vs) :
    ∃ l, writeRecord ts vs = .ok l ∧ readRecord ts l = .ok (storedAll ts vs) := by
  obtain ⟨b, hb, hbl⟩ := recText_length ts vs h
  have htd := width_take_drop ts vs.length
  obtain ⟨b', hb', hr⟩ := readFrom_recText ts vs h [] ['\n'] (80 - b.length) (by omega)
  rw [hb] at hb'
  obtain rfl := Except.ok.inj hb'
  refine ⟨recLine b, by simp [writeRecord, hb]; rfl, ?_⟩
  simpa [readRecord, recLine, padRight] using hr

theorem writeRecord_length (ts : List Tok) (vs : List Val) (hw : width ts ≤ 80)
    (h : AllFit ts vs) :
    ∃ l, writeRecord ts vs = .ok (l ++ ['\n']) ∧ l.length = 80 := by
  obtain ⟨b, hb, hbl⟩ := recText_length ts vs h
  have htd := width_take_drop ts vs.length
  refine ⟨padRight 80 b, by simp [writeRecord, hb, recLine]; rfl, ?_⟩
  rw [padRight_length]; omega

theorem expStr_length (e : ℤ) : (expStr e).length = 2 + max 2 (numDigits e.natAbs) := by
  simp [expStr]; omega

theorem mantStr_length {p : ℕ} (hp : p ≠ 0) (m : ℕ) : (mantStr p m).length = p + 2 := by
  simp [mantStr, hp]

theorem numDigits_le_two {n : ℕ} : numDigits n ≤ 2 ↔ n ≤ 99 := by
  unfold numDigits
  constructor
  · intro h
    have h1 := Nat.lt_pow_succ_log_self (b := 10) (by norm_num) n
    have h2 : 10 ^ (Nat.log 10 n).succ ≤ 10 ^ 2 := Nat.pow_le_pow_right (by norm_num) h
    omega
  · intro h
    by_cases h0 : n = 0
    · subst h0; simp
    · have := Nat.log_lt_of_lt_pow (b := 10) h0 (show n < 10 ^ 2 by omega)
      omega

theorem storedAll_drop (f : List Tok) (pre post : List Val) (v w : Val) :
    (storedAll f (pre ++ v :: post)).drop (pre.length + 1) =
      (storedAll f (pre ++ w :: post)).drop (pre.length + 1) := by
  induction pre generalizing f with
  | nil => cases f <;> simp [storedAll]
  | cons a pre ih =>
    cases f with
    | nil => simp [storedAll]
    | cons t f => simpa [storedAll] using ih f

end Verif.Model
