import Verif.Lemmas.Fortran
import Verif.Lemmas.Prune
import Verif.Lemmas.Digits
import Verif.Model.Labels

/-!
# Properties of fixed-width records (C01-C07)
-/

set_option linter.unusedSimpArgs false
set_option exponentiation.threshold 2000

namespace Verif.Props
open Verif.Py Verif.Model Verif.Spec

/-! ## C01: fixed-width records read back what was written -/

/-- Every format of the library is at most 80 columns wide. -/
theorem C01_formats_fit_the_line : ∀ f ∈ Fmt.all, width f ≤ 80 := by decide

/-- C01. For every record format of the library and every list of values that
fit their columns, writing succeeds and reading the line gives, column by column,
the stored values: text and integers unchanged, reals rounded to the column,
missing values missing, columns without a value missing. -/
theorem C01_record_round_trip (f : List Tok) (hf : f ∈ Fmt.all) (vs : List Val)
    (h : AllFit f vs) :
    ∃ line, writeRecord f vs = .ok line ∧ readRecord f line = .ok (storedAll f vs) :=
  readRecord_writeRecord f vs (C01_formats_fit_the_line f hf) h

example : AllFit Fmt.rocks1 [.str "SAND".toList, .int 2, .flt (.fin false 2600),
    .flt (.fin false (1 / 3)), .none, .flt (.fin false (1 / 10 ^ 13))] := by decide +kernel

/-- Text, integers and missing values in a fitting record are not changed at all. -/
theorem C01_exact_values (t : Tok) (hS : t.kind ≠ .S) :
    stored t .none = .none ∧
    (∀ s, Fits t (.str s) → s ≠ [] → stored t (.str s) = .str s) ∧
    (∀ i, t.kind = .d → stored t (.int i) = .int i) := by
  refine ⟨by simp [stored, hS], ?_, ?_⟩
  · intro s _ hs; simp [stored, hs]
  · intro i hi; simp [stored, hi]

/-! ## C02: numbers that do not fit -/

/-- C02 (what holds). A column `w.pe` with `w = p + 6` (such as `10.4e`) holds a
finite number exactly when the number carries no minus sign and is zero or has,
after rounding to `p + 1` digits, a decimal exponent between -99 and 99. -/
theorem C02_fits_iff_tight_column (p : ℕ) (hp : p ≠ 0) (neg : Bool) (mag : ℚ≥0) :
    (fmtE p (.fin neg mag)).length ≤ p + 6 ↔
      neg = false ∧ (mag = 0 ∨ (roundSig p mag).2.natAbs ≤ 99) := by
  by_cases hm : mag = 0
  · subst hm
    cases neg <;> simp [fmtE, signStr, expStr_length, mantStr_length hp, numDigits]
  · simp only [fmtE, hm, if_false, List.length_append, expStr_length, mantStr_length hp, false_or]
    rw [← numDigits_le_two]
    cases neg <;> simp [signStr] <;> omega

/-- C02 (what holds). A column with one more character (`w = p + 7`, such as
`10.3e` or `20.13e`) also holds negative numbers with two-digit exponents. -/
theorem C02_fits_wide_column (p : ℕ) (hp : p ≠ 0) (neg : Bool) (mag : ℚ≥0)
    (h : mag = 0 ∨ (roundSig p mag).2.natAbs ≤ 99) :
    (fmtE p (.fin neg mag)).length ≤ p + 7 := by
  by_cases hm : mag = 0
  · subst hm
    cases neg <;> simp [fmtE, signStr, expStr_length, mantStr_length hp, numDigits]
  · have h' := h.resolve_left hm
    rw [← numDigits_le_two] at h'
    simp only [fmtE, hm, if_false, List.length_append, expStr_length, mantStr_length hp]
    cases neg <;> simp [signStr] <;> omega

example : ((0 : ℚ≥0) = 0 ∨ (roundSig 3 ((0 : ℚ≥0) : ℚ)).2.natAbs ≤ 99) := Or.inl rfl

/-- Columns read after position `n` when `vs` is written and read with format `f`. -/
def readAfter (f : List Tok) (n : ℕ) (vs : List Val) : Except PyErr (List Val) := do
  let line ← writeRecord f vs
  let out ← readRecord f line
  .ok (out.drop n)

/-- The full claim of C02: the fields after a number do not depend on it. -/
def C02_claim : Prop :=
  ∀ f ∈ Fmt.all, ∀ (pre post : List Val) (x y : Flt),
    readAfter f (pre.length + 1) (pre ++ .flt x :: post) =
      readAfter f (pre.length + 1) (pre ++ .flt y :: post)

/-- C02 is violated: with density -1 instead of 1, porosity 0.5 is read back as
5 and the first permeability as 1. -/
theorem C02_violated : ¬ C02_claim := by
  intro h
  have := h Fmt.rocks1 (by decide) [.str "SAND".toList, .none] [.flt (.fin false (1 / 2))]
    (.fin true 1) (.fin false 1)
  revert this
  decide +kernel

example : readAfter Fmt.rocks1 3 [.str "SAND".toList, .none, .flt (.fin true 1),
    .flt (.fin false (1 / 2))] =
    .ok [.flt (.fin false 5), .flt (.fin false 1), .none, .none, .none, .none] := by decide +kernel

/-- C02 restricted to records whose values all fit. Missing from the full claim:
numbers wider than their column. -/
theorem C02_partial (f : List Tok) (hf : f ∈ Fmt.all) (pre post : List Val) (x y : Flt)
    (hx : AllFit f (pre ++ .flt x :: post)) (hy : AllFit f (pre ++ .flt y :: post)) :
    readAfter f (pre.length + 1) (pre ++ .flt x :: post) =
      readAfter f (pre.length + 1) (pre ++ .flt y :: post) := by
  obtain ⟨l, h1, h2⟩ := C01_record_round_trip f hf _ hx
  obtain ⟨l', h1', h2'⟩ := C01_record_round_trip f hf _ hy
  unfold readAfter
  rw [h1, h1']
  show (readRecord f l >>= fun out => .ok (out.drop _)) =
    (readRecord f l' >>= fun out => .ok (out.drop _))
  rw [h2, h2']
  show Except.ok _ = Except.ok _
  rw [storedAll_drop f pre post (.flt x) (.flt y)]

example : AllFit Fmt.rocks1 ([.str "SAND".toList, .none] ++ .flt (.fin false 2600) ::
    [.flt (.fin false (1 / 2))]) := by decide +kernel

/-! ## C03: precision and stability -/

/-- The rounding of a column is to nearest: no number with at most `p + 1`
significant digits is closer to `q` than the decimal that is printed. -/
theorem C03_printed_decimal_is_nearest (p : ℕ) (q : ℚ) (hq : 0 < q) (m : ℕ) (k : ℤ)
    (hm : m ≤ 10 ^ (p + 1)) :
    |((roundSig p q).1 : ℚ) * (10 : ℚ) ^ ((roundSig p q).2 - (p : ℤ)) - q| ≤
      |(m : ℚ) * (10 : ℚ) ^ k - q| := by
  change |sigVal p q - q| ≤ _
  exact sigVal_nearest p hq m k hm

/-- C03. A finite number in the normal range comes back finite, with the same
sign, and with a relative error of at most half a unit of the last printed digit
plus one binary64 rounding. -/
theorem C03_precision (p : ℕ) (neg : Bool) (mag : ℚ≥0) (h : InRange (.fin neg mag)) :
    ∃ mag' : ℚ≥0, quant p (.fin neg mag) = .fin neg mag' ∧
      |(mag' : ℚ) - mag| ≤ mag * (1 / (2 * 10 ^ p) + (2 : ℚ) ^ (-52 : ℤ)) :=
  quant_accuracy p neg mag h

example : (0 : ℚ) < 1 / 3 ∧ 33333 ≤ 10 ^ (4 + 1) := by norm_num

example : InRange (.fin true (1 / 3)) := by
  right
  constructor
  · exact le_trans (zpow_le_zpow_right₀ (by norm_num) (show (-1021 : ℤ) ≤ -2 by norm_num)) (by
      push_cast; norm_num)
  · push_cast; norm_num

/-- C03. Zero, infinities and NaN come back as themselves. -/
theorem C03_special_values (p : ℕ) (neg : Bool) :
    quant p (.fin neg 0) = .fin neg 0 ∧ quant p (.inf neg) = .inf neg ∧ quant p .nan = .nan := by
  simp [quant]

/-- C03. With seventeen significant digits or more every float comes back exactly. -/
theorem C03_seventeen_digits {p : ℕ} (hp : 16 ≤ p) {x : Flt} (h : IsDouble x) :
    quant p x = x ∧ pyFloat (fmtE p x) = some x :=
  ⟨quant_double hp h, by rw [pyFloat_fmtE, quant_double hp h]⟩

example : IsDouble (.fin true (1 / 4)) := ⟨1, -2, by norm_num, by norm_num, by norm_num, by push_cast; norm_num⟩

/-- C03. Writing the number that was read prints the same text, so further cycles
do not drift (13 is the largest number of digits in a format of the library). -/
theorem C03_rewrite_same_text (p : ℕ) (hp : p ≤ 13) (x : Flt) (hx : InRange x) :
    fmtE p (quant p x) = fmtE p x ∧ quant p (quant p x) = quant p x :=
  ⟨fmtE_quant p hp x hx, quant_quant p hp x hx⟩

/-- Every column of the library has at most 13 digits after the point. -/
theorem C03_digits_of_formats : ∀ f ∈ Fmt.all, ∀ t ∈ f, t.p ≤ 13 := by decide

/-- The numbers of a record are in the range of `InRange`. -/
def ValInRange : Val → Prop
  | .flt x => InRange x
  | .int i => InRange (fltOfInt i)
  | _ => True

theorem toStr_stored (t : Tok) (ht : t.p ≤ 13) (v : Val) (h : Fits t v) (hr : ValInRange v) :
    toStr t (stored t v) = toStr t v := by
  obtain ⟨k, w, p⟩ := t
  have ht' : p ≤ 13 := ht
  cases v with
  | none =>
    simp only [Fits] at h
    cases k <;> simp [toStr, stored] at h ⊢
    by_cases hw : w = 0 <;> simp [hw, toStr, padRight, blanks]
  | str s =>
    by_cases hs : s = []
    · subst hs
      cases k <;> simp [toStr, stored, padRight, padLeft, Fits] at h ⊢
    · simp [stored, hs]
  | bool b => cases k <;> simp [toStr, stored, Fits] at h ⊢
  | int i =>
    cases k <;> simp only [Fits] at h
    · simp [stored]
    · simp [stored, toStr]
    · simp only [stored, toStr]
      rw [fmtE_quant p ht' _ hr]
  | flt x =>
    cases k <;> simp only [Fits] at h
    simp only [stored, toStr]
    rw [fmtE_quant p ht' _ hr]

/-- What `recText` prints for missing trailing values is blank. -/
theorem recText_storedAll_nil (ts : List Tok) (h : ∀ t ∈ ts, t.kind ≠ .f) :
    recText ts (storedAll ts []) = .ok (blanks (width ts)) := by
  induction ts with
  | nil => rfl
  | cons t ts ih =>
    have h1 := h t (by simp)
    have e1 : toStr t (stored t .none) = .ok (blanks t.w) := by
      obtain ⟨k, w, p⟩ := t
      cases k <;> simp [toStr, stored] at h1 ⊢
      by_cases hw : w = 0 <;> simp [hw, toStr, padRight, blanks]
    simp only [recText, storedAll, e1, ih (fun t ht => h t (by simp [ht]))]
    show Except.ok _ = Except.ok _
    simp only [blanks, width, List.map_cons, List.sum_cons, List.replicate_add]

theorem recText_storedAll (ts : List Tok) (vs : List Val) (hp : ∀ t ∈ ts, t.p ≤ 13)
    (hk : ∀ t ∈ ts.drop vs.length, t.kind ≠ .f)
    (h : AllFit ts vs) (hr : ∀ v ∈ vs, ValInRange v) :
    ∃ a, recText ts vs = .ok a ∧
      recText ts (storedAll ts vs) = .ok (a ++ blanks (width (ts.drop vs.length))) := by
  induction ts generalizing vs with
  | nil => exact ⟨[], by simp [recText], by simp [recText, width, blanks]⟩
  | cons t ts ih =>
    cases vs with
    | nil =>
      refine ⟨[], rfl, ?_⟩
      rw [recText_storedAll_nil _ (by simpa using hk)]; rfl
    | cons v vs =>
      obtain ⟨h1, h2⟩ := h
      obtain ⟨x, hx, -, -⟩ := toStr_field t v h1
      obtain ⟨b, hb, hb'⟩ := ih vs (fun t ht => hp t (by simp [ht])) (by simpa using hk) h2
        (fun v hv => hr v (by simp [hv]))
      refine ⟨x ++ b, by simp [recText, hx, hb]; rfl, ?_⟩
      simp only [recText, storedAll]
      rw [toStr_stored t (hp t (by simp)) v h1 (hr v (by simp)), hx, hb']
      show Except.ok _ = Except.ok _
      simp

/-- C03 for whole records: writing the values that were read produces the same
line, character by character. The only column that cannot be left empty is the
`10.1f` column of PARAM. -/
theorem C03_record_stable (f : List Tok) (hf : f ∈ Fmt.all) (vs : List Val)
    (hk : ∀ t ∈ f.drop vs.length, t.kind ≠ .f)
    (h : AllFit f vs) (hr : ∀ v ∈ vs, ValInRange v) :
    ∃ line vs', writeRecord f vs = .ok line ∧ readRecord f line = .ok vs' ∧
      writeRecord f vs' = .ok line := by
  have hw := C01_formats_fit_the_line f hf
  obtain ⟨l, h1, h2⟩ := readRecord_writeRecord f vs hw h
  refine ⟨l, _, h1, h2, ?_⟩
  obtain ⟨a, ha, ha'⟩ := recText_storedAll f vs (C03_digits_of_formats f hf) hk h hr
  obtain ⟨a2, ha2, hal⟩ := recText_length f vs h
  rw [ha] at ha2; obtain rfl := Except.ok.inj ha2
  have htd := width_take_drop f vs.length
  have e1 : l = recLine a := by
    simp only [writeRecord, ha] at h1; exact (Except.ok.inj h1).symm
  rw [e1]
  simp only [writeRecord, ha']
  show Except.ok _ = Except.ok _
  simp only [recLine, padRight, List.append_assoc, List.length_append, blanks_length]
  rw [← List.append_assoc (blanks _) (blanks _)]
  congr 3
  simp only [blanks, ← List.replicate_add]
  congr 1
  omega

example : AllFit Fmt.times2 [.flt (.fin false 1), .none, .flt (.fin false 0)] ∧
    (∀ v ∈ [Val.flt (.fin false 0), .none], ValInRange v) ∧
    (∀ t ∈ Fmt.times2.drop 2, t.kind ≠ .f) := by
  refine ⟨by decide +kernel, ?_, by decide⟩
  intro v hv; simp at hv; rcases hv with rfl | rfl <;> simp [ValInRange, InRange]

/-! ## C04: record lines are 80 columns wide -/

/-- C04. The line of a fitting record is exactly 80 characters and a newline. -/
theorem C04_line_has_80_columns (f : List Tok) (hf : f ∈ Fmt.all) (vs : List Val)
    (h : AllFit f vs) :
    ∃ l, writeRecord f vs = .ok (l ++ ['\n']) ∧ l.length = 80 :=
  writeRecord_length f vs (C01_formats_fit_the_line f hf) h

example : AllFit Fmt.times1 [.int 3, .none, .flt (.fin false (1 / 7))] := by decide +kernel

/-- C04. Whatever the values and the format, a line that is written has at least
80 characters before its newline. -/
theorem C04_never_shorter (f : List Tok) (vs : List Val) (line : Str)
    (h : writeRecord f vs = .ok line) : ∃ l, line = l ++ ['\n'] ∧ 80 ≤ l.length := by
  unfold writeRecord at h
  cases hb : recText f vs with
  | error e => rw [hb] at h; cases h
  | ok b =>
    rw [hb] at h
    obtain rfl := Except.ok.inj h
    exact ⟨padRight 80 b, rfl, by rw [padRight_length]; omega⟩

example : ∃ line, writeRecord Fmt.rocks1 [.str "SAND".toList, .none, .flt (.fin true 1)] = .ok line :=
  ⟨_, rfl⟩

/-- C04. A multi-line record uses as many lines as needed, each of 80 characters
and a newline, if all values fit the columns they fall into. -/
theorem C04_multi_lines (f : List Tok) (hf : f ∈ Fmt.all) (vs : List Val)
    (h : ∀ t ∈ f, ∀ v ∈ vs, Fits t v) :
    ∃ ls, writeMulti f vs = .ok ls ∧ ls.length = (vs.length + f.length - 1) / f.length ∧
      ∀ line ∈ ls, ∃ l, line = l ++ ['\n'] ∧ l.length = 80 := by
  have hall : ∀ (ts : List Tok) (us : List Val), (∀ t ∈ ts, t ∈ f) → (∀ v ∈ us, v ∈ vs) →
      AllFit ts us := by
    intro ts
    induction ts with
    | nil => intro us _ _; cases us <;> simp [AllFit]
    | cons t ts ih =>
      intro us h1 h2
      cases us with
      | nil => simp [AllFit]
      | cons u us =>
        exact ⟨h t (h1 t (by simp)) u (h2 u (by simp)),
          ih us (fun t ht => h1 t (by simp [ht])) (fun v hv => h2 v (by simp [hv]))⟩
  have hmap : ∀ cs : List (List Val), (∀ c ∈ cs, ∀ v ∈ c, v ∈ vs) →
      ∃ ls, cs.mapM (writeRecord f) = .ok ls ∧ ls.length = cs.length ∧
        ∀ line ∈ ls, ∃ l, line = l ++ ['\n'] ∧ l.length = 80 := by
    intro cs
    induction cs with
    | nil => intro _; exact ⟨[], rfl, rfl, by simp⟩
    | cons c cs ih =>
      intro hc
      obtain ⟨ls, e1, e2, e3⟩ := ih (fun c' hc' => hc c' (by simp [hc']))
      obtain ⟨l, e4, e5⟩ := C04_line_has_80_columns f hf c
        (hall f c (fun _ ht => ht) (hc c (by simp)))
      refine ⟨(l ++ ['\n']) :: ls, ?_, by simp [e2], ?_⟩
      · rw [List.mapM_cons, e4, e1]; rfl
      · intro line hl
        rcases List.mem_cons.1 hl with rfl | hl
        · exact ⟨l, rfl, e5⟩
        · exact e3 line hl
  obtain ⟨ls, e1, e2, e3⟩ := hmap (chunks f.length vs) (by
    intro c hc v hv
    simp only [chunks, List.mem_map] at hc
    obtain ⟨i, -, rfl⟩ := hc
    exact List.mem_of_mem_drop (List.mem_of_mem_take hv))
  exact ⟨ls, e1, by rw [e2]; simp [chunks], e3⟩

example : ∀ t ∈ Fmt.times2, ∀ v ∈ [Val.flt (.fin false 1), .flt (.fin false 20)], Fits t v := by
  decide +kernel

/-! ## C05: Fortran-style exponents -/

/-- C05. Text that is already a number is read as that number. -/
theorem C05_plain_numbers (s : Str) (x : Flt) (h : pyFloat s = some x) : str2float s = .ok x := by
  simp [str2float, h]

example : pyFloat "1.5e+10".toList = some (.fin false 15000000000) := by decide +kernel

/-- C05. A significand (optional sign, digits, optional point and digits)
followed by a sign and three digits is read as significand times ten to that
exponent: the same value as the spelled-out form with the letter `E`. -/
theorem C05_missing_exponent_letter (sg a : Str) (b : Option Str) (neg : Bool) (ex : Str)
    (hsg : sg = [] ∨ sg = ['-'] ∨ sg = ['+'])
    (ha : ∀ c ∈ a, isDigit c = true) (hb : ∀ s ∈ b, ∀ c ∈ s, isDigit c = true)
    (hne : a ++ b.getD [] ≠ []) (hex : ex.length = 3) (hexd : ∀ c ∈ ex, isDigit c = true) :
    str2float (sg ++ (signif a b ++ (if neg then '-' else '+') :: ex)) =
        .ok (ofDecimal (decide (sg = ['-'])) ((digVal (a ++ b.getD []) : ℚ) *
          (10 : ℚ) ^ ((if neg then -(digVal ex : ℤ) else digVal ex) - ((b.getD []).length : ℤ)))) ∧
      str2float (sg ++ (signif a b ++ 'E' :: (if neg then '-' else '+') :: ex)) =
        str2float (sg ++ (signif a b ++ (if neg then '-' else '+') :: ex)) := by
  have hexne : ex ≠ [] := by intro h; simp [h] at hex
  have hdig : ∀ c : Char, isDigit c = true → isSpace c = false ∧ c ≠ '_' := fun c hc =>
    ⟨isSpace_of_isDigit hc, ne_of_isDigit hc (by decide)⟩
  have hsig : ∀ c ∈ (if neg then '-' else '+') :: ex, isSpace c = false ∧ c ≠ '_' := by
    intro c hc
    rcases List.mem_cons.1 hc with rfl | hc
    · cases neg <;> decide
    · exact hdig c (hexd c hc)
  have hplain : pyFloat (sg ++ (signif a b ++ (if neg then '-' else '+') :: ex)) = none := by
    rw [pyFloat_signif sg a b _ hsg ha hb hne _ hsig, parseExp_sign]
    · rfl
    · intro c hc; simp at hc; subst hc; cases neg <;> decide
  have hwith : ∀ c : Char, (c = 'e' ∨ c = 'E') →
      pyFloat (sg ++ (signif a b ++ c :: (if neg then '-' else '+') :: ex)) =
      some (ofDecimal (decide (sg = ['-'])) ((digVal (a ++ b.getD []) : ℚ) *
          (10 : ℚ) ^ ((if neg then -(digVal ex : ℤ) else digVal ex) -
            ((b.getD []).length : ℤ)))) := by
    intro c hc
    rw [pyFloat_signif sg a b _ hsg ha hb hne, parseExp_letter c hc neg ex hexne hexd]
    · rfl
    · intro d hd; simp at hd; subst hd; rcases hc with rfl | rfl <;> decide
    · intro d hd
      rcases List.mem_cons.1 hd with rfl | hd
      · rcases hc with rfl | rfl <;> decide
      · exact hsig d hd
  have hcut : ∀ c : Char,
      (sg ++ (signif a b ++ c :: ex)).take ((sg ++ (signif a b ++ c :: ex)).length - 4) ++
        'e' :: (sg ++ (signif a b ++ c :: ex)).drop ((sg ++ (signif a b ++ c :: ex)).length - 4) =
      sg ++ (signif a b ++ 'e' :: c :: ex) := by
    intro c
    have e1 : sg ++ (signif a b ++ c :: ex) = (sg ++ signif a b) ++ c :: ex := by simp
    have e2 : (sg ++ (signif a b ++ c :: ex)).length - 4 = (sg ++ signif a b).length := by
      simp [hex]; omega
    rw [e2, e1, List.take_left, List.drop_left]
    simp
  have hfirst : str2float (sg ++ (signif a b ++ (if neg then '-' else '+') :: ex)) =
      .ok (ofDecimal (decide (sg = ['-'])) ((digVal (a ++ b.getD []) : ℚ) *
          (10 : ℚ) ^ ((if neg then -(digVal ex : ℤ) else digVal ex) -
            ((b.getD []).length : ℤ)))) := by
    unfold str2float
    rw [hplain]
    simp only
    rw [hcut, hwith 'e' (Or.inl rfl)]
  refine ⟨hfirst, ?_⟩
  rw [hfirst]
  exact C05_plain_numbers _ _ (hwith 'E' (Or.inr rfl))

example : str2float "-0.1234-123".toList = str2float "-0.1234E-123".toList :=
  (C05_missing_exponent_letter ['-'] ['0'] (some "1234".toList) true "123".toList
    (by decide) (by decide) (by decide) (by decide) (by decide) (by decide)).2.symm

/-- C05. Text that is a number in neither form is rejected with `ValueError`,
and nothing else is rejected. -/
theorem C05_rejects_exactly_non_numbers (s : Str) :
    str2float s = .error .valueError ↔
      pyFloat s = none ∧ pyFloat (s.take (s.length - 4) ++ 'e' :: s.drop (s.length - 4)) = none := by
  unfold str2float
  cases h1 : pyFloat s with
  | some x => simp
  | none =>
    cases h2 : pyFloat (s.take (s.length - 4) ++ 'e' :: s.drop (s.length - 4)) with
    | some x => simp
    | none => simp

example : str2float "abc".toList = .error .valueError := by decide +kernel

/-! ## C06: pruning -/

/-- C06. Pruning a list gives its longest prefix whose last entry is present. -/
theorem C06_prune_list (l : List Val) : IsPruned l (pruneNones l) := isPruned_pruneNones l

/-- C06. The longest prefix whose last entry is present is unique, so the
statement above determines the result. -/
theorem C06_prune_unique (l r s : List Val) (hr : IsPruned l r) (hs : IsPruned l s) : r = s :=
  isPruned_unique l r s hr hs

example : IsPruned [.int 1, .none, .str ['a'], .none, .none] [.int 1, .none, .str ['a']] :=
  ⟨2, rfl, by decide⟩

/-- C06. Pruning a dictionary keeps exactly the entries with a present value, in
order, and keeps the value found under every key that has one. -/
theorem C06_prune_dict {κ : Type} [DecidableEq κ] (d : List (κ × Val)) :
    (pruneDict d).Sublist d ∧ (∀ e, e ∈ pruneDict d ↔ e ∈ d ∧ e.2 ≠ .none) ∧
      ((d.map (·.1)).Nodup → ∀ k, (pruneDict d).lookup k =
        if d.lookup k = some .none then none else d.lookup k) := by
  refine ⟨List.filter_sublist, fun e => by simp [pruneDict], ?_⟩
  intro hnd k
  induction d with
  | nil => rfl
  | cons e d ih =>
    obtain ⟨a, v⟩ := e
    simp only [List.map_cons, List.nodup_cons] at hnd
    have ih' := ih hnd.2
    by_cases hk : k = a
    · subst hk
      by_cases hv : v = .none
      · subst hv
        have hnone : ∀ d' : List (κ × Val), k ∉ d'.map (·.1) → (pruneDict d').lookup k = none := by
          intro d' hd'
          rw [List.lookup_eq_none_iff]
          intro p hp
          simp only [pruneDict, List.mem_filter] at hp
          simp only [bne_iff_ne, ne_eq]
          rintro rfl
          exact hd' (List.mem_map_of_mem hp.1)
        have := hnone d hnd.1
        simpa [pruneDict] using this
      · simp [pruneDict, hv]
    · have hk' : (k == a) = false := by simpa using hk
      by_cases hv : v = .none
      · subst hv
        simpa [pruneDict, List.lookup_cons, hk'] using ih'
      · simpa [pruneDict, List.lookup_cons, hk', hv] using ih'

example : (([(1, .none), (2, .int 5)] : List (ℕ × Val)).map (·.1)).Nodup := by decide

/-! ## C07: detection of the label length -/

theorem countDigits_append (d r : Str) (hd : ∀ c ∈ d, isDigit c = true)
    (hr : ∀ c ∈ r.head?, isDigit c = false) : countDigits (d ++ r) = d.length := by
  induction d with
  | nil =>
    cases r with
    | nil => rfl
    | cons c r => simp [countDigits, hr c (by simp)]
  | cons c d ih =>
    simp [countDigits, hd c (by simp), ih (fun c hc => hd c (by simp [hc]))]

/-- C07. A label of five characters followed by `k ≤ 4` digits is recognised with
its length, whatever follows, provided the next character is not a digit. -/
theorem C07_label_length_detected (a d rest : Str) (ha : a.length = 5) (hd4 : d.length ≤ 4)
    (hd : ∀ c ∈ d, isDigit c = true) (hr : ∀ c ∈ rest.head?, isDigit c = false) :
    getLabelLength ((a ++ d ++ rest).take 9) = (a ++ d).length := by
  have e1 : ((a ++ d ++ rest).take 9).drop 5 = d ++ rest.take (4 - d.length) := by
    rw [List.drop_take, List.append_assoc, List.drop_append_of_le_length (by omega)]
    rw [show a.drop 5 = [] from List.drop_eq_nil_of_le (by omega), List.nil_append,
      List.take_append]
    simp [List.take_of_length_le hd4]
  unfold getLabelLength
  rw [e1, countDigits_append d _ hd, List.length_append, ha]
  intro c hc
  apply hr
  cases rest with
  | nil => simp at hc
  | cons x rest =>
    cases h : 4 - d.length with
    | zero => simp [h] at hc
    | succ n => simpa [h] using hc

example : getLabelLength (("A1100".toList ++ "42".toList ++ "  12SAND".toList).take 9) = 7 :=
  C07_label_length_detected _ _ _ rfl (by decide) (by decide) (by decide)

/-- C07, the other direction: if a digit follows a label shorter than nine
characters, the detected length is too large. -/
theorem C07_digit_after_label_misdetected (a d rest : Str) (c : Char) (ha : a.length = 5)
    (hd4 : d.length < 4) (hd : ∀ c ∈ d, isDigit c = true) (hc : isDigit c = true) :
    (a ++ d).length < getLabelLength ((a ++ d ++ c :: rest).take 9) := by
  have e1 : ((a ++ d ++ c :: rest).take 9).drop 5 = (d ++ [c]) ++ rest.take (3 - d.length) := by
    rw [List.drop_take, List.append_assoc, List.drop_append_of_le_length (by omega)]
    rw [show a.drop 5 = [] from List.drop_eq_nil_of_le (by omega), List.nil_append,
      List.take_append, List.take_of_length_le (by omega : d.length ≤ 9 - 5)]
    obtain ⟨n, hn⟩ : ∃ n, 4 - d.length = n + 1 := ⟨3 - d.length, by omega⟩
    rw [show 9 - 5 - d.length = n + 1 by omega, show 3 - d.length = n by omega]
    simp
  have h2 : ∀ (x y : Str), (∀ c ∈ x, isDigit c = true) → x.length ≤ countDigits (x ++ y) := by
    intro x y hx
    induction x with
    | nil => simp
    | cons z x ih =>
      have := ih (fun c hc => hx c (by simp [hc]))
      simp [countDigits, hx z (by simp)]
      exact this
  have h3 := h2 (d ++ [c]) (rest.take (3 - d.length)) (by
    intro x hx
    rcases List.mem_append.1 hx with hx | hx
    · exact hd x hx
    · simp at hx; subst hx; exact hc)
  unfold getLabelLength
  rw [e1]
  simp only [List.length_append, List.length_singleton] at h3 ⊢
  omega

/-- The full claim of C07 for GENER records (a five-character label directly
followed by a source name). -/
def C07_gener_claim : Prop :=
  ∀ label name rest : Str, label.length = 5 → name.length = 5 →
    getLabelLength ((label ++ name ++ rest).take 9) = 5

/-- C07 is violated for source names starting with a digit. -/
theorem C07_gener_violated : ¬ C07_gener_claim := by
  intro h
  exact absurd (h "A1112".toList "1WELL".toList [] rfl rfl) (by decide)

/-- C07 for GENER records. Missing from the full claim: source names that start
with a digit. -/
theorem C07_gener_partial (label name rest : Str) (hl : label.length = 5) (hn : name.length = 5)
    (hd : ∀ c ∈ name.head?, isDigit c = false) :
    getLabelLength ((label ++ name ++ rest).take 9) = 5 := by
  have := C07_label_length_detected label [] (name ++ rest) hl (by simp) (by simp) (by
    cases name with
    | nil => simp at hn
    | cons c n => simpa using hd)
  simpa [hl] using this

example : getLabelLength (("A1112".toList ++ "WELL1".toList ++ "COM1".toList).take 9) = 5 :=
  C07_gener_partial _ _ _ rfl rfl (by decide)

end Verif.Props
