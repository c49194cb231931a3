import Verif.Spec.Tecplot
import Verif.Lemmas.Petrasim
import Verif.Lemmas.Hist

/-!
# Lemmas about Tecplot output files
-/

namespace Verif.Model
open Verif.Py Verif.Spec

/-! ### words -/

theorem wordsFrom_spaces {b : Str} (hb : ∀ c ∈ b, isSpace c = true) : wordsFrom [] b = [] := by
  induction b with
  | nil => rfl
  | cons c b ih =>
    rw [wordsFrom_cons, if_pos (hb c (by simp)), if_pos rfl,
      ih fun c hc => hb c (List.mem_cons_of_mem _ hc)]

theorem words_spaces_append {b : Str} (hb : ∀ c ∈ b, isSpace c = true) (s : Str) :
    words (b ++ s) = words s := by
  unfold words
  induction b with
  | nil => rfl
  | cons c b ih =>
    rw [List.cons_append, wordsFrom_cons, if_pos (hb c (by simp)), if_pos rfl,
      ih fun c hc => hb c (List.mem_cons_of_mem _ hc)]

theorem words_append_spaces {b : Str} (hb : ∀ c ∈ b, isSpace c = true) (s : Str) :
    words (s ++ b) = words s := by
  unfold words
  have main : ∀ w, wordsFrom w (s ++ b) = wordsFrom w s := by
    induction s with
    | nil =>
      intro w
      cases b with
      | nil => rfl
      | cons c b =>
        rw [List.nil_append, wordsFrom_cons, if_pos (hb c (by simp)),
          wordsFrom_spaces fun c hc => hb c (List.mem_cons_of_mem _ hc)]
        cases w with
        | nil => rfl
        | cons d w => rw [if_neg (by simp)]; rfl
    | cons c s ih =>
      intro w
      rw [List.cons_append, wordsFrom_cons, wordsFrom_cons, ih, ih]
  exact main []

theorem words_strip (s : Str) : words (strip s) = words s := by
  obtain ⟨a, b, ha, hb, e⟩ := strip_parts s
  conv_rhs => rw [e]
  rw [words_spaces_append ha, words_append_spaces hb]

/-- A word at the beginning. -/
theorem words_token {t r : Str} (h0 : t ≠ []) (ht : ∀ c ∈ t, isSpace c = false)
    (hr : ∀ c ∈ r.head?, isSpace c = true) : words (t ++ r) = t :: words r := by
  cases r with
  | nil =>
    rw [List.append_nil]
    exact wordsFrom_nospace ht [] (by simpa using h0)
  | cons d r =>
    have hd := hr d (by simp)
    unfold words
    have main : ∀ w : Str, w ++ t ≠ [] → wordsFrom w (t ++ d :: r) =
        (w.reverse ++ t) :: wordsFrom [] (d :: r) := by
      clear h0
      induction t with
      | nil =>
        intro w hw
        rw [List.nil_append, wordsFrom_cons, if_pos hd, if_neg (by simpa using hw), wordsFrom_cons,
          if_pos hd, if_pos rfl, List.append_nil]
      | cons c t ih =>
        intro w _
        rw [List.cons_append, wordsFrom_cons, ht c (by simp), if_neg (by simp),
          ih (fun x hx => ht x (List.mem_cons_of_mem _ hx)) (c :: w) (by simp)]
        simp
    simpa using main [] (by simpa using h0)

theorem padLeft_blank {w : ℕ} {t : Str} (h : t.length < w) :
    padLeft w t = ' ' :: padLeft (w - 1) t := by
  unfold padLeft blanks
  obtain ⟨k, hk⟩ : ∃ k, w - t.length = k + 1 := ⟨w - t.length - 1, by omega⟩
  rw [hk, show w - 1 - t.length = k by omega, List.replicate_succ, List.cons_append]

theorem words_padLeft {w : ℕ} {t r : Str} (h0 : t ≠ []) (ht : ∀ c ∈ t, isSpace c = false)
    (hr : ∀ c ∈ r.head?, isSpace c = true) : words (padLeft w t ++ r) = t :: words r := by
  unfold padLeft
  rw [List.append_assoc, words_spaces_append (blanks_space _), words_token h0 ht hr]

theorem words_columns {w : ℕ} {ts : List Str}
    (h : ∀ t ∈ ts, t ≠ [] ∧ t.length < w ∧ ∀ c ∈ t, isSpace c = false) {r : Str}
    (hr : ∀ c ∈ r, isSpace c = true) : words (ts.flatMap (padLeft w) ++ r) = ts := by
  induction ts with
  | nil =>
    rw [List.flatMap_nil, List.nil_append]
    exact wordsFrom_spaces hr
  | cons t ts ih =>
    have ih := ih fun t ht => h t (List.mem_cons_of_mem _ ht)
    obtain ⟨h1, h2, h3⟩ := h t (by simp)
    rw [List.flatMap_cons, List.append_assoc, words_padLeft h1 h3, ih]
    intro c hc
    cases ts with
    | nil =>
      rw [List.flatMap_nil, List.nil_append] at hc
      exact hr c (List.mem_of_mem_head? hc)
    | cons u ts =>
      rw [List.flatMap_cons, padLeft_blank (h u (by simp)).2.1] at hc
      have : c = ' ' := by simpa using hc.symm
      subst this; decide

theorem uncomma_eq_self {s : Str} (h : ',' ∉ s) : uncomma s = s := by
  unfold uncomma
  conv_rhs => rw [← List.map_id s]
  refine List.map_congr_left fun c hc => ?_
  rw [if_neg (by rintro rfl; exact h hc)]
  rfl

/-! ### the variables -/

theorem joinQuoted_plain {ts : List Str} (h : ∀ t ∈ ts, ∀ c ∈ t, c ≠ '"') : joinQuoted ts = .ok ts := by
  have hu : ∀ t ∈ ts, unquote t = t := fun t ht => unquote_eq_self (h t ht)
  have hn : ∀ t ∈ ts, ¬ ('"' ∈ t ∧ ¬ (t.head? = some '"' ∧ t.getLast? = some '"')) :=
    fun t ht hc => h t ht _ hc.1 rfl
  induction ts with
  | nil => rfl
  | cons t ts ih =>
    have ih := ih (fun t ht => h t (List.mem_cons_of_mem _ ht))
      (fun t ht => hu t (List.mem_cons_of_mem _ ht)) fun t ht => hn t (List.mem_cons_of_mem _ ht)
    cases ts with
    | nil => rw [joinQuoted, if_neg (hn t (by simp)), hu t (by simp)]
    | cons u ts => rw [joinQuoted, if_neg (hn t (by simp)), hu t (by simp), ih]; rfl

theorem flatMap_pad_notMem {c : Char} {w : ℕ} {ts : List Str} (hc : c ≠ ' ') (h : ∀ t ∈ ts, c ∉ t) :
    c ∉ ts.flatMap (padLeft w) := by
  intro hm
  obtain ⟨t, ht, hm⟩ := List.mem_flatMap.1 hm
  rcases List.mem_append.1 hm with hm | hm
  · exact hc (List.eq_of_mem_replicate hm)
  · exact h t ht hm

/-- The line of variables as written. -/
def tecVarLine (vars : List Str) : Str :=
  padLeft 18 "VARIABLES       =".toList ++ vars.flatMap (padLeft 18) ++ ['\n']

theorem strip_tecVarLine {vars : List Str} (h : ∀ k ∈ vars, TecName k) :
    strip (tecVarLine vars) = "VARIABLES       =".toList ++ vars.flatMap (padLeft 18) := by
  have e : tecVarLine vars = blanks 1 ++ (("VARIABLES       =".toList ++ vars.flatMap (padLeft 18)) ++ ['\n']) := by
    unfold tecVarLine padLeft
    rw [List.append_assoc, List.append_assoc, List.append_assoc]
    rfl
  rw [e, strip_spaces_append (blanks_space 1), strip_line]
  · intro c hc
    have : c = 'V' := by simpa using hc.symm
    subst this; decide
  · rcases List.eq_nil_or_concat vars with rfl | ⟨vs, v, rfl⟩
    · rw [List.flatMap_nil, List.append_nil]
      decide
    · intro c hc
      obtain ⟨h1, -, h3⟩ := h v (by simp)
      simp only [List.concat_eq_append, List.flatMap_append, List.flatMap_cons, List.flatMap_nil,
        List.append_nil] at hc
      rw [← List.append_assoc] at hc
      unfold padLeft at hc
      rw [← List.append_assoc, List.getLast?_append_of_ne_nil _ h1] at hc
      exact (h3 c (List.mem_of_mem_getLast? hc)).1

theorem readVariables_tecVarLine {vars : List Str} (h : ∀ k ∈ vars, TecName k)
    (hx : "X".toList ∈ vars) (hy : "Y".toList ∈ vars) :
    readVariables ("VARIABLES       =".toList ++ vars.flatMap (padLeft 18)) = .ok vars := by
  unfold readVariables
  have e : "VARIABLES       =".toList ++ vars.flatMap (padLeft 18) =
      "VARIABLES       ".toList ++ '=' :: vars.flatMap (padLeft 18) := by
    rw [show "VARIABLES       =".toList = "VARIABLES       ".toList ++ ['='] by decide,
      List.append_assoc]
    rfl
  rw [e, splitOn_append (by decide), splitOn_self (flatMap_pad_notMem (by decide) fun t ht hc =>
    ((h t ht).2.2 _ hc).2.2.1 rfl)]
  have : rowAt ["VARIABLES       ".toList, vars.flatMap (padLeft 18)] 1 =
    .ok (vars.flatMap (padLeft 18)) := rfl
  rw [this, ok_bind, uncomma_eq_self (flatMap_pad_notMem (by decide) fun t ht hc =>
    ((h t ht).2.2 _ hc).2.1 rfl)]
  have hw := words_columns (w := 18) (ts := vars) (r := [])
    (fun t ht => ⟨(h t ht).1, (h t ht).2.1, fun c hc => ((h t ht).2.2 c hc).1⟩) (by simp)
  rw [List.append_nil] at hw
  rw [hw, joinQuoted_plain fun t ht c hc => ((h t ht).2.2 c hc).2.2.2, ok_bind, if_neg, if_neg]
  · exact fun hc => hc.1 hy
  · exact fun hc => hc.1 hx

/-! ### numbers in capitals -/

theorem upperC_eq_self {c : Char} (h : isDigit c = true) : upperC c = c := by
  unfold upperC
  unfold isDigit at h
  have : 48 ≤ c.toNat ∧ c.toNat ≤ 57 := by simpa using h
  rw [if_neg]
  simp
  omega

theorem upperC_eq_iff (c : Char) {d : Char} (hd : upperC d = d) (hd' : d.toNat < 65 ∨ 90 < d.toNat) :
    upperC c = d ↔ c = d := by
  constructor
  · intro h
    unfold upperC at h
    split at h
    · next hc =>
      have h' : 97 ≤ c.toNat ∧ c.toNat ≤ 122 := by simpa using hc
      have h2 : (Char.ofNat (c.toNat - 32)).toNat = c.toNat - 32 := by
        refine char_of_toNat c (fun c => (Char.ofNat (c.toNat - 32)).toNat = c.toNat - 32) 97 122
          h'.1 h'.2 (by decide)
      rw [h] at h2
      omega
    · exact h
  · rintro rfl; exact hd

theorem unUnderscore_upper (p : Bool) (s : Str) :
    unUnderscore p (upper s) = (unUnderscore p s).map upper := by
  have hus : ∀ c, upperC c = '_' ↔ c = '_' := fun c => upperC_eq_iff c (by decide) (by decide)
  induction p, s using unUnderscore.induct with
  | case1 p => rfl
  | case2 p c r h ih =>
    have : upper ('_' :: c :: r) = '_' :: upperC c :: upper r := rfl
    rw [this, unUnderscore, unUnderscore, upperC_digit, if_pos h, if_pos h, ih]
    cases unUnderscore true r <;> rfl
  | case3 p c r h =>
    have : upper ('_' :: c :: r) = '_' :: upperC c :: upper r := rfl
    rw [this, unUnderscore, unUnderscore, upperC_digit, if_neg h, if_neg h]
    rfl
  | case4 p => rfl
  | case5 p c r h1 h2 ih =>
    have hc : upper (c :: r) = upperC c :: upper r := rfl
    by_cases hcu : c = '_'
    · cases r with
      | nil => exact absurd rfl (h2 hcu)
      | cons d r => exact absurd rfl (h1 d r hcu)
    · have hcu' : upperC c ≠ '_' := fun h => hcu ((hus c).1 h)
      have e1 : unUnderscore p (c :: r) = (unUnderscore (isDigit c) r).map (c :: ·) := by
        rw [unUnderscore]
        · exact h1
        · exact h2
      have e2 : unUnderscore p (upperC c :: upper r) =
          (unUnderscore (isDigit (upperC c)) (upper r)).map (upperC c :: ·) := by
        rw [unUnderscore]
        · intro d r' hd _; exact hcu' hd
        · intro hd; exact absurd hd hcu'
      rw [hc, e2, e1, upperC_digit, ih]
      cases unUnderscore (isDigit c) r <;> rfl

theorem splitSign_upper (s : Str) : splitSign (upper s) = ((splitSign s).1, upper (splitSign s).2) := by
  cases s with
  | nil => rfl
  | cons c s =>
    have hc : upper (c :: s) = upperC c :: upper s := rfl
    by_cases h1 : c = '-'
    · subst h1; rfl
    by_cases h2 : c = '+'
    · subst h2; rfl
    have h1' : upperC c ≠ '-' := fun h => h1 ((upperC_eq_iff c (by decide) (by decide)).1 h)
    have h2' : upperC c ≠ '+' := fun h => h2 ((upperC_eq_iff c (by decide) (by decide)).1 h)
    have e : ∀ (d : Char) (r : Str), d ≠ '-' → d ≠ '+' → splitSign (d :: r) = (false, d :: r) := by
      intro d r hd hd'
      unfold splitSign
      split
      · simp_all
      · simp_all
      · rfl
    rw [hc, e _ _ h1' h2', e _ _ h1 h2]
    rfl

theorem takeWhile_upper_digit (s : Str) : (upper s).takeWhile isDigit = s.takeWhile isDigit := by
  induction s with
  | nil => rfl
  | cons c s ih =>
    have hc : upper (c :: s) = upperC c :: upper s := rfl
    rw [hc, List.takeWhile_cons, List.takeWhile_cons, upperC_digit, ih]
    split
    · next h => rw [upperC_eq_self h]
    · rfl

theorem dropWhile_upper_digit (s : Str) :
    (upper s).dropWhile isDigit = upper (s.dropWhile isDigit) := by
  induction s with
  | nil => rfl
  | cons c s ih =>
    have hc : upper (c :: s) = upperC c :: upper s := rfl
    rw [hc, List.dropWhile_cons, List.dropWhile_cons, upperC_digit, ih]
    split <;> rfl

theorem digVal_upper {s : Str} (h : strIsDigit s = true) : upper s = s := by
  unfold strIsDigit at h
  rw [Bool.and_eq_true, List.all_eq_true] at h
  unfold upper
  conv_rhs => rw [← List.map_id s]
  exact List.map_congr_left fun c hc => upperC_eq_self (h.2 c hc)

theorem parseExp_upper (s : Str) : parseExp (upper s) = parseExp s := by
  cases s with
  | nil => rfl
  | cons c s =>
    have hc : upper (c :: s) = upperC c :: upper s := rfl
    have he : (upperC c = 'e' ∨ upperC c = 'E') ↔ (c = 'e' ∨ c = 'E') := by
      constructor
      · intro h
        have h2 : lowerC (upperC c) = 'e' := by rcases h with h | h <;> (rw [h]; decide)
        rw [lowerC_upperC] at h2
        unfold lowerC at h2
        split at h2
        · next hcc =>
          right
          have h' : 65 ≤ c.toNat ∧ c.toNat ≤ 90 := by simpa using hcc
          refine char_of_toNat c (fun c => Char.ofNat (c.toNat + 32) = 'e' → c = 'E') 65 90
            h'.1 h'.2 (by decide) h2
        · exact Or.inl h2
      · rintro (rfl | rfl) <;> decide
    rw [hc, parseExp, parseExp]
    by_cases h : c = 'e' ∨ c = 'E'
    · rw [if_pos h, if_pos (he.2 h), splitSign_upper]
      simp only [strIsDigit_upper]
      split
      · next hd => rw [digVal_upper hd]
      · rfl
    · rw [if_neg h, if_neg (fun h' => h (he.1 h'))]

/-- The digits after the point and what follows them. -/
def fracOf (r : Str) : Str × Str :=
  match r with
  | '.' :: r' => (r'.takeWhile isDigit, r'.dropWhile isDigit)
  | _ => ([], r)

theorem parseDec_fracOf (s : Str) : parseDec s =
    if (s.takeWhile isDigit).isEmpty && (fracOf (s.dropWhile isDigit)).1.isEmpty then none
    else (parseExp (fracOf (s.dropWhile isDigit)).2).map fun e =>
      (digVal (s.takeWhile isDigit ++ (fracOf (s.dropWhile isDigit)).1) : ℚ) *
        (10 : ℚ) ^ (e - ((fracOf (s.dropWhile isDigit)).1.length : ℤ)) := rfl

theorem fracOf_upper (r : Str) : fracOf (upper r) = ((fracOf r).1, upper (fracOf r).2) := by
  have e : ∀ (d : Char) (r : Str), d ≠ '.' → fracOf (d :: r) = ([], d :: r) := by
    intro d r hd
    unfold fracOf
    split
    · simp_all
    · rfl
  cases r with
  | nil => rfl
  | cons c r =>
    have hc : upper (c :: r) = upperC c :: upper r := rfl
    by_cases h : c = '.'
    · subst h
      rw [hc, show upperC '.' = '.' by decide]
      unfold fracOf
      simp only
      rw [takeWhile_upper_digit, dropWhile_upper_digit]
    · have h' : upperC c ≠ '.' := fun h1 => h ((upperC_eq_iff c (by decide) (by decide)).1 h1)
      rw [hc, e _ _ h, e _ _ h']
      rfl

theorem parseDec_upper (s : Str) : parseDec (upper s) = parseDec s := by
  rw [parseDec_fracOf, parseDec_fracOf, takeWhile_upper_digit, dropWhile_upper_digit, fracOf_upper,
    parseExp_upper]

theorem toFloat_upper (s : Str) : toFloat (upper s) = toFloat s := by
  unfold toFloat pyFloat
  rw [strip_upper, unUnderscore_upper]
  cases unUnderscore false (strip s) with
  | none => rfl
  | some t => simp only [Option.map_some, splitSign_upper, lower_upper, parseDec_upper]

/-! ### the zone -/

theorem pyFind_char {c : Char} {a : Str} (h : c ∉ a) (r : Str) :
    pyFind [c] (a ++ c :: r) = a.length := by
  induction a with
  | nil =>
    rw [List.nil_append, pyFind, if_pos (by simp)]
    rfl
  | cons d a ih =>
    rw [List.mem_cons, not_or] at h
    rw [List.cons_append, pyFind, if_neg (by simpa using h.1), ih h.2, if_neg (by omega)]
    simp

theorem pyFind_none {c : Char} {p s : Str} (h : c ∉ s) : pyFind (c :: p) s = -1 := by
  induction s with
  | nil => rfl
  | cons d s ih =>
    rw [List.mem_cons, not_or] at h
    rw [pyFind, if_neg (by simp [h.1]), ih h.2]
    rfl

theorem sliceIdx_nat (n k : ℕ) : sliceIdx n (k : ℤ) = k := by
  unfold sliceIdx
  rw [if_neg (by omega)]
  simp

theorem replaceFrom_skip (pat rep : Str) (a s : Str) :
    replaceFrom pat rep a.length (a ++ s) = replaceFrom pat rep 0 s := by
  induction a with
  | nil => rfl
  | cons c a ih => rw [List.cons_append, List.length_cons, replaceFrom]; exact ih

theorem replaceFrom_keep {c : Char} {p rep a s : Str} (h : c ∉ a) :
    replaceFrom (c :: p) rep 0 (a ++ s) = a ++ replaceFrom (c :: p) rep 0 s := by
  induction a with
  | nil => rfl
  | cons d a ih =>
    rw [List.mem_cons, not_or] at h
    rw [List.cons_append, replaceFrom, if_neg (by simp [h.1]), ih h.2, List.cons_append]

theorem zoneTitle_eq {a m b : Str} (ha : '"' ∉ a) (hm : '"' ∉ m) (hb : '"' ∉ b) :
    zoneTitle (a ++ '"' :: (m ++ '"' :: b)) = (some m, a ++ ("PLACEHOLDER".toList ++ b)) := by
  unfold zoneTitle
  simp only
  rw [pyFind_char ha, if_pos (by omega)]
  have s1 : pySlice (a ++ '"' :: (m ++ '"' :: b)) ((a.length : ℤ) + 1)
      ((a ++ '"' :: (m ++ '"' :: b)).length : ℤ) = m ++ '"' :: b := by
    unfold pySlice
    rw [sliceIdx_nat, show ((a.length : ℤ) + 1) = ((a.length + 1 : ℕ) : ℤ) by simp, sliceIdx_nat,
      List.take_length, List.drop_append]
    simp
  rw [s1, pyFind_char hm]
  have s2 : pySlice (a ++ '"' :: (m ++ '"' :: b)) ((a.length : ℤ) + 1)
      ((a.length : ℤ) + m.length + 2 - 1) = m := by
    unfold pySlice
    rw [show ((a.length : ℤ) + m.length + 2 - 1) = ((a.length + 1 + m.length : ℕ) : ℤ) by push_cast; ring,
      sliceIdx_nat, show ((a.length : ℤ) + 1) = ((a.length + 1 : ℕ) : ℤ) by simp, sliceIdx_nat,
      List.drop_take, List.drop_append, List.drop_of_length_le (by omega)]
    simp
  have s3 : pySlice (a ++ '"' :: (m ++ '"' :: b)) (a.length : ℤ)
      ((a.length : ℤ) + m.length + 2) = '"' :: (m ++ ['"']) := by
    unfold pySlice
    rw [show ((a.length : ℤ) + m.length + 2) = ((a.length + (m.length + 2) : ℕ) : ℤ) by push_cast; ring,
      sliceIdx_nat, sliceIdx_nat, List.drop_take, List.drop_append]
    simp [List.take_append]
  rw [s2, s3]
  congr 1
  unfold replaceAll
  rw [replaceFrom_keep ha, replaceFrom, if_pos]
  · rw [show ('"' :: (m ++ ['"'])).length - 1 = (m ++ ['"']).length by simp,
      show m ++ '"' :: b = (m ++ ['"']) ++ b by simp, replaceFrom_skip]
    have := replaceFrom_keep (p := m ++ ['"']) (rep := "PLACEHOLDER".toList) (s := []) hb
    rw [List.append_nil] at this
    rw [this, replaceFrom, List.append_nil]
  · rw [List.isPrefixOf_iff_prefix]
    exact ⟨b, by simp⟩

/-- The text of a zone. -/
def zoneText (u : Str) (n : ℕ) : Str :=
  "ZONE T=\"".toList ++ u ++ " SEC\"  I = ".toList ++ padLeft 8 (natStr n)

theorem natStr_ne_nil (n : ℕ) : natStr n ≠ [] := by
  intro h
  have := congrArg List.length h
  unfold natStr numDigits at this
  rw [padDigits_length] at this
  simp at this

theorem natStr_nospace (n : ℕ) : ∀ c ∈ natStr n, isSpace c = false :=
  fun c hc => isSpace_of_isDigit (natStr_isDigit n c hc)

theorem natStr_notMem (n : ℕ) {c : Char} (h : isDigit c = false) : c ∉ natStr n := by
  intro hc
  rw [natStr_isDigit n c hc] at h
  cases h

theorem pyInt_natStr (n : ℕ) : pyInt (natStr n) = some (n : ℤ) := by
  have := pyInt_intStr (n : ℤ)
  unfold intStr at this
  rw [if_neg (by omega)] at this
  simpa using this

theorem padLeft_notMem {c : Char} {w : ℕ} {s : Str} (hc : c ≠ ' ') (h : c ∉ s) : c ∉ padLeft w s := by
  intro hm
  rcases List.mem_append.1 hm with hm | hm
  · exact hc (List.eq_of_mem_replicate hm)
  · exact h hm

theorem readZone_text {u : Str} (hu : '"' ∉ u) (n : ℕ) :
    readZone (zoneText u n) = .ok
      [("T".toList, .txt (u ++ " SEC".toList)), ("I".toList, .int n)] := by
  have hd : (zoneText u n).drop 5 = "T=".toList ++ '"' :: ((u ++ " SEC".toList) ++
      '"' :: ("  I = ".toList ++ padLeft 8 (natStr n))) := by
    unfold zoneText
    rw [show "ZONE T=\"".toList = "ZONE ".toList ++ ("T=".toList ++ ['"']) by decide,
      show " SEC\"  I = ".toList = " SEC".toList ++ ('"' :: "  I = ".toList) by decide,
      List.append_assoc, List.append_assoc, List.append_assoc]
    rw [show (5 : ℕ) = "ZONE ".toList.length by decide, List.drop_left]
    simp only [List.append_assoc, List.cons_append, List.nil_append]
  have hn : ∀ c, isDigit c = false → c ≠ ' ' → c ∉ padLeft 8 (natStr n) :=
    fun c h h' => padLeft_notMem h' (natStr_notMem n h)
  have hnot : ∀ c, isDigit c = false → c ≠ ' ' → c ∉ "  I = ".toList →
      c ∉ "  I = ".toList ++ padLeft 8 (natStr n) := by
    intro c h1 h2 h3 hm
    rcases List.mem_append.1 hm with hm | hm
    · exact h3 hm
    · exact hn c h1 h2 hm
  unfold readZone
  rw [hd, zoneTitle_eq (by decide) (by
      intro hm
      rcases List.mem_append.1 hm with hm | hm
      · exact hu hm
      · revert hm; decide) (hnot '"' (by decide) (by decide) (by decide))]
  simp only
  have hl : "T=".toList ++ ("PLACEHOLDER".toList ++ ("  I = ".toList ++ padLeft 8 (natStr n))) =
      "T=PLACEHOLDER".toList ++ ("  I = ".toList ++ padLeft 8 (natStr n)) := by
    rw [← List.append_assoc]
    congr 1
  rw [hl]
  have hV : 'V' ∉ "T=PLACEHOLDER".toList ++ ("  I = ".toList ++ padLeft 8 (natStr n)) := by
    intro hm
    rcases List.mem_append.1 hm with hm | hm
    · revert hm; decide
    · exact hnot 'V' (by decide) (by decide) (by decide) hm
  have hloc : zoneLocation ("T=PLACEHOLDER".toList ++ ("  I = ".toList ++ padLeft 8 (natStr n))) =
      ([], "T=PLACEHOLDER".toList ++ ("  I = ".toList ++ padLeft 8 (natStr n))) := by
    unfold zoneLocation
    have : pyFind "VARLOCATION".toList ("T=PLACEHOLDER".toList ++ ("  I = ".toList ++
        padLeft 8 (natStr n))) = -1 := pyFind_none (c := 'V') (p := "ARLOCATION".toList) hV
    simp only [this]
    rw [if_neg (by decide)]
  rw [hloc]
  simp only
  have hcomma : ',' ∉ "T=PLACEHOLDER".toList ++ ("  I = ".toList ++ padLeft 8 (natStr n)) := by
    intro hm
    rcases List.mem_append.1 hm with hm | hm
    · revert hm; decide
    · exact hnot ',' (by decide) (by decide) (by decide) hm
  have hw : words ("T=PLACEHOLDER".toList ++ ("  I = ".toList ++ padLeft 8 (natStr n))) =
      ["T=PLACEHOLDER".toList, "I".toList, "=".toList, natStr n] := by
    have e : "  I = ".toList = "  ".toList ++ ("I".toList ++ (" ".toList ++ ("=".toList ++ " ".toList))) := by
      decide
    have hsp : ∀ (r : Str), ∀ c ∈ (" ".toList ++ r).head?, isSpace c = true := by
      intro r c hc
      have : c = ' ' := by simpa using hc.symm
      subst this; decide
    rw [words_token (by decide) (by decide) (by
      intro c hc
      have : c = ' ' := by simpa using hc.symm
      subst this; decide), e, List.append_assoc, List.append_assoc,
      List.append_assoc, List.append_assoc, words_spaces_append (by decide),
      words_token (by decide) (by decide) (hsp _), words_spaces_append (by decide),
      words_token (by decide) (by decide) (hsp _), words_spaces_append (by decide)]
    have := words_padLeft (w := 8) (r := []) (natStr_ne_nil n) (natStr_nospace n) (by simp)
    rw [List.append_nil] at this
    rw [this]
    rfl
  rw [uncomma_eq_self hcomma, hw]
  have hne : natStr n ≠ ['='] := by
    intro h
    have := natStr_notMem n (c := '=') (by decide)
    rw [h] at this
    simp at this
  have hf : (["T=PLACEHOLDER".toList, "I".toList, "=".toList, natStr n].filter (· ≠ ['='])) =
      ["T=PLACEHOLDER".toList, "I".toList, natStr n] := by
    rw [List.filter_cons_of_pos (by decide), List.filter_cons_of_pos (by decide),
      List.filter_cons_of_neg (by decide), List.filter_cons_of_pos (by simpa using hne), List.filter_nil]
  rw [hf]
  have hue : unequal (natStr n) = natStr n := by
    unfold unequal
    rw [List.filter_eq_self]
    intro c hc
    have : c ≠ '=' := by rintro rfl; exact natStr_notMem n (by decide) hc
    simpa using this
  have hloop : zoneLoop ["T=PLACEHOLDER".toList, "I".toList, natStr n] [] =
      .ok [("T".toList, .txt "PLACEHOLDER".toList), ("I".toList, .int n)] := by
    rw [zoneLoop, if_pos (by decide), if_pos (by decide)]
    have h1 : splitPair "T=PLACEHOLDER".toList = .ok ("T".toList, "PLACEHOLDER".toList) := by
      unfold splitPair; rfl
    have h2 : zoneValue "T".toList "PLACEHOLDER".toList = .ok (.txt "PLACEHOLDER".toList) := by rfl
    rw [h1, ok_bind]
    simp only
    rw [h2, ok_bind, zoneLoop, if_neg (by decide), hue]
    have h3 : zoneValue "I".toList (natStr n) = .ok (.int n) := by
      unfold zoneValue
      have : dictGet zoneTypes "I".toList = .ok true := by rfl
      rw [this, ok_bind, if_pos rfl, pyInt_natStr]
    rw [h3, ok_bind, zoneLoop]
    rfl
  rw [hloop, ok_bind]
  have hne2 : u ++ " SEC".toList ≠ [] := by simp
  obtain ⟨c, s, hcs⟩ := List.exists_cons_of_ne_nil hne2
  rw [hcs]
  rfl

theorem fmtE_upper_quote (p : ℕ) (x : Flt) : '"' ∉ upper (fmtE p x) := by
  intro h
  unfold upper at h
  obtain ⟨c, hc, he⟩ := List.mem_map.1 h
  have := (upperC_eq_iff c (d := '"') (by decide) (by decide)).1 he
  exact (fmtE_chars p x c hc).2.1 this

theorem tecZoneOf_text (t : Flt) (n : ℕ) :
    tecZoneOf (zoneText (padLeft 14 (upper (fmtE 7 t))) n) = .ok (some (quant 7 t), (n : ℤ)) := by
  unfold tecZoneOf
  rw [readZone_text (padLeft_notMem (by decide) (fmtE_upper_quote 7 t)), ok_bind]
  have hw : words (padLeft 14 (upper (fmtE 7 t)) ++ " SEC".toList) =
      [upper (fmtE 7 t), "SEC".toList] := by
    rw [words_padLeft (by simp [upper, fmtE_ne_nil]) (by
      intro c hc
      unfold upper at hc
      obtain ⟨d, hd, rfl⟩ := List.mem_map.1 hc
      rw [upperC_space]
      exact fmtE_nospace 7 t d hd) (by decide)]
    rfl
  have l1 : ([("T".toList, ZVal.txt (padLeft 14 (upper (fmtE 7 t)) ++ " SEC".toList)),
      ("I".toList, ZVal.int n)] : Zone).lookup "T".toList =
      some (.txt (padLeft 14 (upper (fmtE 7 t)) ++ " SEC".toList)) := by rfl
  have l2 : ([("T".toList, ZVal.txt (padLeft 14 (upper (fmtE 7 t)) ++ " SEC".toList)),
      ("I".toList, ZVal.int n)] : Zone).lookup "I".toList = some (.int n) := by rfl
  rw [l1, l2]
  simp only
  rw [hw]
  have : rowAt [upper (fmtE 7 t), "SEC".toList] 0 = .ok (upper (fmtE 7 t)) := rfl
  rw [this, ok_bind, toFloat_upper, toFloat_fmtE, ok_bind, ok_bind]

/-- The line of a zone as written. -/
def zoneLine (t : Flt) (n : ℕ) : Str :=
  " ZONE T=\"".toList ++ padLeft 14 (fmtE 7 t) ++ " SEC\"  I = ".toList ++
      padLeft 8 (natStr n) ++ ['\n']

theorem upper_append (a b : Str) : upper (a ++ b) = upper a ++ upper b := by simp [upper]

theorem upper_padLeft (w : ℕ) (s : Str) : upper (padLeft w s) = padLeft w (upper s) := by
  unfold padLeft
  rw [upper_append]
  congr 1
  simp [upper, blanks]
  exact Or.inr (by decide)

theorem upper_natStr (n : ℕ) : upper (natStr n) = natStr n := by
  unfold upper
  conv_rhs => rw [← List.map_id (natStr n)]
  exact List.map_congr_left fun c hc => upperC_eq_self (natStr_isDigit n c hc)

theorem strip_zoneLine (t : Flt) (n : ℕ) :
    strip (upper (zoneLine t n)) = zoneText (padLeft 14 (upper (fmtE 7 t))) n := by
  unfold zoneLine
  rw [upper_append, upper_append, upper_append, upper_append, upper_padLeft, upper_padLeft,
    upper_natStr]
  have e1 : upper " ZONE T=\"".toList = [' '] ++ "ZONE T=\"".toList := by decide
  have e2 : upper " SEC\"  I = ".toList = " SEC\"  I = ".toList := by decide
  have e3 : upper ['\n'] = ['\n'] := by decide
  rw [e1, e2, e3, List.append_assoc, List.append_assoc, List.append_assoc, List.append_assoc,
    strip_spaces_append (by decide), ← List.append_assoc, ← List.append_assoc, ← List.append_assoc,
    strip_line]
  · rfl
  · intro c hc
    have : c = 'Z' := by simpa using hc.symm
    subst this; decide
  · intro c hc
    unfold padLeft at hc
    rw [List.getLast?_append_of_ne_nil _ (by simp [natStr_ne_nil]),
      List.getLast?_append_of_ne_nil _ (natStr_ne_nil n)] at hc
    exact natStr_nospace n c (List.mem_of_mem_getLast? hc)

/-! ### the table -/

theorem tecRow_read {xs : List Flt} (h : ∀ x ∈ xs, TecNum x) :
    (words (strip (tecRow xs))).mapM toFloat = .ok (xs.map (quant 12)) := by
  unfold tecRow
  rw [words_strip, List.append_assoc, words_spaces_append (blanks_space 18)]
  have e : xs.flatMap (fun x => padLeft 20 (fmtE 12 x)) = (xs.map (fmtE 12)).flatMap (padLeft 20) := by
    rw [List.flatMap_map]
  rw [e, words_columns (by
    intro t ht
    obtain ⟨x, hx, rfl⟩ := List.mem_map.1 ht
    exact ⟨fmtE_ne_nil 12 x, h x hx, fmtE_nospace 12 x⟩) (by simp; decide), List.mapM_map,
    mapM_ok (f := toFloat ∘ fmtE 12) (g := quant 12) fun x _ => toFloat_fmtE 12 x]

theorem tecRows_read {rows : List (List Flt)} (h : ∀ xs ∈ rows, ∀ x ∈ xs, TecNum x) (rest : List Str) :
    tecRows rows.length (rows.map tecRow ++ rest) =
      .ok (rows.map fun xs => ⟨[], xs.map (quant 12)⟩, rest) := by
  induction rows with
  | nil => rfl
  | cons xs rows ih =>
    rw [List.length_cons, tecRows, List.map_cons, List.cons_append]
    simp only [List.headD_cons, List.tail_cons]
    rw [tecRow_read (h xs (by simp)), ok_bind, ih fun ys hy => h ys (List.mem_cons_of_mem _ hy)]
    rfl

/-- The lines of an output. -/
def tecLines (vars : List Str) (o : Output Str Flt) : List Str :=
  zoneLine (o.time.getD .nan) o.labels.length ::
    (List.range o.labels.length).map fun i => tecRow (vars.map (cellOf o.data i))

/-- What is read of an output. -/
def tecRead (vars : List Str) (o : Output Str Flt) : TecOut :=
  ⟨o.time.map (quant 7), columnsOf vars (stepRead (fun _ => []) vars o).2⟩

theorem tecStep_eq {o : Output Str Flt} (ht : o.time.isSome = true) (h : (o.data.map (·.1)).Nodup)
    (ho : Full o) {vars : List Str} (hx : "X".toList ∈ vars)
    (hv : ∀ k ∈ vars, k ∈ o.data.map (·.1)) : tecStep vars o = .ok (tecLines vars o) := by
  obtain ⟨t, ht⟩ := Option.isSome_iff_exists.1 ht
  unfold tecStep tecZone
  obtain ⟨⟨k, v⟩, hm, hk⟩ := List.mem_map.1 (hv _ hx)
  simp only at hk
  have hlen := ho _ hm
  simp only at hlen
  rw [← hk, dictGet_of_mem h hm, ok_bind, ht, petraTable_eq h ho (List.ne_nil_of_mem hx) hv]
  simp only
  rw [ok_bind, ok_bind]
  unfold tecLines zoneLine
  rw [ht, hlen, List.map_map]
  rfl

theorem tecTurn {vars : List Str} {rows : List (List Flt)} (h : ∀ xs ∈ rows, ∀ x ∈ xs, TecNum x)
    (hl : ∀ xs ∈ rows, xs.length = vars.length) (t : Flt) (zone : Option (Option Flt × ℤ)) (f : ℕ)
    (rest : List Str) :
    tecLoop vars (f + 1) zone (zoneText (padLeft 14 (upper (fmtE 7 t))) rows.length)
      (rows.map tecRow ++ rest) =
      if strip (upper (rest.headD [])) = [] then
        .ok [⟨some (quant 7 t), columnsOf vars (rows.map fun xs => ⟨[], xs.map (quant 12)⟩)⟩]
      else (do
        let outs ← tecLoop vars f (some (some (quant 7 t), (rows.length : ℤ)))
          (strip (upper (rest.headD []))) rest.tail
        .ok (⟨some (quant 7 t), columnsOf vars (rows.map fun xs => ⟨[], xs.map (quant 12)⟩)⟩ ::
          outs)) := by
  rw [tecLoop, if_pos (by
    unfold zoneText startsWith
    rw [List.isPrefixOf_iff_prefix, List.append_assoc, List.append_assoc]
    exact (by decide : "ZONE".toList <+: "ZONE T=\"".toList).trans (List.prefix_append _ _)),
    tecZoneOf_text, ok_bind, ok_bind]
  simp only [Int.toNat_natCast]
  rw [tecRows_read h, ok_bind]
  simp only
  rw [if_pos]
  rw [List.all_eq_true]
  intro r hr
  obtain ⟨xs, hxs, rfl⟩ := List.mem_map.1 hr
  cases rows with
  | nil => simp at hxs
  | cons ys rows => simp [nColumns, hl xs hxs, hl ys (by simp)]

theorem tecRead_eq (vars : List Str) {o : Output Str Flt} {t : Flt} (ht : o.time = some t) :
    (⟨some (quant 7 t), columnsOf vars (((List.range o.labels.length).map fun i =>
      vars.map (cellOf o.data i)).map fun xs => ⟨[], xs.map (quant 12)⟩)⟩ : TecOut) =
      tecRead vars o := by
  unfold tecRead stepRead
  rw [ht]
  simp only [Option.map_some]
  rw [zipIdx_map_snd o.labels fun i => (⟨[], (vars.map (cellOf o.data i)).map (quant 12)⟩ : CsvRow),
    List.map_map]
  rfl

theorem tecLoop_eq {vars : List Str} {outs : List (Output Str Flt)} {o : Output Str Flt}
    (h : ∀ o' ∈ o :: outs, o'.time.isSome = true ∧
      ∀ (i : ℕ), i < o'.labels.length → ∀ k ∈ vars, TecNum (cellOf o'.data i k))
    (zone : Option (Option Flt × ℤ)) (fuel : ℕ) (hf : outs.length < fuel) :
    tecLoop vars fuel zone (strip (upper ((tecLines vars o).headD [])))
      ((tecLines vars o).tail ++ outs.flatMap (tecLines vars)) =
      .ok ((o :: outs).map (tecRead vars)) := by
  induction outs generalizing o zone fuel with
  | nil =>
    obtain ⟨f, rfl⟩ : ∃ f, fuel = f + 1 := ⟨fuel - 1, by simp at hf; omega⟩
    obtain ⟨h1, h3⟩ := h o (by simp)
    obtain ⟨t, ht⟩ := Option.isSome_iff_exists.1 h1
    have e := tecTurn (vars := vars)
      (rows := (List.range o.labels.length).map fun i => vars.map (cellOf o.data i)) (by
        intro xs hxs x hx
        obtain ⟨i, hi, rfl⟩ := List.mem_map.1 hxs
        obtain ⟨k, hk, rfl⟩ := List.mem_map.1 hx
        exact h3 i (List.mem_range.1 hi) k hk) (by
        intro xs hxs
        obtain ⟨i, hi, rfl⟩ := List.mem_map.1 hxs
        simp) t zone f []
    have e1 : strip (upper ((tecLines vars o).headD [])) = zoneText (padLeft 14 (upper (fmtE 7 t)))
        ((List.range o.labels.length).map fun i => vars.map (cellOf o.data i)).length := by
      unfold tecLines
      rw [List.headD_cons, strip_zoneLine, ht, List.length_map, List.length_range]
      rfl
    have e2 : (tecLines vars o).tail = ((List.range o.labels.length).map fun i =>
        vars.map (cellOf o.data i)).map tecRow := by
      unfold tecLines
      rw [List.tail_cons, List.map_map]
      rfl
    rw [e1, e2, List.flatMap_nil, e, if_pos (by decide)]
    rw [tecRead_eq vars ht]
    rfl
  | cons o' outs ih =>
    obtain ⟨f, rfl⟩ : ∃ f, fuel = f + 1 := ⟨fuel - 1, by simp at hf; omega⟩
    obtain ⟨h1, h3⟩ := h o (by simp)
    obtain ⟨t, ht⟩ := Option.isSome_iff_exists.1 h1
    have e := tecTurn (vars := vars)
      (rows := (List.range o.labels.length).map fun i => vars.map (cellOf o.data i)) (by
        intro xs hxs x hx
        obtain ⟨i, hi, rfl⟩ := List.mem_map.1 hxs
        obtain ⟨k, hk, rfl⟩ := List.mem_map.1 hx
        exact h3 i (List.mem_range.1 hi) k hk) (by
        intro xs hxs
        obtain ⟨i, hi, rfl⟩ := List.mem_map.1 hxs
        simp) t zone f ((o' :: outs).flatMap (tecLines vars))
    have e1 : strip (upper ((tecLines vars o).headD [])) = zoneText (padLeft 14 (upper (fmtE 7 t)))
        ((List.range o.labels.length).map fun i => vars.map (cellOf o.data i)).length := by
      unfold tecLines
      rw [List.headD_cons, strip_zoneLine, ht, List.length_map, List.length_range]
      rfl
    have e2 : (tecLines vars o).tail = ((List.range o.labels.length).map fun i =>
        vars.map (cellOf o.data i)).map tecRow := by
      unfold tecLines
      rw [List.tail_cons, List.map_map]
      rfl
    have e3 : ((o' :: outs).flatMap (tecLines vars)).headD [] = (tecLines vars o').headD [] := by
      rw [List.flatMap_cons]
      unfold tecLines
      rfl
    have e4 : ((o' :: outs).flatMap (tecLines vars)).tail =
        (tecLines vars o').tail ++ outs.flatMap (tecLines vars) := by
      rw [List.flatMap_cons]
      unfold tecLines
      rfl
    have e5 : strip (upper ((tecLines vars o').headD [])) ≠ [] := by
      unfold tecLines
      rw [List.headD_cons, strip_zoneLine]
      unfold zoneText
      simp
    rw [e1, e2, e, e3, e4, if_neg e5, ih (fun x hx => h x (List.mem_cons_of_mem _ hx)) _ _ (by
      simp at hf; omega), ok_bind, tecRead_eq vars ht]
    rfl

end Verif.Model
