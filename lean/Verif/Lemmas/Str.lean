import Verif.Py.Str
import Mathlib.Data.List.Basic
import Mathlib.Algebra.Order.Group.Nat
import Mathlib.Algebra.Order.Ring.Nat
import Mathlib.Tactic.Ring
import Mathlib.Tactic.Linarith
import Mathlib.Tactic.IntervalCases

/-! Helper lemmas about text. -/

namespace Verif.Py

theorem digitChar_toNat {d : ℕ} (h : d < 10) : (digitChar d).toNat = 48 + d := by
  interval_cases d <;> rfl

theorem isDigit_digitChar {d : ℕ} (h : d < 10) : isDigit (digitChar d) = true := by
  simp [isDigit, digitChar_toNat h]; omega

theorem digitVal_digitChar {d : ℕ} (h : d < 10) : digitVal (digitChar d) = d := by
  simp [digitVal, digitChar_toNat h]

theorem isSpace_of_isDigit {c : Char} (h : isDigit c = true) : isSpace c = false := by
  have h' : 48 ≤ c.toNat ∧ c.toNat ≤ 57 := by simpa [isDigit] using h
  obtain ⟨h1, h2⟩ := h'
  simp only [isSpace]
  generalize c.toNat = n at *
  interval_cases n <;> rfl

theorem ne_of_isDigit {c d : Char} (h : isDigit c = true) (h' : isDigit d = false) : c ≠ d := by
  rintro rfl; simp [h] at h'

@[simp] theorem padDigits_length (k n : ℕ) : (padDigits k n).length = k := by
  induction k generalizing n with
  | zero => rfl
  | succ k ih => simp [padDigits, ih]

theorem padDigits_isDigit (k n : ℕ) : ∀ c ∈ padDigits k n, isDigit c = true := by
  induction k generalizing n with
  | zero => simp [padDigits]
  | succ k ih =>
    intro c hc
    simp only [padDigits, List.mem_append, List.mem_singleton] at hc
    rcases hc with hc | rfl
    · exact ih _ _ hc
    · exact isDigit_digitChar (Nat.mod_lt _ (by norm_num))

theorem digVal_foldl (s : Str) (a : ℕ) :
    s.foldl (fun a c => 10 * a + digitVal c) a = a * 10 ^ s.length + digVal s := by
  induction s generalizing a with
  | nil => simp [digVal]
  | cons c s ih =>
    simp only [List.foldl_cons, digVal, List.length_cons]
    rw [ih, ih (10 * 0 + digitVal c)]
    ring

theorem digVal_append (s t : Str) : digVal (s ++ t) = digVal s * 10 ^ t.length + digVal t := by
  rw [digVal, List.foldl_append, digVal_foldl]; rfl

theorem digVal_padDigits (k n : ℕ) : digVal (padDigits k n) = n % 10 ^ k := by
  induction k generalizing n with
  | zero => simp [padDigits, digVal, Nat.mod_one]
  | succ k ih =>
    rw [padDigits, digVal_append, ih]
    have h : digVal [digitChar (n % 10)] = n % 10 := by
      simp [digVal, digitVal_digitChar (Nat.mod_lt n (by norm_num : 0 < 10))]
    rw [h, List.length_singleton, pow_one, pow_succ, mul_comm (10 ^ k) 10, Nat.mod_mul]
    ring

/-! ### strip -/

theorem dropWhile_nil_iff (p : Char → Bool) (s : Str) :
    s.dropWhile p = [] ↔ ∀ c ∈ s, p c = true := by
  induction s with
  | nil => simp
  | cons a s ih =>
    cases h : p a <;> simp [List.dropWhile, h, ih]


theorem rstrip_eq_self {s : Str} (h : ∀ c ∈ s.getLast?, isSpace c = false) : rstrip s = s := by
  rcases List.eq_nil_or_concat s with rfl | ⟨t, c, rfl⟩
  · rfl
  · have : isSpace c = false := h c (by simp)
    simp [rstrip, this]

theorem lstrip_eq_self {s : Str} (h : ∀ c ∈ s.head?, isSpace c = false) : lstrip s = s := by
  cases s with
  | nil => rfl
  | cons c t => simp [lstrip, List.dropWhile, h c (by simp)]

theorem strip_eq_self_of {s : Str} (h1 : ∀ c ∈ s.head?, isSpace c = false)
    (h2 : ∀ c ∈ s.getLast?, isSpace c = false) : strip s = s := by
  rw [strip, lstrip_eq_self h1, rstrip_eq_self h2]

theorem strip_eq_self {s : Str} (h : ∀ c ∈ s, isSpace c = false) : strip s = s :=
  strip_eq_self_of (fun c hc => h c (List.mem_of_mem_head? hc))
    (fun c hc => h c (List.mem_of_mem_getLast? hc))

theorem isSpace_blank : isSpace ' ' = true := by decide

theorem lstrip_spaces_append {b s : Str} (h : ∀ c ∈ b, isSpace c = true) :
    lstrip (b ++ s) = lstrip s := by
  induction b with
  | nil => rfl
  | cons c b ih =>
    have : isSpace c = true := h c (by simp)
    simp only [lstrip, List.cons_append, List.dropWhile, this]
    exact ih (fun c hc => h c (by simp [hc]))

theorem rstrip_append_spaces {b s : Str} (h : ∀ c ∈ b, isSpace c = true) :
    rstrip (s ++ b) = rstrip s := by
  have := lstrip_spaces_append (b := b.reverse) (s := s.reverse) (by simpa using h)
  simp only [rstrip, List.reverse_append]
  simp only [lstrip] at this
  rw [this]

theorem lstrip_all_space {s : Str} (h : ∀ c ∈ s, isSpace c = true) : lstrip s = [] := by
  simpa [lstrip, dropWhile_nil_iff] using h

theorem lstrip_append_of_ne {s b : Str} (h : lstrip s ≠ []) : lstrip (s ++ b) = lstrip s ++ b := by
  induction s with
  | nil => simp [lstrip] at h
  | cons c s ih =>
    by_cases hc : isSpace c = true
    · simp only [lstrip, List.dropWhile, hc, List.cons_append] at *
      exact ih h
    · simp only [Bool.not_eq_true] at hc
      simp [lstrip, List.dropWhile, hc]

theorem lstrip_append_spaces {s b : Str} (hb : ∀ c ∈ b, isSpace c = true) :
    lstrip (s ++ b) = lstrip s ++ b ∨ (lstrip s = [] ∧ lstrip (s ++ b) = []) := by
  by_cases h : lstrip s = []
  · right
    refine ⟨h, ?_⟩
    apply lstrip_all_space
    intro c hc
    rcases List.mem_append.1 hc with hc | hc
    · have : ∀ x ∈ s, isSpace x = true := by simpa [lstrip, dropWhile_nil_iff] using h
      exact this c hc
    · exact hb c hc
  · left; exact lstrip_append_of_ne h

theorem strip_append_spaces {s b : Str} (hb : ∀ c ∈ b, isSpace c = true) :
    strip (s ++ b) = strip s := by
  rcases lstrip_append_spaces (s := s) hb with h | ⟨h1, h2⟩
  · rw [strip, h, rstrip_append_spaces hb, strip]
  · rw [strip, h2, strip, h1]

theorem strip_spaces_append {s b : Str} (hb : ∀ c ∈ b, isSpace c = true) :
    strip (b ++ s) = strip s := by
  rw [strip, lstrip_spaces_append hb, strip]

theorem blanks_space (n : ℕ) : ∀ c ∈ blanks n, isSpace c = true := by
  intro c hc
  rw [List.eq_of_mem_replicate hc]; exact isSpace_blank

@[simp] theorem blanks_length (n : ℕ) : (blanks n).length = n := by simp [blanks]

theorem strip_padLeft (n : ℕ) (s : Str) : strip (padLeft n s) = strip s :=
  strip_spaces_append (blanks_space _)

theorem strip_padRight (n : ℕ) (s : Str) : strip (padRight n s) = strip s :=
  strip_append_spaces (blanks_space _)

theorem strip_blanks (n : ℕ) : strip (blanks n) = [] := by
  rw [strip, lstrip_all_space (blanks_space n)]; rfl

theorem strip_eq_nil_iff (s : Str) : strip s = [] ↔ ∀ c ∈ s, isSpace c = true := by
  constructor
  · intro h
    by_contra hcon
    push Not at hcon
    obtain ⟨c, hc, hs⟩ := hcon
    have hl : lstrip s ≠ [] := by
      intro h0
      have : ∀ x ∈ s, isSpace x = true := by simpa [lstrip, dropWhile_nil_iff] using h0
      exact hs (this c hc)
    have hh : ∀ x ∈ (lstrip s).head?, isSpace x = false := by
      intro x hx
      have := List.head?_dropWhile_not isSpace s
      simp only [lstrip] at hx
      rw [Option.mem_def] at hx
      rw [hx] at this
      simpa using this
    have h2 : ∀ x ∈ lstrip s, isSpace x = true := by
      have : (lstrip s).reverse.dropWhile isSpace = [] := by
        simpa [strip, rstrip] using h
      simpa [dropWhile_nil_iff] using this
    cases hls : lstrip s with
    | nil => exact hl hls
    | cons a t =>
      have h3 := hh a (by simp [hls])
      have h4 := h2 a (by simp [hls])
      simp [h3] at h4
  · intro h
    rw [strip, lstrip_all_space h]; rfl

theorem padLeft_length (n : ℕ) (s : Str) : (padLeft n s).length = max n s.length := by
  simp [padLeft]; omega

theorem padRight_length (n : ℕ) (s : Str) : (padRight n s).length = max n s.length := by
  simp [padRight]; omega

theorem slice_append (a b c : Str) : slice (a ++ b ++ c) a.length b.length = b := by
  simp [slice]

end Verif.Py
