import Verif.Lemmas.NumText
import Verif.Spec.Opts

/-! Helper lemmas: a text with a blank inside is not a number. -/

set_option linter.unusedSimpArgs false

namespace Verif.Py
open Verif.Spec

theorem unUnderscore_mem {b : Bool} {t r : Str} (h : unUnderscore b t = some r) :
    ∀ c ∈ t, c = '_' ∨ c ∈ r := by
  induction b, t using unUnderscore.induct generalizing r with
  | case1 => simp
  | case2 prev c t hc ih =>
    rw [unUnderscore, if_pos hc] at h
    obtain ⟨u, hu, rfl⟩ := Option.map_eq_some_iff.1 h
    intro x hx
    simp only [List.mem_cons] at hx ⊢
    rcases hx with rfl | rfl | hx
    · exact Or.inl rfl
    · exact Or.inr (Or.inl rfl)
    · rcases ih hu x hx with h | h
      · exact Or.inl h
      · exact Or.inr (Or.inr h)
  | case3 prev c t hc =>
    rw [unUnderscore, if_neg hc] at h
    exact absurd h (by simp)
  | case4 => simp [unUnderscore] at h
  | case5 b c t h1 h2 ih =>
    rw [unUnderscore] at h
    · obtain ⟨u, hu, rfl⟩ := Option.map_eq_some_iff.1 h
      intro x hx
      rcases List.mem_cons.1 hx with rfl | hx
      · exact Or.inr (by simp)
      · rcases ih hu x hx with h | h
        · exact Or.inl h
        · exact Or.inr (by simp [h])
    · exact h1
    · exact h2

theorem splitSign_mem (t : Str) : ∀ c ∈ t, isSpace c = true → c ∈ (splitSign t).2 := by
  intro c hc hs
  unfold splitSign
  split
  · rcases List.mem_cons.1 hc with rfl | hc
    · exact absurd hs (by decide)
    · exact hc
  · rcases List.mem_cons.1 hc with rfl | hc
    · exact absurd hs (by decide)
    · exact hc
  · exact hc

theorem parseExp_nospace {s : Str} (h : (parseExp s).isSome) : ∀ c ∈ s, isSpace c = false := by
  intro c hc
  by_contra hs
  have hs : isSpace c = true := by simpa using hs
  cases s with
  | nil => simp at hc
  | cons x r =>
    rw [parseExp] at h
    split at h
    · rename_i hx
      simp only at h
      split at h
      · rename_i hd
        rcases List.mem_cons.1 hc with rfl | hc
        · rcases hx with rfl | rfl <;> exact absurd hs (by decide)
        · have := splitSign_mem r c hc hs
          have hdig : isDigit c = true := by
            unfold strIsDigit at hd
            simp only [Bool.and_eq_true, List.all_eq_true] at hd
            exact hd.2 c this
          rw [isSpace_of_isDigit hdig] at hs
          cases hs
      · simp at h
    · simp at h

theorem parseDec_nospace {s : Str} (h : (parseDec s).isSome) : ∀ c ∈ s, isSpace c = false := by
  have hdig : ∀ t : Str, ∀ c ∈ t.takeWhile isDigit, isSpace c = false := by
    intro t c hc
    refine isSpace_of_isDigit ?_
    have := List.all_takeWhile (p := isDigit) (l := t)
    rw [List.all_eq_true] at this
    exact this c hc
  have key : ∀ t : Str, (parseExp (t.dropWhile isDigit)).isSome → ∀ c ∈ t, isSpace c = false := by
    intro t ht c hc
    rw [← List.takeWhile_append_dropWhile (p := isDigit) (l := t)] at hc
    rcases List.mem_append.1 hc with hc | hc
    · exact hdig t c hc
    · exact parseExp_nospace ht c hc
  intro c hc
  unfold parseDec at h
  simp only at h
  cases hr : s.dropWhile isDigit with
  | nil =>
    rw [← List.takeWhile_append_dropWhile (p := isDigit) (l := s), hr, List.append_nil] at hc
    exact hdig s c hc
  | cons x r =>
    rw [hr] at h
    rw [← List.takeWhile_append_dropWhile (p := isDigit) (l := s), hr] at hc
    rcases List.mem_append.1 hc with hc | hc
    · exact hdig s c hc
    · by_cases hx : x = '.'
      · subst hx
        simp only at h
        split at h
        · simp at h
        · rw [Option.isSome_map] at h
          rcases List.mem_cons.1 hc with rfl | hc
          · decide
          · exact key r h c hc
      · split at h
        · rename_i heq; exact absurd (List.cons.inj heq).1 hx
        · split at h
          · simp at h
          · rw [Option.isSome_map] at h
            exact parseExp_nospace h c hc

theorem lowerC_space {c : Char} (h : isSpace c = true) : lowerC c = c := by
  unfold lowerC
  split
  · rename_i hc
    unfold isSpace at h
    simp only [Bool.and_eq_true, decide_eq_true_eq] at hc
    simp only [Bool.or_eq_true, Bool.and_eq_true, decide_eq_true_eq, beq_iff_eq] at h
    omega
  · rfl

theorem pyFloat_nospace {s : Str} (h : (pyFloat s).isSome) : ∀ c ∈ strip s, isSpace c = false := by
  intro c hc
  by_contra hs
  have hs : isSpace c = true := by simpa using hs
  unfold pyFloat at h
  cases hu : unUnderscore false (strip s) with
  | none => rw [hu] at h; simp at h
  | some t =>
    rw [hu] at h
    simp only at h
    have hct : c ∈ t := by
      rcases unUnderscore_mem hu c hc with rfl | h
      · exact absurd hs (by decide)
      · exact h
    have hcr := splitSign_mem t c hct hs
    have hl : c ∈ lower (splitSign t).2 := by
      unfold lower
      exact List.mem_map.2 ⟨c, hcr, lowerC_space hs⟩
    split at h
    · rename_i hinf
      rcases hinf with e | e <;> rw [e] at hl <;> simp at hl <;> revert hs <;>
        rcases hl with rfl | rfl | rfl | rfl | rfl | rfl | rfl | rfl <;> decide
    · split at h
      · rename_i hnan
        rw [hnan] at hl; simp at hl; revert hs
        rcases hl with rfl | rfl | rfl <;> decide
      · rw [Option.isSome_map] at h
        rw [parseDec_nospace h c hcr] at hs
        cases hs

/-- A text that starts and ends with a visible character and has a blank in
between is not a number, not even with a missing exponent letter. -/
theorem not_numberText {s : Str} (h1 : ∀ c ∈ s.head?, isSpace c = false)
    (h2 : ∀ c ∈ s.getLast?, isSpace c = false) {x : Char} (hx : x ∈ s) (hs : isSpace x = true) :
    ¬ NumberText s := by
  rintro (h | h)
  · have := pyFloat_nospace h x (by rw [strip_eq_self_of h1 h2]; exact hx)
    rw [this] at hs; cases hs
  · have e : ∀ n, strip (s.take n ++ 'e' :: s.drop n) = s.take n ++ 'e' :: s.drop n := by
      intro n
      apply strip_eq_self_of
      · intro c hc
        cases ht : s.take n with
        | nil => rw [ht] at hc; simp at hc; subst hc; decide
        | cons y ys =>
          rw [ht] at hc
          simp at hc; subst hc
          apply h1
          cases s with
          | nil => simp at ht
          | cons z zs =>
            cases n with
            | zero => simp at ht
            | succ n => simp at ht; simp [ht.1]
      · intro c hc
        rw [List.getLast?_append_cons] at hc
        cases hd : s.drop n with
        | nil => rw [hd] at hc; simp at hc; subst hc; decide
        | cons y ys =>
          rw [hd, List.getLast?_cons_cons, ← hd] at hc
          apply h2
          rw [List.getLast?_drop] at hc
          split at hc
          · simp at hc
          · exact hc
    have := pyFloat_nospace h x (by
      rw [e]
      rw [← List.take_append_drop (s.length - 4) s] at hx
      rcases List.mem_append.1 hx with h | h
      · exact List.mem_append_left _ h
      · exact List.mem_append_right _ (List.mem_cons_of_mem _ h))
    rw [this] at hs; cases hs

end Verif.Py
