import Verif.Model.Cli
import Verif.Spec.Cli
import Mathlib.Data.List.Basic
import Mathlib.Tactic.Tauto

/-!
# Lemmas about lines of files
-/

namespace Verif.Model
open Verif.Py Verif.Spec

theorem splitLines_flatten (s : Str) : (splitLines s).flatten = s := by
  induction s with
  | nil => rfl
  | cons c s ih =>
    rw [splitLines]
    split
    · rename_i h; simp [ih]
    · revert ih
      cases splitLines s with
      | nil => intro ih; simp at ih; simp [← ih]
      | cons l ls => intro ih; simp only [List.flatten_cons] at ih; simp [← ih]

theorem splitLines_ne_nil {c : Char} {s : Str} : splitLines (c :: s) ≠ [] := by
  rw [splitLines]
  split
  · simp
  · split <;> simp

theorem splitLines_mem (s : Str) : ∀ l ∈ splitLines s, l ≠ [] ∧ '\n' ∉ l.dropLast := by
  induction s with
  | nil => simp [splitLines]
  | cons c s ih =>
    rw [splitLines]
    split
    · intro l hl
      rcases List.mem_cons.1 hl with rfl | hl
      · simp
      · exact ih l hl
    · rename_i hc
      revert ih
      cases splitLines s with
      | nil =>
        intro _ l hl
        rw [List.mem_singleton] at hl
        subst hl
        simp
      | cons l ls =>
        intro ih m hm
        rcases List.mem_cons.1 hm with rfl | hm
        · refine ⟨by simp, ?_⟩
          obtain ⟨h1, h2⟩ := ih l (by simp)
          rw [List.dropLast_cons_of_ne_nil h1, List.mem_cons]
          rintro (h | h)
          · exact hc h.symm
          · exact h2 h
        · exact ih m (List.mem_cons_of_mem _ hm)

theorem splitLines_newline (s : Str) : ∀ l ∈ (splitLines s).dropLast, l.getLast? = some '\n' := by
  induction s with
  | nil => simp [splitLines]
  | cons c s ih =>
    rw [splitLines]
    split
    · rename_i hc
      cases hs : splitLines s with
      | nil => simp
      | cons l ls =>
        rw [hs] at ih
        intro m hm
        rw [List.dropLast_cons_of_ne_nil (by simp)] at hm
        rcases List.mem_cons.1 hm with rfl | hm
        · simp [hc]
        · exact ih m hm
    · cases hs : splitLines s with
      | nil => simp
      | cons l ls =>
        rw [hs] at ih
        intro m hm
        cases ls with
        | nil => simp at hm
        | cons l' ls =>
          rw [List.dropLast_cons_of_ne_nil (by simp)] at hm ih
          rcases List.mem_cons.1 hm with rfl | hm
          · have hl : l ≠ [] := (splitLines_mem s l (by rw [hs]; simp)).1
            rw [List.getLast?_cons]
            have := ih l (by simp)
            rw [this]
            rfl
          · exact ih m (List.mem_cons_of_mem _ hm)

theorem isLines_splitLines (s : Str) : IsLines s (splitLines s) :=
  ⟨splitLines_flatten s, splitLines_mem s, splitLines_newline s⟩

theorem splitLines_no_newline {l : Str} (hl : l ≠ []) (h : '\n' ∉ l) : splitLines l = [l] := by
  induction l with
  | nil => exact absurd rfl hl
  | cons c l ih =>
    have hc : c ≠ '\n' := fun e => h (by simp [e])
    rw [splitLines, if_neg hc]
    cases l with
    | nil => rfl
    | cons d l =>
      rw [ih (by simp) (fun hm => h (List.mem_cons_of_mem _ hm))]

theorem splitLines_newline_append {l : Str} (h : '\n' ∉ l) (s : Str) :
    splitLines (l ++ '\n' :: s) = (l ++ ['\n']) :: splitLines s := by
  induction l with
  | nil => simp [splitLines]
  | cons c l ih =>
    have hc : c ≠ '\n' := fun e => h (by simp [e])
    rw [List.cons_append, splitLines, if_neg hc, ih (fun hm => h (List.mem_cons_of_mem _ hm))]
    rfl

theorem last_line {l : Str} (h : l.getLast? = some '\n') : l = l.dropLast ++ ['\n'] := by
  have hne : l ≠ [] := by rintro rfl; simp at h
  rw [List.getLast?_eq_some_getLast hne] at h
  injection h with h
  conv_lhs => rw [← List.dropLast_append_getLast hne, h]

/-- The lines of a text are determined. -/
theorem splitLines_eq {s : Str} {ls : List Str} (h : IsLines s ls) : splitLines s = ls := by
  induction ls generalizing s with
  | nil => rw [← h.1]; rfl
  | cons l ls ih =>
    obtain ⟨h1, h2, h3⟩ := h
    obtain ⟨hne, hn⟩ := h2 l (by simp)
    cases ls with
    | nil =>
      simp only [List.flatten_cons, List.flatten_nil, List.append_nil] at h1
      subst h1
      by_cases hl : l.getLast? = some '\n'
      · have e := last_line hl
        have := splitLines_newline_append hn []
        rw [show l.dropLast ++ '\n' :: [] = l from e.symm] at this
        first
          | rw [← e] at this; rw [this]; rfl
          | rw [this]; rfl
      · refine splitLines_no_newline hne fun hm => ?_
        rw [← List.dropLast_append_getLast hne, List.mem_append, List.mem_singleton] at hm
        rcases hm with hm | hm
        · exact hn hm
        · exact hl (by rw [List.getLast?_eq_some_getLast hne, ← hm])
    | cons l' ls =>
      have hl : l.getLast? = some '\n' := h3 l (by simp)
      have e := last_line hl
      rw [← h1, List.flatten_cons]
      have : l ++ (l' :: ls).flatten = l.dropLast ++ '\n' :: (l' :: ls).flatten := by
        conv_lhs => rw [e]
        simp
      rw [this, splitLines_newline_append hn, ← e]
      congr 1
      refine ih ⟨rfl, fun m hm => h2 m (List.mem_cons_of_mem _ hm), fun m hm => h3 m ?_⟩
      rw [List.dropLast_cons_of_ne_nil (by simp)]
      exact List.mem_cons_of_mem _ hm

theorem isEndLine_iff (l : Str) : isEndLine l = true ↔ EndRecord l := by
  simp only [isEndLine, List.contains_iff_mem, List.mem_cons, List.not_mem_nil, or_false]
  rfl

theorem isKnownLine_iff (l : Str) : isKnownLine l = true ↔ Counted l := by
  simp only [isKnownLine, List.contains_iff_mem, List.mem_cons, List.not_mem_nil, or_false]
  rfl

theorem endIndex_eq {before after : List Str} {e : Str} (h : ∀ l ∈ before, ¬ EndRecord l)
    (he : EndRecord e) : endIndex (before ++ e :: after) = before.length := by
  induction before with
  | nil =>
    cases after with
    | nil => rfl
    | cons a after => simp [endIndex, (isEndLine_iff e).2 he]
  | cons b before ih =>
    have hb : ¬ isEndLine b = true := fun h' => h b (by simp) ((isEndLine_iff b).1 h')
    have := ih fun l hl => h l (List.mem_cons_of_mem _ hl)
    cases hq : before ++ e :: after with
    | nil => simp at hq
    | cons q qs =>
      rw [List.cons_append, hq, endIndex, if_neg hb, ← hq, this, List.length_cons]
      simp

theorem endIndex_none {ls : List Str} (h : ∀ l ∈ ls, ¬ EndRecord l) :
    endIndex ls = ls.length - 1 := by
  induction ls with
  | nil => rfl
  | cons b ls ih =>
    have hb : ¬ isEndLine b = true := fun h' => h b (by simp) ((isEndLine_iff b).1 h')
    cases ls with
    | nil => rfl
    | cons q qs =>
      rw [endIndex, if_neg hb, ih fun l hl => h l (List.mem_cons_of_mem _ hl)]
      · simp
      · simp

theorem startsWith_take_iff (s p : Str) : startsWith s p = true ↔ s.take p.length = p := by
  unfold startsWith
  rw [List.isPrefixOf_iff_prefix, List.prefix_iff_eq_take]
  exact eq_comm

/-- The first line of a text begins like the text, as long as no newline is
concerned. -/
theorem opens_first {s l : Str} {ls : List Str} (hs : splitLines s = l :: ls) {p : Str}
    (hp : '\n' ∉ p) : startsWith l p = true ↔ s.take p.length = p := by
  obtain ⟨h1, h2, h3⟩ := isLines_splitLines s
  rw [hs] at h1 h2 h3
  rw [startsWith_take_iff, ← h1, List.flatten_cons]
  constructor
  · intro h
    rw [List.take_append_of_le_length, h]
    have := congrArg List.length h
    simp only [List.length_take] at this
    omega
  · intro h
    by_cases hl : p.length ≤ l.length
    · rwa [List.take_append_of_le_length hl] at h
    · exfalso
      cases ls with
      | nil =>
        have := congrArg List.length h
        simp at this
        omega
      | cons l' ls =>
        have hn : l.getLast? = some '\n' := h3 l (by simp)
        apply hp
        rw [← h, last_line hn, List.take_append]
        simp only [List.mem_append]
        left
        rw [List.take_of_length_le]
        · simp
        · rw [← last_line hn]; omega

theorem saveLoop_false (reset : Bool) (ls : List Str) (out : Str) :
    saveLoop reset false ls out =
      (out ++ ((if reset then ls.takeWhile fun l => !startsWith l "+++".toList else ls).flatten),
        .ok ()) := by
  induction ls generalizing out with
  | nil => cases reset <;> simp [saveLoop]
  | cons l ls ih =>
    rw [saveLoop, ih]
    cases reset
    · simp
    · by_cases h : startsWith l "+++".toList = true
      · simp only [h, Bool.false_and, Bool.and_self, if_true, Bool.false_eq_true, if_false]
        rw [List.takeWhile_cons_of_neg (by simp only [h]; decide)]
        simp
      · rw [Bool.not_eq_true] at h
        simp only [h, Bool.false_and, Bool.and_false, Bool.false_eq_true, if_false, if_true]
        rw [List.takeWhile_cons_of_pos (by simp only [h]; decide)]
        simp

end Verif.Model
