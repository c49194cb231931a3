import Verif.Spec.Record

/-! Helper lemmas: pruning trailing missing values. -/

set_option linter.unusedSimpArgs false

namespace Verif.Model
open Verif.Py Verif.Spec

theorem isPruned_pruneNones (l : List Val) : IsPruned l (pruneNones l) := by
  induction l with
  | nil => exact ⟨0, by simp [pruneNones], by simp [pruneNones]⟩
  | cons x xs ih =>
    obtain ⟨k, h1, h2⟩ := ih
    unfold pruneNones
    split
    · rename_i hany
      refine ⟨k, by rw [List.cons_append, ← h1], ?_⟩
      cases hp : pruneNones xs with
      | nil =>
        rw [hp] at h1
        simp only [List.nil_append] at h1
        simp only [List.getLast?_singleton, ne_eq, Option.some.injEq]
        rintro rfl
        rw [h1] at hany
        simp at hany
      | cons y ys => rw [hp] at h2; simpa using h2
    · rename_i hany
      have hx : x = .none := by
        by_contra hne; apply hany; simp [hne]
      have hxs : xs = List.replicate xs.length .none := by
        rw [List.eq_replicate_iff]
        refine ⟨rfl, fun b hb => ?_⟩
        by_contra hne
        apply hany
        simp only [List.any_eq_true, List.mem_cons]
        exact ⟨b, Or.inr hb, by simpa using hne⟩
      have hp : pruneNones xs = [] := by
        have hlen := congrArg List.length h1
        by_contra hne
        obtain ⟨y, hy⟩ : ∃ y, (pruneNones xs).getLast? = some y := by
          cases hq : (pruneNones xs).getLast? with
          | none => simp at hq; exact absurd hq hne
          | some y => exact ⟨y, rfl⟩
        have hmem : y ∈ xs := by
          rw [h1]; exact List.mem_append_left _ (List.mem_of_getLast? hy)
        rw [hxs] at hmem
        obtain rfl := (List.mem_replicate.1 hmem).2
        exact h2 hy
      rw [hp] at h1 ⊢
      refine ⟨k + 1, ?_, by simp⟩
      rw [hx]
      conv_lhs => rw [h1]
      rfl

theorem isPruned_unique (l r s : List Val) (hr : IsPruned l r) (hs : IsPruned l s) : r = s := by
  have key : ∀ (r s : List Val) (i j : ℕ), r ++ List.replicate i Val.none =
      s ++ List.replicate j Val.none → r.getLast? ≠ some .none → i ≤ j → r = s := by
    intro r s i j h hl hij
    obtain ⟨d, rfl⟩ := Nat.exists_eq_add_of_le' hij
    rw [List.replicate_add, ← List.append_assoc] at h
    have h' := List.append_cancel_right h
    cases d with
    | zero => simpa using h'
    | succ d => exact absurd (by rw [h']; simp [List.getLast?_replicate]) hl
  obtain ⟨i, h1, h2⟩ := hr
  obtain ⟨j, h3, h4⟩ := hs
  rcases le_total i j with h | h
  · exact key r s i j (h1.symm.trans h3) h2 h
  · exact (key s r j i (h3.symm.trans h1) h4 h).symm

theorem dropWhile_none_spec (l : List Val) :
    ∃ k, l = List.replicate k Val.none ++ l.dropWhile (· = .none) ∧
      (l.dropWhile (· = .none)).head? ≠ some .none := by
  induction l with
  | nil => exact ⟨0, by simp, by simp⟩
  | cons x xs ih =>
    obtain ⟨k, h1, h2⟩ := ih
    by_cases hx : x = .none
    · subst hx
      refine ⟨k + 1, ?_, by simpa using h2⟩
      simp only [decide_true, List.dropWhile_cons_of_pos, List.replicate_succ, List.cons_append]
      rw [← h1]
    · exact ⟨0, by simp [hx], by simp [hx]⟩

theorem isPruned_dropTrailing (l : List Val) : IsPruned l (dropTrailing l) := by
  obtain ⟨k, h1, h2⟩ := dropWhile_none_spec l.reverse
  refine ⟨k, ?_, ?_⟩
  · have := congrArg List.reverse h1
    simpa [dropTrailing] using this
  · simpa [dropTrailing, List.getLast?_reverse] using h2

theorem pruneNones_append_none (l : List Val) (k : ℕ) :
    pruneNones (l ++ List.replicate k .none) = pruneNones l := by
  induction l with
  | nil =>
    induction k with
    | zero => rfl
    | succ k ih =>
      simp only [List.nil_append] at ih ⊢
      simp [List.replicate_succ, pruneNones, ih]
  | cons x xs ih =>
    simp only [List.cons_append, pruneNones, ih]
    simp

theorem pruneNones_eq (l : List Val) : pruneNones l = dropTrailing l :=
  isPruned_unique l _ _ (isPruned_pruneNones l) (isPruned_dropTrailing l)

theorem dropTrailing_append_none (l : List Val) (k : ℕ) :
    dropTrailing (l ++ List.replicate k .none) = dropTrailing l := by
  rw [← pruneNones_eq, ← pruneNones_eq, pruneNones_append_none]

theorem any_ne_none (l : List Val) : l.any (· ≠ .none) = decide (pruneNones l ≠ []) := by
  obtain ⟨k, h1, h2⟩ := isPruned_pruneNones l
  by_cases h : pruneNones l = []
  · rw [h] at h1
    simp only [h, ne_eq, not_true, decide_false]
    rw [h1]
    simp
  · rw [Bool.eq_iff_iff]
    simp only [h, ne_eq, not_false_iff, decide_true, iff_true]
    rw [List.any_eq_true]
    cases hl : (pruneNones l).getLast? with
    | none => exact absurd (List.getLast?_eq_none_iff.1 hl) h
    | some v =>
      refine ⟨v, ?_, ?_⟩
      · rw [h1]; exact List.mem_append_left _ (List.mem_of_getLast? hl)
      · have : v ≠ .none := by rintro rfl; exact h2 hl
        simpa using this

end Verif.Model
