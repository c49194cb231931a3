import Verif.Lemmas.Output
import Verif.Spec.Output
import Verif.Lemmas.Labeler
import Mathlib.Data.List.Nodup

/-!
# Reordering outputs (C36)
-/

namespace Verif.Props
open Verif.Py Verif.Model Verif.Spec

variable {L α : Type} [DecidableEq L]

/-- What a successful reordering returns. -/
theorem reorder_ok {o r : Output L α} {ls : List L} (h : reorderLabels o ls = .ok r) :
    ∃ idx, ls.mapM (dictGet (labelMap o.labels)) = .ok idx ∧ o.labels.length = ls.length ∧
      takeRows idx o.labels = .ok r.labels ∧ o.data.mapM (takeEntry idx) = .ok r.data ∧
      r.time = o.time := by
  unfold reorderLabels at h
  split at h
  · cases h
  · rename_i hl
    cases h1 : ls.mapM (dictGet (labelMap o.labels)) with
    | error x => rw [h1] at h; cases h
    | ok idx =>
      rw [h1, ok_bind] at h
      cases h2 : takeRows idx o.labels with
      | error x => rw [h2] at h; cases h
      | ok l =>
        rw [h2, ok_bind] at h
        cases h3 : o.data.mapM (takeEntry idx) with
        | error x => rw [h3] at h; cases h
        | ok d =>
          rw [h3, ok_bind] at h
          cases h
          exact ⟨idx, rfl, by simpa using hl, h2, h3, rfl⟩

/-- The places of the labels. -/
theorem places {labels ls : List L} {idx : List ℕ}
    (h : ls.mapM (dictGet (labelMap labels)) = .ok idx) :
    idx.length = ls.length ∧ ∀ i j : ℕ, idx[i]? = some j → ∃ s, ls[i]? = some s ∧ labels[j]? = some s := by
  have h2 := mapM_eq_ok h
  refine ⟨h2.length_eq.symm, fun i j hij => ?_⟩
  clear h
  induction h2 generalizing i with
  | nil => simp at hij
  | cons hx _ ih =>
    cases i with
    | zero =>
      rw [List.getElem?_cons_zero] at hij
      cases hij
      exact ⟨_, List.getElem?_cons_zero, labelMap_sound hx⟩
    | succ i => exact ih i hij

theorem reorder_labels_eq {o r : Output L α} {ls : List L} (h : reorderLabels o ls = .ok r) :
    r.labels = ls := by
  obtain ⟨idx, h1, -, h2, -⟩ := reorder_ok h
  obtain ⟨hl, hp⟩ := places h1
  obtain ⟨hl2, hg⟩ := takeRows_get h2
  refine List.ext_getElem? fun i => ?_
  cases hi : idx[i]? with
  | none =>
    have := List.getElem?_eq_none_iff.1 hi
    rw [List.getElem?_eq_none (by omega), List.getElem?_eq_none (by omega)]
  | some j =>
    obtain ⟨s, h3, h4⟩ := hp i j hi
    rw [hg i j hi, h3, h4]

/-- C36. Reordering by a list of as many labels, all known, gives exactly that
list of labels; every variable is kept and every label keeps its row. -/
theorem C36_reorder (o : Output L α) (ls : List L) (ho : Full o) (hd : o.labels.Nodup)
    (hl : ls.length = o.labels.length) (hk : ∀ s ∈ ls, s ∈ o.labels) :
    ∃ r, reorderLabels o ls = .ok r ∧ r.labels = ls ∧ r.time = o.time ∧ RowsKept o r := by
  obtain ⟨idx, h1⟩ := mapM_exists fun s hs => labelMap_complete (hk s hs)
  obtain ⟨hil, hp⟩ := places h1
  have hidx : ∀ j ∈ idx, j < o.labels.length := by
    intro j hj
    obtain ⟨i, hi⟩ := List.mem_iff_getElem?.1 hj
    obtain ⟨s, -, h⟩ := hp i j hi
    exact (List.getElem?_eq_some_iff.1 h).1
  obtain ⟨l, h2⟩ := takeRows_exists hidx
  have h3 : ∀ e ∈ o.data, ∃ e', takeEntry idx e = .ok e' := by
    intro e he
    obtain ⟨w, hw⟩ := takeRows_exists (v := e.2) fun j hj => by rw [ho e he]; exact hidx j hj
    exact ⟨(e.1, w), by unfold takeEntry; rw [hw]; rfl⟩
  obtain ⟨d, h4⟩ := mapM_exists h3
  have hr : reorderLabels o ls = .ok { o with labels := l, data := d } := by
    unfold reorderLabels
    rw [if_neg (by omega), h1, ok_bind, h2, ok_bind, h4]
    rfl
  have hlab := reorder_labels_eq hr
  refine ⟨_, hr, hlab, rfl, ?_⟩
  simp only at hlab
  unfold RowsKept
  simp only
  refine (mapM_eq_ok h4).imp fun e e' he => ?_
  unfold takeEntry at he
  cases hw : takeRows idx e.2 with
  | error x => rw [hw] at he; cases he
  | ok w =>
    rw [hw] at he
    cases he
    obtain ⟨hwl, hg⟩ := takeRows_get hw
    refine ⟨rfl, by rw [hwl, hil, hlab], fun i j hi hj hij => ?_⟩
    have hi' : i < idx.length := by rw [hil, ← hlab]; exact hi
    obtain ⟨s, h5, h6⟩ := hp i idx[i] (List.getElem?_eq_getElem hi')
    rw [hlab, h5] at hij
    have e1 : idx[i] = j := by
      obtain ⟨a1, a2⟩ := List.getElem?_eq_some_iff.1 h6
      obtain ⟨b1, b2⟩ := List.getElem?_eq_some_iff.1 hij.symm
      exact hd.getElem_inj_iff.1 (a2.trans b2.symm)
    rw [hg i _ (List.getElem?_eq_getElem hi'), e1]

/-- An output with two elements and one variable. -/
def twoRows : Output Str ℕ :=
  { time := none, labels := ["A1100".toList, "A1101".toList], data := [("P".toList, [1, 2])] }

example : Full twoRows ∧ twoRows.labels.Nodup ∧
    (["A1101".toList, "A1100".toList] : List Str).length = twoRows.labels.length ∧
    (∀ s ∈ ["A1101".toList, "A1100".toList], s ∈ twoRows.labels) := by
  unfold Full twoRows; decide

example : ∃ r, reorderLabels twoRows ["A1101".toList, "A1100".toList] = .ok r ∧
    r.data = [("P".toList, [2, 1])] := ⟨_, rfl, rfl⟩

/-- C36. Reordering a second time changes nothing, whatever was accepted. -/
theorem C36_idempotent (o r : Output L α) (ls : List L) (h : reorderLabels o ls = .ok r) :
    reorderLabels r ls = .ok r := by
  have hlab := reorder_labels_eq h
  obtain ⟨idx, h1, hl, h2, h3, h4⟩ := reorder_ok h
  obtain ⟨hil, hp⟩ := places h1
  obtain ⟨idx2, g1⟩ := mapM_exists (f := dictGet (labelMap r.labels)) (xs := ls)
    fun s hs => labelMap_complete (by rw [hlab]; exact hs)
  obtain ⟨gil, gp⟩ := places g1
  rw [hlab] at gp
  have hidx : ∀ j ∈ idx2, j < ls.length := by
    intro j hj
    obtain ⟨i, hi⟩ := List.mem_iff_getElem?.1 hj
    obtain ⟨s, -, h⟩ := gp i j hi
    exact (List.getElem?_eq_some_iff.1 h).1
  -- equal labels had equal places
  have hsame : ∀ i j : ℕ, idx2[i]? = some j → idx[j]? = idx[i]? := by
    intro i j hij
    obtain ⟨s, a1, a2⟩ := gp i j hij
    have key : ∀ k : ℕ, ls[k]? = some s → ∃ m, idx[k]? = some m ∧
        dictGet (labelMap o.labels) s = .ok m := by
      have hf := mapM_eq_ok h1
      clear * - hf
      intro k hk
      induction hf generalizing k with
      | nil => simp at hk
      | cons hx _ ih =>
        cases k with
        | zero =>
          rw [List.getElem?_cons_zero] at hk
          cases hk
          exact ⟨_, List.getElem?_cons_zero, hx⟩
        | succ k => exact ih k hk
    obtain ⟨m, b1, b2⟩ := key i a1
    obtain ⟨m', c1, c2⟩ := key j a2
    rw [b1, c1]
    rw [b2] at c2
    cases c2
    rfl
  have hrows : ∀ {β : Type} (v w : List β), takeRows idx v = .ok w → takeRows idx2 w = .ok w := by
    intro β v w hw
    obtain ⟨hwl, hg⟩ := takeRows_get hw
    obtain ⟨w2, hw2⟩ := takeRows_exists (idx := idx2) (v := w) fun j hj => by
      rw [hwl, hil]; exact hidx j hj
    obtain ⟨hwl2, hg2⟩ := takeRows_get hw2
    rw [hw2]
    congr 1
    refine List.ext_getElem? fun i => ?_
    cases hi : idx2[i]? with
    | none =>
      have := List.getElem?_eq_none_iff.1 hi
      rw [List.getElem?_eq_none (by omega), List.getElem?_eq_none (by omega)]
    | some j =>
      rw [hg2 i j hi]
      have hs := hsame i j hi
      cases hj : idx[i]? with
      | none =>
        have h0 := List.getElem?_eq_none_iff.1 hj
        have h00 := (List.getElem?_eq_some_iff.1 hi).1
        omega
      | some m => rw [hg i m hj, hg j m (by rw [hs, hj])]
  unfold reorderLabels
  rw [if_neg (by rw [hlab]; simp), g1, ok_bind, hrows _ _ h2, ok_bind]
  have hd : r.data.mapM (takeEntry idx2) = .ok r.data := by
    have hf := mapM_eq_ok h3
    refine mapM_of_forall₂ ?_
    rw [List.forall₂_same]
    intro e' he'
    obtain ⟨e, -, he⟩ : ∃ e, e ∈ o.data ∧ takeEntry idx e = .ok e' := by
      generalize o.data = od, r.data = rd at hf he' ⊢
      clear * - hf he'
      induction hf with
      | nil => simp at he'
      | cons hx _ ih =>
        rcases List.mem_cons.1 he' with rfl | h
        · exact ⟨_, List.mem_cons_self, hx⟩
        · obtain ⟨e, h1, h2⟩ := ih h
          exact ⟨e, List.mem_cons_of_mem _ h1, h2⟩
    unfold takeEntry at he ⊢
    cases hw : takeRows idx e.2 with
    | error x => rw [hw] at he; cases he
    | ok w =>
      rw [hw] at he
      cases he
      simp only
      rw [hrows _ _ hw]
      rfl
  rw [hd]
  rfl

example : ∃ r, reorderLabels twoRows ["A1101".toList, "A1100".toList] = .ok r := ⟨_, rfl⟩

/-- C36. A list of another length is rejected. -/
theorem C36_wrong_length (o : Output L α) (ls : List L) (h : o.labels.length ≠ ls.length) :
    reorderLabels o ls = .error .valueError := by
  unfold reorderLabels; rw [if_pos h]

/-- C36. A list with an unknown label is rejected. -/
theorem C36_unknown_label (o : Output L α) (ls : List L) (hl : o.labels.length = ls.length)
    (h : ∃ s ∈ ls, s ∉ o.labels) : reorderLabels o ls = .error .keyError := by
  unfold reorderLabels
  rw [if_neg (by simp [hl]), mapM_error_of_mem (x := .keyError)]
  · rfl
  · intro s _
    by_cases hs : s ∈ o.labels
    · exact Or.inl (labelMap_complete hs)
    · exact Or.inr (labelMap_unknown hs)
  · obtain ⟨s, h1, h2⟩ := h
    exact ⟨s, h1, labelMap_unknown h2⟩

example : ∃ s ∈ ["A1100".toList, "B".toList], s ∉ twoRows.labels := ⟨"B".toList, by decide⟩

/-- C36, observation: a list that repeats a label is accepted, the label's row is
repeated and another row is lost. -/
theorem C36_repeated_label : ∃ r, reorderLabels twoRows ["A1100".toList, "A1100".toList] = .ok r ∧
    r.data = [("P".toList, [1, 1])] := ⟨_, rfl, rfl⟩

end Verif.Props
