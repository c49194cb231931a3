import Verif.Model.Output
import Verif.Lemmas.Opts

/-!
# Lemmas about reordering outputs
-/

namespace Verif.Model
open Verif.Py

theorem labelMap_foldl {κ : Type} [DecidableEq κ] (l : List κ) (k : ℕ) (d : List (κ × ℕ)) (s : κ) :
    (∀ j, ((l.zipIdx k).foldl (fun d e => dictSet d e.1 e.2) d).lookup s = some j →
      (k ≤ j ∧ l[j - k]? = some s) ∨ d.lookup s = some j) ∧
    (s ∈ l → ∃ j, ((l.zipIdx k).foldl (fun d e => dictSet d e.1 e.2) d).lookup s = some j) ∧
    (s ∉ l → ((l.zipIdx k).foldl (fun d e => dictSet d e.1 e.2) d).lookup s = d.lookup s) := by
  induction l generalizing k d with
  | nil => simp
  | cons a l ih =>
    rw [List.zipIdx_cons, List.foldl_cons]
    obtain ⟨h1, h2, h3⟩ := ih (k + 1) (dictSet d a k)
    refine ⟨fun j hj => ?_, fun hs => ?_, fun hs => ?_⟩
    · rcases h1 j hj with ⟨hk, hl⟩ | hd
      · refine Or.inl ⟨by omega, ?_⟩
        rw [show j - k = (j - (k + 1)) + 1 by omega, List.getElem?_cons_succ]
        exact hl
      · rw [lookup_dictSet] at hd
        split at hd
        · rename_i h
          subst h
          cases hd
          exact Or.inl ⟨le_rfl, by simp⟩
        · exact Or.inr hd
    · by_cases hl : s ∈ l
      · exact h2 hl
      · rcases List.mem_cons.1 hs with rfl | h
        · exact ⟨k, by rw [h3 hl, lookup_dictSet, if_pos rfl]⟩
        · exact absurd h hl
    · rw [List.mem_cons, not_or] at hs
      rw [h3 hs.2, lookup_dictSet, if_neg hs.1]

theorem dictGet_foldl {κ : Type} [DecidableEq κ] (l : List κ) (s : κ) :
    (∀ j, dictGet (l.zipIdx.foldl (fun d e => dictSet d e.1 e.2) []) s = .ok j → l[j]? = some s) ∧
    (s ∈ l → ∃ j, dictGet (l.zipIdx.foldl (fun d e => dictSet d e.1 e.2) []) s = .ok j) ∧
    (s ∉ l → dictGet (l.zipIdx.foldl (fun d e => dictSet d e.1 e.2) []) s = .error .keyError) := by
  obtain ⟨h1, h2, h3⟩ := labelMap_foldl l 0 [] s
  unfold dictGet
  refine ⟨fun j h => ?_, fun h => ?_, fun h => ?_⟩
  · split at h
    · rename_i i hi
      cases h
      rcases h1 j hi with ⟨-, h⟩ | h
      · simpa using h
      · simp at h
    · cases h
  · obtain ⟨j, hj⟩ := h2 h
    exact ⟨j, by rw [hj]⟩
  · rw [h3 h]
    rfl

/-- The number found for a label is the place of that label. -/
theorem labelMap_sound {L : Type} [DecidableEq L] {l : List L} {s : L} {j : ℕ} (h : dictGet (labelMap l) s = .ok j) :
    l[j]? = some s := (dictGet_foldl l s).1 j h

theorem labelMap_complete {L : Type} [DecidableEq L] {l : List L} {s : L} (h : s ∈ l) :
    ∃ j, dictGet (labelMap l) s = .ok j := (dictGet_foldl l s).2.1 h

theorem labelMap_unknown {L : Type} [DecidableEq L] {l : List L} {s : L} (h : s ∉ l) :
    dictGet (labelMap l) s = .error .keyError := (dictGet_foldl l s).2.2 h

theorem mapM_eq_ok {α β : Type} {f : α → Except PyErr β} : ∀ {xs : List α} {ys : List β},
    xs.mapM f = .ok ys → List.Forall₂ (fun x y => f x = .ok y) xs ys
  | [], ys, h => by cases h; exact .nil
  | x :: xs, ys, h => by
    rw [List.mapM_cons] at h
    cases hx : f x with
    | error e => rw [hx] at h; cases h
    | ok y =>
      rw [hx, ok_bind] at h
      cases hr : xs.mapM f with
      | error e => rw [hr] at h; cases h
      | ok r =>
        rw [hr, ok_bind] at h
        cases h
        exact .cons hx (mapM_eq_ok hr)

theorem mapM_of_forall₂ {α β : Type} {f : α → Except PyErr β} {xs : List α} {ys : List β}
    (h : List.Forall₂ (fun x y => f x = .ok y) xs ys) : xs.mapM f = .ok ys := by
  induction h with
  | nil => rfl
  | cons h _ ih => rw [List.mapM_cons, h, ok_bind, ih]; rfl

theorem mapM_exists {α β : Type} {f : α → Except PyErr β} {xs : List α}
    (h : ∀ x ∈ xs, ∃ y, f x = .ok y) : ∃ ys, xs.mapM f = .ok ys := by
  induction xs with
  | nil => exact ⟨[], rfl⟩
  | cons x xs ih =>
    obtain ⟨y, hy⟩ := h x List.mem_cons_self
    obtain ⟨ys, hys⟩ := ih fun x hx => h x (List.mem_cons_of_mem _ hx)
    exact ⟨y :: ys, by rw [List.mapM_cons, hy, ok_bind, hys]; rfl⟩

theorem rowAt_ok {α : Type} {v : List α} {i : ℕ} {x : α} : rowAt v i = .ok x ↔ v[i]? = some x := by
  unfold rowAt
  cases v[i]? with
  | none => simp
  | some y => simp

/-- Rows taken by the places of labels. -/
theorem takeRows_get {α : Type} {idx : List ℕ} {v w : List α} (h : takeRows idx v = .ok w) :
    w.length = idx.length ∧ ∀ i j : ℕ, idx[i]? = some j → w[i]? = v[j]? := by
  have h2 := mapM_eq_ok h
  refine ⟨h2.length_eq.symm, fun i j hij => ?_⟩
  clear h
  induction h2 generalizing i with
  | nil => simp at hij
  | cons hx _ ih =>
    cases i with
    | zero =>
      rw [List.getElem?_cons_zero] at hij
      cases hij
      rw [List.getElem?_cons_zero, rowAt_ok.1 hx]
    | succ i =>
      rw [List.getElem?_cons_succ] at hij ⊢
      exact ih i hij

theorem takeRows_exists {α : Type} {idx : List ℕ} {v : List α} (h : ∀ i ∈ idx, i < v.length) :
    ∃ w, takeRows idx v = .ok w :=
  mapM_exists fun i hi => ⟨v[i]'(h i hi), rowAt_ok.2 (List.getElem?_eq_getElem (h i hi))⟩

end Verif.Model
