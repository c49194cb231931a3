import Verif.Lemmas.Indom
import Verif.Lemmas.Layout
import Verif.Lemmas.Output
import Verif.Lemmas.AgainOut

/-!
# Lemmas on the layout of SELEC and of tables of rows
-/

set_option linter.unusedSimpArgs false

namespace Verif.Props
open Verif.Py Verif.Model Verif.Spec

/-- The integers of SELEC in their order once the first one is the number of
rows. -/
theorem sortedVals_count (d : List (ℤ × Val)) (hd : IntsOk d) (v : Val) :
    sortedVals (dictSet (updateDict (noOptions 16) d) 1 v) =
      v :: (List.range 15).map fun k : ℕ => valueAt d ((k : ℤ) + 2) := by
  have hkeys : (updateDict (noOptions 16) d).map (·.1) =
      (List.range 16).map fun k : ℕ => (k : ℤ) + 1 := by
    rw [updateDict_keys, noOptions_keys]
    intro e he
    rw [noOptions_keys, List.mem_map]
    have := hd.2 e he
    exact ⟨(e.1 - 1).toNat, by simp; omega, by omega⟩
  have hvals : sortedVals (dictSet (updateDict (noOptions 16) d) 1 v) =
      (List.range 16).map fun k : ℕ => if (k : ℤ) + 1 = 1 then v else valueAt d ((k : ℤ) + 1) := by
    rw [sortedVals_of_keys 16]
    · apply List.map_congr_left
      intro k _
      unfold valueAt
      rw [lookup_dictSet]
      split
      · rfl
      · rw [lookup_updateDict _ _ hd.1]
        cases hl : d.lookup ((k : ℤ) + 1) with
        | none => simpa using lookup_noOptions 16 ((k : ℤ) + 1)
        | some v => rfl
    · rw [dictSet_keys, hkeys]
      rw [hkeys]
      simp only [List.mem_map, List.mem_range]
      exact ⟨0, by norm_num, by norm_num⟩
  rw [hvals, List.range_succ_eq_map, List.map_cons, List.map_map]
  congr 1

/-- A record of equal columns. -/
theorem layout_row {n : ℕ} {t : Tok} {vs : List Val} {l : Str} (hl : vs.length ≤ n)
    (hv : ∀ v ∈ vs, Fits t v) (hw : writeRecord (List.replicate n t) vs = .ok l) :
    Layout l (series 0 t vs) := by
  have := layout_record hw (allFill_of_fit (allFit_replicate n t vs hv))
  rwa [place_replicate 0 n t vs hl] at this

/-- Records of equal columns, one for each row. -/
theorem layout_rows {n : ℕ} {t : Tok} {rows : List (List Val)} {ls : List Str}
    (h : ∀ r ∈ rows, r.length ≤ n ∧ ∀ v ∈ r, Fits t v)
    (hw : List.Forall₂ (fun r l => writeRecord (List.replicate n t) r = .ok l) rows ls) :
    List.Forall₂ (fun r l => Layout l (series 0 t r)) rows ls := by
  induction hw with
  | nil => exact .nil
  | cons h1 _ ih =>
    exact .cons (layout_row (h _ (by simp)).1 (h _ (by simp)).2 h1) (ih fun r hr => h r (by simp [hr]))

theorem concatM_one {α : Type} {f : α → Except PyErr (List Str)} {g : α → Except PyErr Str}
    {xs : List α} (h : ∀ x ∈ xs, f x = (do let l ← g x; .ok [l])) {ls : List Str}
    (hw : concatM f xs = .ok ls) : List.Forall₂ (fun x l => g x = .ok l) xs ls := by
  induction xs generalizing ls with
  | nil =>
    injection hw with hw
    rw [← hw]; exact .nil
  | cons x xs ih =>
    simp only [concatM, h x (by simp), bind_eq_ok] at hw
    obtain ⟨a, ⟨l, hl, e⟩, b, hb, e2⟩ := hw
    injection e with e; subst e
    injection e2 with e2; subst e2
    exact .cons hl (ih (fun x hx => h x (by simp [hx])) hb)

end Verif.Props
