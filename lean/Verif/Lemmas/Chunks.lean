import Verif.Lemmas.IO
import Verif.Lemmas.Prune
import Verif.Lemmas.Rocks
import Verif.Spec.Opts

/-! Helper lemmas: records that spread over several lines. -/

set_option linter.unusedSimpArgs false

namespace Verif.Model
open Verif.Py Verif.Spec

theorem chunks_nil {α : Type} (k : ℕ) (hk : 0 < k) : chunks k ([] : List α) = [] := by
  unfold chunks
  have : (0 + k - 1) / k = 0 := Nat.div_eq_of_lt (by omega)
  simp [hk]

theorem chunks_cons {α : Type} (k : ℕ) (hk : 0 < k) (l : List α) (hl : l ≠ []) :
    chunks k l = l.take k :: chunks k (l.drop k) := by
  have hpos : 0 < l.length := List.length_pos_iff.2 hl
  unfold chunks
  have hn : (l.length + k - 1) / k = ((l.drop k).length + k - 1) / k + 1 := by
    rw [List.length_drop]
    by_cases h : k ≤ l.length
    · have : l.length + k - 1 = (l.length - k + k - 1) + k := by omega
      rw [this, Nat.add_div_right _ hk]
    · have h1 : l.length - k + k - 1 = k - 1 := by omega
      rw [h1, Nat.div_eq_of_lt (by omega : k - 1 < k)]
      have h2 : l.length + k - 1 = (l.length - 1) + k := by omega
      rw [h2, Nat.add_div_right _ hk, Nat.div_eq_of_lt (by omega)]
  rw [hn, List.range_succ_eq_map, List.map_cons, List.map_map]
  simp only [Nat.mul_zero, List.drop_zero]
  congr 1
  apply List.map_congr_left
  intro i _
  simp only [Function.comp, List.drop_drop, Nat.succ_eq_add_one]
  rw [show k * (i + 1) = k + k * i by ring]

theorem chunks_length {α : Type} (k : ℕ) (l : List α) :
    (chunks k l).length = (l.length + k - 1) / k := by simp [chunks]

theorem chunks_induction {α : Type} (k : ℕ) (hk : 0 < k) {P : List α → Prop} (h0 : P [])
    (h1 : ∀ l, l ≠ [] → P (l.drop k) → P l) (l : List α) : P l := by
  induction hn : l.length using Nat.strong_induction_on generalizing l with
  | _ n ih =>
    by_cases hl : l = []
    · subst hl; exact h0
    · refine h1 l hl (ih (l.drop k).length ?_ _ rfl)
      have : 0 < l.length := List.length_pos_iff.2 hl
      rw [List.length_drop]; omega

theorem chunks_flatten {α : Type} (k : ℕ) (hk : 0 < k) (l : List α) : (chunks k l).flatten = l := by
  induction l using chunks_induction k hk with
  | h0 => rw [chunks_nil k hk]; rfl
  | h1 l hl ih => rw [chunks_cons k hk l hl, List.flatten_cons, ih, List.take_append_drop]

theorem mem_chunks {α : Type} (k : ℕ) (hk : 0 < k) (l : List α) :
    ∀ c ∈ chunks k l, c ≠ [] ∧ c.length ≤ k ∧ ∀ v ∈ c, v ∈ l := by
  induction l using chunks_induction k hk with
  | h0 => rw [chunks_nil k hk]; simp
  | h1 l hl ih =>
    rw [chunks_cons k hk l hl]
    intro c hc
    rcases List.mem_cons.1 hc with rfl | hc
    · refine ⟨?_, by simp, fun v hv => List.mem_of_mem_take hv⟩
      cases l with
      | nil => exact absurd rfl hl
      | cons a l =>
        obtain ⟨k, rfl⟩ : ∃ j, k = j + 1 := ⟨k - 1, by omega⟩
        simp
    · obtain ⟨h1, h2, h3⟩ := ih c hc
      exact ⟨h1, h2, fun v hv => List.mem_of_mem_drop (h3 v hv)⟩

theorem writeMulti_eq {f : List Tok} {vs : List Val}
    (h : ∀ c ∈ chunks f.length vs, AllFit f c) :
    writeMulti f vs = .ok ((chunks f.length vs).map (lineOf f)) := by
  unfold writeMulti
  generalize chunks f.length vs = cs at h
  induction cs with
  | nil => rfl
  | cons c cs ih =>
    rw [List.mapM_cons, writeRecord_eq (h c (by simp)), ih (fun c hc => h c (by simp [hc]))]
    rfl

theorem num_ne_none {v : Val} (p : ℕ) (h : IsNumber v) : num p v ≠ .none := by
  cases v <;> simp_all [IsNumber, num, stored]

theorem dropTrailing_eq_self {l : List Val} (h : l.getLast? ≠ some .none) : dropTrailing l = l :=
  isPruned_unique _ _ _ (isPruned_dropTrailing l) ⟨0, by simp, h⟩

theorem dropTrailing_num {l : List Val} (p : ℕ) (h : ∀ v ∈ l, IsNumber v) :
    dropTrailing (l.map (num p)) = l.map (num p) := by
  apply dropTrailing_eq_self
  rw [List.getLast?_map]
  cases hl : l.getLast? with
  | none => simp
  | some v => simpa using num_ne_none p (h v (List.mem_of_getLast? hl))

/-- Reading one line of a table of numbers. -/
theorem readRow (n : ℕ) {w p : ℕ} (hw : width (List.replicate n (eCol w p)) ≤ 80)
    {c : List Val} (hl : c.length ≤ n) (hf : ∀ v ∈ c, Fits (eCol w p) v) :
    readRecord (List.replicate n (eCol w p)) (lineOf (List.replicate n (eCol w p)) c) =
      .ok (c.map (num p) ++ List.replicate (n - c.length) .none) := by
  rw [readRecord_lineOf hw (allFit_replicate n _ _ hf), storedAll_replicate n _ _ hl]
  simp [stored_e, num_none]

theorem pruneRow {c : List Val} (p k : ℕ) (hn : ∀ v ∈ c, IsNumber v) :
    pruneNones (c.map (num p) ++ List.replicate k .none) = c.map (num p) := by
  rw [pruneNones_eq, dropTrailing_append_none, dropTrailing_num p hn]

/-- `for` over the lines of a list of rows. -/
theorem times_lines {α β : Type} {body : List Str → Except PyErr (α × List Str)}
    (w : β → Str) (g : β → α) (xs : List β)
    (h : ∀ x ∈ xs, ∀ rest, body (w x :: rest) = .ok (g x, rest)) (rest : List Str) :
    times body xs.length (xs.map w ++ rest) = .ok (xs.map g, rest) := by
  induction xs with
  | nil => rfl
  | cons x xs ih =>
    simp [times, h x (by simp), ih (fun y hy => h y (by simp [hy]))]

end Verif.Model
