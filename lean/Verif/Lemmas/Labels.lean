import Verif.Spec.Gener
import Verif.Lemmas.Hist
import Verif.Props.Records

/-! Helper lemmas: label lengths and loops. -/

set_option linter.unusedSimpArgs false

namespace Verif.Model
open Verif.Py Verif.Spec

theorem loop_more {σ : Type} {step : σ → List Str → Except PyErr (Turn σ × List Str)}
    {m : ℕ} {s s' : σ} {ls ls' : List Str} (h : step s ls = .ok (.more s', ls')) :
    loop step (m + 1) s ls = loop step m s' ls' := by
  simp [loop, h]

theorem foldl_max_le (l : List ℕ) (a b : ℕ) (ha : a ≤ b) (h : ∀ x ∈ l, x ≤ b) :
    l.foldl max a ≤ b := by
  induction l generalizing a with
  | nil => exact ha
  | cons x l ih =>
    exact ih (max a x) (max_le ha (h x (by simp))) fun y hy => h y (by simp [hy])

theorem le_foldl_max (l : List ℕ) (a : ℕ) : a ≤ l.foldl max a ∧ ∀ x ∈ l, x ≤ l.foldl max a := by
  induction l generalizing a with
  | nil => simp
  | cons x l ih =>
    obtain ⟨h1, h2⟩ := ih (max a x)
    refine ⟨(le_max_left _ _).trans h1, ?_⟩
    intro y hy
    rcases List.mem_cons.1 hy with rfl | hy
    · exact (le_max_right _ _).trans h1
    · exact h2 y hy

/-- Length of a label. -/
def lenOf : Val → ℕ
  | .str s => s.length
  | _ => 0

theorem keyLen_of_nameFits {L : ℕ} {k : Val} (h : NameFits L k) :
    keyLen k = .ok (lenOf k) ∧ lenOf k ≤ L := by
  cases k <;> simp_all [NameFits, keyLen, lenOf]

theorem maxLen_eq' {M : ℕ} {ks : List Val} {m : ℕ} (h1 : ∀ k ∈ ks, NameFits M k)
    (h2 : ∀ k ∈ ks, lenOf k ≤ m) (h3 : ∃ k ∈ ks, keyLen k = .ok m) : maxLen ks = .ok m := by
  obtain ⟨k, hk, hl⟩ := h3
  have hm : ks.mapM keyLen = .ok (ks.map lenOf) :=
    mapM_ok fun k hk => (keyLen_of_nameFits (h1 k hk)).1
  have hlen : lenOf k = m := by
    rw [(keyLen_of_nameFits (h1 k hk)).1] at hl; exact Except.ok.inj hl
  have hmax : (ks.map lenOf).foldl max 0 = m := by
    apply le_antisymm
    · apply foldl_max_le _ _ _ (Nat.zero_le _)
      simpa using h2
    · rw [← hlen]
      exact (le_foldl_max _ 0).2 _ (List.mem_map_of_mem hk)
  unfold maxLen
  rw [hm, ok_bind]
  cases hc : ks.map lenOf with
  | nil => simp at hc; subst hc; simp at hk
  | cons a l => rw [hc] at hmax; simp only [hmax]

theorem maxLen_eq {L : ℕ} {ks : List Val} (h : LabelsFit L ks) : maxLen ks = .ok L :=
  maxLen_eq' h.2.2.2.1 (fun k hk => (keyLen_of_nameFits (h.2.2.2.1 k hk)).2) h.2.2.2.2

theorem head?_flatMap_fields {t : Tok} {v : Val} {ts : List Tok} {vs : List Val} (h : Fits t v)
    (ht : 0 < t.w) (r : Str) :
    ((((t :: ts).zip (v :: vs)).flatMap fun p => fieldOf p.1 p.2) ++ r).head? = (fieldOf t v).head? := by
  have hl := fieldOf_length h
  cases hf : fieldOf t v with
  | nil => rw [hf] at hl; simp at hl; omega
  | cons c l => simp [hf]

/-- The label length is detected from the first record. -/
theorem detect_line {L : ℕ} {k v : Val} {t : Tok} {ts : List Tok} {vs : List Val}
    (hL : 5 ≤ L ∧ L ≤ 9) (h : AllFit (sCol L :: t :: ts) (k :: v :: vs)) (ht : 0 < t.w)
    (hd : Detectable L k (fieldOf t v)) :
    getLabelLength ((lineOf (sCol L :: t :: ts) (k :: v :: vs)).take 9) = L := by
  cases k with
  | str s =>
    obtain ⟨h1, h2, h3⟩ := hd
    rw [lineOf_eq h]
    have hk : fieldOf (sCol L) (.str s) = s := by
      simp [fieldOf, toStr, padRight, h1, blanks]
    have e : recLine (List.flatMap (fun p => fieldOf p.1 p.2)
        ((sCol L :: t :: ts).zip (.str s :: v :: vs))) =
        s.take 5 ++ s.drop 5 ++ ((((t :: ts).zip (v :: vs)).flatMap fun p => fieldOf p.1 p.2) ++
          (blanks (80 - (List.flatMap (fun p => fieldOf p.1 p.2)
            ((sCol L :: t :: ts).zip (.str s :: v :: vs))).length) ++ ['\n'])) := by
      rw [List.take_append_drop]
      unfold recLine padRight
      rw [List.zip_cons_cons, List.flatMap_cons, hk]
      simp only [List.append_assoc]
    rw [e, Props.C07_label_length_detected]
    · rw [List.take_append_drop, h1]
    · simp; omega
    · simp; omega
    · exact h2
    · rw [head?_flatMap_fields h.2.1 ht]
      exact h3
  | none => exact absurd hd (by simp [Detectable])
  | bool _ => exact absurd hd (by simp [Detectable])
  | int _ => exact absurd hd (by simp [Detectable])
  | flt _ => exact absurd hd (by simp [Detectable])

end Verif.Model
