import Verif.Lemmas.Labeler
import Verif.Props.Records

/-!
# Generated cell labels (C34, C35)
-/

namespace Verif.Props
open Verif.Py Verif.Model Verif.Spec

/-- The labels for a length of at least four when they exist. -/
theorem labeler_ok (n L : ℕ) (hL : 4 ≤ L) (len : Option ℤ) (hlen : usedLength n len = L)
    (hn : n ≤ capacity L) :
    ∃ ls, labeler n len = .ok ls ∧ ls.length = n ∧ ls.Nodup ∧ ∀ s ∈ ls, WellFormed L s := by
  have hcap : capacity L = 26 * 35 * 35 * 10 ^ (L - 3) := rfl
  have hpos : 0 < L - 3 := by omega
  have hw : ∀ i ∈ List.range n, ∃ s, label (L - 3) i = .ok s ∧ WellFormed L s := by
    intro i hi
    have := label_wellFormed (L - 3) i hpos (by have := List.mem_range.1 hi; omega)
    rwa [show L - 3 + 3 = L by omega] at this
  have hw' : ∀ i, ∃ s, i ∈ List.range n → label (L - 3) i = .ok s ∧ WellFormed L s := by
    intro i
    by_cases hi : i ∈ List.range n
    · obtain ⟨s, hs⟩ := hw i hi
      exact ⟨s, fun _ => hs⟩
    · exact ⟨[], fun h => absurd h hi⟩
  choose g hg using hw'
  refine ⟨(List.range n).map g, ?_, by simp, ?_, ?_⟩
  · unfold labeler
    rw [hlen, if_neg (by omega), show ((L : ℤ) - 3).toNat = L - 3 by omega]
    exact mapM_ok fun i hi => (hg i hi).1
  · refine List.Nodup.map_on (fun i hi j hj hij => ?_) List.nodup_range
    have h1 := (hg i hi).1
    have h2 := (hg j hj).1
    rw [List.mem_range] at hi hj
    exact label_injective (L - 3) i j hpos (by omega) (by omega) (by rw [h1, h2, hij])
  · intro s hs
    obtain ⟨i, hi, rfl⟩ := List.mem_map.1 hs
    exact (hg i hi).2

/-- C34. The labels for a length of at least four are distinct and well formed
as long as they suffice.
Missing: a length of three, see `C34_violated`. -/
theorem C34_labels_partial (n L : ℕ) (hL : 4 ≤ L) (hn : n ≤ capacity L) :
    ∃ ls, labeler n (some L) = .ok ls ∧ ls.length = n ∧ ls.Nodup ∧ ∀ s ∈ ls, WellFormed L s :=
  labeler_ok n L hL _ (by simp [usedLength]; omega) hn

example : (3185000 : ℕ) ≤ capacity 5 := by decide

/-- C34. When the labels of a length do not suffice, none are generated. -/
theorem C34_too_many (n L : ℕ) (hL : 3 ≤ L) (hn : capacity L < n) :
    labeler n (some L) = .error .indexError := by
  have hlen : usedLength n (some (L : ℤ)) = L := by simp [usedLength]; omega
  unfold labeler
  rw [hlen, if_neg (by omega), show ((L : ℤ) - 3).toNat = L - 3 by omega]
  exact mapM_error_of_mem (fun i _ => label_ok_or_index _ i)
    ⟨capacity L, List.mem_range.2 hn, label_error _ _ rfl⟩

example : capacity 5 < 3185001 := by decide

/-- C34 is violated by the code for a label length of three: the labels have four
characters. -/
theorem C34_violated : labeler 1 (some 3) = .ok ["A110".toList] := by decide

/-- Label lengths below three are rejected. -/
theorem C34_short (n : ℕ) (l : ℤ) (h : l < 3) (h0 : l ≠ 0) :
    labeler n (some l) = .error .typeError := by
  simp [labeler, usedLength, h0, h]

example : labeler 2 (some 5) = .ok ["A1100".toList, "A1101".toList] := by decide

/-- C35. The automatic length is the smallest one, from five on, whose labels
suffice. -/
theorem C35_minimal (n : ℕ) (hn : n ≤ capacity 10) :
    5 ≤ autoLength n ∧ n ≤ capacity (autoLength n) ∧
      ∀ L, 5 ≤ L → n ≤ capacity L → autoLength n ≤ L := by
  have hc : ∀ L, 5 ≤ L → 10 ≤ L ∨ L = 5 ∨ L = 6 ∨ L = 7 ∨ L = 8 ∨ L = 9 := by omega
  have e : ∀ k, 5 ≤ k → k ≤ 10 → (autoLength n = k ↔
      (n ≤ capacity k ∧ (k = 5 ∨ capacity (k - 1) < n) )) := by
    intro k h5 h10
    unfold autoLength
    simp only [List.range_succ, List.range_zero, List.nil_append, List.filter_append,
      List.filter_cons, List.filter_nil, List.length_append, decide_eq_true_eq]
    have : k = 5 ∨ k = 6 ∨ k = 7 ∨ k = 8 ∨ k = 9 ∨ k = 10 := by omega
    unfold capacity at hn ⊢
    rcases this with rfl | rfl | rfl | rfl | rfl | rfl <;> norm_num at hn ⊢ <;>
      first | omega | (split_ifs <;> simp <;> omega)
  have hrange : 5 ≤ autoLength n ∧ autoLength n ≤ 10 := by
    refine ⟨Nat.le_add_left _ _, ?_⟩
    unfold autoLength
    have := List.length_filter_le (fun k : ℕ => decide (3185000 * 10 ^ k + 1 ≤ n)) (List.range 5)
    simp only [List.length_range] at this
    omega
  have := (e (autoLength n) hrange.1 hrange.2).1 rfl
  refine ⟨hrange.1, this.1, fun L hL hnL => ?_⟩
  by_contra hlt
  rcases this.2 with h | h
  · omega
  · have mono : capacity L ≤ capacity (autoLength n - 1) := by
      unfold capacity
      exact Nat.mul_le_mul_left _ (Nat.pow_le_pow_right (by norm_num) (by omega))
    omega

/-- C35. The labels of automatic length are distinct, well formed and of that
length. -/
theorem C35_labels (n : ℕ) (hn : n ≤ capacity 10) :
    ∃ ls, labeler n none = .ok ls ∧ ls.length = n ∧ ls.Nodup ∧
      ∀ s ∈ ls, WellFormed (autoLength n) s := by
  obtain ⟨h5, hc, -⟩ := C35_minimal n hn
  exact labeler_ok n (autoLength n) (by omega) none rfl hc

example : (3185001 : ℕ) ≤ capacity 10 ∧ autoLength 3185001 = 6 := by decide

/-- C35. A well formed label of five to nine characters is recognised with its
length at the beginning of a line, unless a digit follows. Missing from the full
claim: labels of ten characters, which are longer than any record can hold. -/
theorem C35_detected_partial (L : ℕ) (s rest : Str) (h5 : 5 ≤ L) (h9 : L ≤ 9)
    (hs : WellFormed L s) (hr : ∀ c ∈ rest.head?, isDigit c = false) :
    getLabelLength ((s ++ rest).take 9) = L := by
  obtain ⟨hl, a, b, c, d, rfl, -, -, -, hd⟩ := hs
  have e : a :: b :: c :: d = (a :: b :: c :: d.take 2) ++ d.drop 2 := by simp
  simp only [List.length_cons] at hl
  have := C07_label_length_detected (a :: b :: c :: d.take 2) (d.drop 2) rest
    (by simp; omega) (by simp; omega)
    (by
      intro x hx
      have := hd x (List.mem_of_mem_drop hx)
      simpa [isDigit, IsDec] using this) hr
  rw [← e] at this
  rw [this]
  simp
  omega

example : WellFormed 6 "A11000".toList :=
  ⟨rfl, 'A', '1', '1', "000".toList, rfl, by unfold IsUpper; decide,
    Or.inl (by unfold IsPosDigit; decide), Or.inl (by unfold IsPosDigit; decide),
    by unfold IsDec; decide⟩

/-- C35 is violated by the code for labels of ten characters. -/
theorem C35_violated (s rest : Str) (hs : WellFormed 10 s) :
    getLabelLength ((s ++ rest).take 9) = 9 := by
  obtain ⟨hl, a, b, c, d, rfl, -, -, -, hd⟩ := hs
  simp only [List.length_cons] at hl
  have hd' : ∀ x ∈ d, isDigit x = true := fun x hx => by
    simpa [isDigit, IsDec] using hd x hx
  match d, hl, hd' with
  | [x1, x2, x3, x4, x5, x6, x7], _, hd' =>
    simp [getLabelLength, countDigits, hd' x3 (by simp), hd' x4 (by simp), hd' x5 (by simp),
      hd' x6 (by simp)]

example : autoLength 31850000001 = 10 := by decide

end Verif.Props
