import Verif.Model.Registry
import Verif.Spec.Registry
import Verif.Lemmas.Opts
import Verif.Lemmas.Hist

/-!
# Lemmas about file formats
-/

namespace Verif.Model
open Verif.Py Verif.Spec

theorem dictGet_dictSet {κ β : Type} [DecidableEq κ] (d : List (κ × β)) (k : κ) (v : β) (s : κ) :
    dictGet (dictSet d k v) s = if s = k then .ok v else dictGet d s := by
  unfold dictGet
  rw [lookup_dictSet]
  by_cases h : s = k <;> simp [h]

theorem dictGet_foldl_reg {κ β : Type} [DecidableEq κ] (ks : List κ) (v : β) (d : List (κ × β)) (s : κ) :
    dictGet (ks.foldl (fun d e => dictSet d e v) d) s = if s ∈ ks then .ok v else dictGet d s := by
  induction ks generalizing d with
  | nil => simp
  | cons k ks ih =>
    rw [List.foldl_cons, ih, dictGet_dictSet]
    by_cases h1 : s ∈ ks
    · simp [h1]
    · by_cases h2 : s = k <;> simp [h1, h2]

theorem rfind_notMem {c : Char} {s : Str} (h : c ∉ s) : rfind c s = -1 := by
  induction s with
  | nil => rfl
  | cons d s ih =>
    rw [List.mem_cons, not_or] at h
    rw [rfind, ih h.2, if_neg (by omega), if_neg (Ne.symm h.1)]

theorem rfind_split {c : Char} (a b : Str) (h : c ∉ b) : rfind c (a ++ c :: b) = a.length := by
  induction a with
  | nil => simp [rfind, rfind_notMem h]
  | cons d a ih =>
    rw [List.cons_append, rfind, ih, if_pos (by omega)]
    simp

theorem rfind_cases (c : Char) (s : Str) :
    (c ∉ s ∧ rfind c s = -1) ∨ ∃ a b, s = a ++ c :: b ∧ c ∉ b ∧ rfind c s = a.length := by
  induction s with
  | nil => left; simp [rfind]
  | cons d s ih =>
    rcases ih with ⟨h1, h2⟩ | ⟨a, b, h1, h2, h3⟩
    · by_cases h : d = c
      · right
        refine ⟨[], s, by simp [h], h1, ?_⟩
        simp [rfind, h2, h]
      · left
        refine ⟨?_, ?_⟩
        · rw [List.mem_cons, not_or]; exact ⟨Ne.symm h, h1⟩
        · simp [rfind, h2, h]
    · right
      refine ⟨d :: a, b, by rw [h1]; rfl, h2, ?_⟩
      rw [rfind, h3, if_pos (by omega)]
      simp

/-- The directory part of a name. -/
theorem rfind_dir {dir name : Str} (hd : dir = [] ∨ dir.getLast? = some '/') (hn : '/' ∉ name) :
    rfind '/' (dir ++ name) = (dir.length : ℤ) - 1 := by
  rcases hd with rfl | hd
  · simp [rfind_notMem hn]
  · have hne : dir ≠ [] := by rintro rfl; simp at hd
    have e : dir = dir.dropLast ++ ['/'] := by
      rw [List.getLast?_eq_some_getLast hne] at hd
      injection hd with hd
      conv_lhs => rw [← List.dropLast_append_getLast hne, hd]
    have : dir ++ name = dir.dropLast ++ '/' :: name := by
      conv_lhs => rw [e]
      simp
    rw [this, rfind_split _ _ hn, List.length_dropLast]
    have := List.length_pos_of_ne_nil hne
    omega

theorem splitext_ext {p e : Str} (h : HasExt p e) : (splitext p).2 = e := by
  obtain ⟨dir, stem, suffix, rfl, rfl, hd, h1, h2, h3, c, hc, hc'⟩ := h
  have hs : rfind '/' (dir ++ (stem ++ '.' :: suffix)) = (dir.length : ℤ) - 1 := by
    apply rfind_dir hd
    simp only [List.mem_append, List.mem_cons, not_or]
    exact ⟨h1, by decide, h2⟩
  have hdot : rfind '.' (dir ++ (stem ++ '.' :: suffix)) = ((dir ++ stem).length : ℕ) := by
    rw [← List.append_assoc]
    exact rfind_split _ _ h3
  unfold splitext
  simp only [hs, hdot]
  rw [if_pos]
  · simp only [Int.toNat_natCast]
    rw [← List.append_assoc, List.drop_left]
  · refine ⟨by simp; omega, ?_⟩
    have : ((dir.length : ℤ) - 1 + 1).toNat = dir.length := by omega
    rw [this, Int.toNat_natCast, ← List.append_assoc, List.take_left, List.drop_left, List.any_eq_true]
    exact ⟨c, hc, by simpa using hc'⟩

theorem splitext_none {p : Str} (h : ¬ ∃ e, HasExt p e) : (splitext p).2 = [] := by
  unfold splitext
  simp only
  split
  · rename_i hc
    exfalso
    apply h
    obtain ⟨h1, h2⟩ := hc
    rcases rfind_cases '.' p with ⟨-, hd⟩ | ⟨a, b, e, hb, hd⟩
    · rw [hd] at h1
      rcases rfind_cases '/' p with ⟨-, hs⟩ | ⟨a, b, -, -, hs⟩ <;> rw [hs] at h1 <;> omega
    · rw [hd] at h1 h2
      rcases rfind_cases '/' p with ⟨hn, hs⟩ | ⟨a', b', e', hb', hs⟩
      · rw [hs] at h2
        refine ⟨'.' :: b, [], a, b, e, rfl, .inl rfl, ?_, ?_, hb, ?_⟩
        · intro hm; exact hn (by rw [e]; simp [hm])
        · intro hm; exact hn (by rw [e]; simp [hm])
        · rw [Int.toNat_natCast, e, List.take_left, List.any_eq_true] at h2
          obtain ⟨c, hc, hc'⟩ := h2
          exact ⟨c, by simpa using hc, by simpa using hc'⟩
      · rw [hs] at h1 h2
        have hlt : a'.length < a.length := by exact_mod_cast h1
        -- the separator is in `a`
        have ha : a = a' ++ '/' :: (b'.take (a.length - a'.length - 1)) := by
          have h3 : a = p.take a.length := by rw [e, List.take_left]
          rw [h3, e']
          have hal : (List.take a.length (a' ++ '/' :: b')).length = a.length := by
            rw [← e', ← h3]
          rw [hal, List.take_append, List.take_of_length_le (by omega)]
          congr 1
          obtain ⟨n, hn⟩ : ∃ n, a.length - a'.length = n + 1 := ⟨a.length - a'.length - 1, by omega⟩
          rw [hn]
          rfl
        refine ⟨'.' :: b, a' ++ ['/'], b'.take (a.length - a'.length - 1), b, ?_, rfl,
          .inr (by simp), ?_, ?_, hb, ?_⟩
        · rw [e]
          conv_lhs => rw [ha]
          simp
        · intro hm; exact hb' (List.mem_of_mem_take hm)
        · intro hm
          have h4 : '/' :: b' = '/' :: (b'.take (a.length - a'.length - 1) ++ '.' :: b) := by
            have : a' ++ '/' :: b' = a' ++ ('/' :: (b'.take (a.length - a'.length - 1)) ++ '.' :: b) := by
              rw [← e', e, ← List.append_assoc, ← ha]
            simpa using List.append_cancel_left this
          injection h4 with _ h4
          apply hb'
          rw [h4]
          simp [hm]
        · rw [Int.toNat_natCast, e, List.take_left] at h2
          have : ((a'.length : ℤ) + 1).toNat = a'.length + 1 := by omega
          rw [this, ha, ← List.drop_drop, List.drop_left, List.any_eq_true] at h2
          obtain ⟨c, hc, hc'⟩ := h2
          rw [List.drop_succ_cons, List.drop_zero] at hc
          exact ⟨c, hc, by simpa using hc'⟩
  · rfl

theorem registered_last (regs : List (Str × List Str)) (d : List (Str × Str)) (e : Str) :
    dictGet (regs.foldl (fun d r => r.2.foldl (fun d e => dictSet d e r.1) d) d) e =
      match lastRegistered regs e with
      | some f => .ok f
      | none => dictGet d e := by
  induction regs using List.reverseRecOn generalizing d with
  | nil => rfl
  | append_singleton regs r ih =>
    rw [List.foldl_append, List.foldl_cons, List.foldl_nil, dictGet_foldl_reg, ih]
    unfold lastRegistered
    rw [List.filter_append]
    by_cases h : e ∈ r.2
    · simp [h]
    · simp [h]

end Verif.Model
