import Verif.Lemmas.Chunks

/-! Helper lemmas about the option blocks. -/

set_option linter.unusedSimpArgs false

namespace Verif.Model
open Verif.Py Verif.Spec

/-! ### merging and sorting option dictionaries -/

theorem dictSet_keys {κ β : Type} [DecidableEq κ] (d : List (κ × β)) (k : κ) (v : β)
    (h : k ∈ d.map (·.1)) : (dictSet d k v).map (·.1) = d.map (·.1) := by
  induction d with
  | nil => simp at h
  | cons e d ih =>
    obtain ⟨k', v'⟩ := e
    by_cases hk : k' = k
    · simp [dictSet, hk]
    · have : k ∈ d.map (·.1) := by
        rcases List.mem_cons.1 h with h | h
        · exact absurd h.symm hk
        · exact h
      simp [dictSet, hk, ih this]

theorem lookup_dictSet {κ β : Type} [DecidableEq κ] (d : List (κ × β)) (k j : κ) (v : β) :
    (dictSet d k v).lookup j = if j = k then some v else d.lookup j := by
  induction d with
  | nil =>
    by_cases h : j = k <;> simp [dictSet, List.lookup, h]
    rw [show (j == k) = false by simpa using h]
  | cons e d ih =>
    obtain ⟨k', v'⟩ := e
    by_cases hk : k' = k
    · subst hk
      by_cases h : j = k'
      · subst h; simp [dictSet]
      · have : (j == k') = false := by simpa using h
        simp [dictSet, h, List.lookup_cons, this]
    · by_cases h : j = k'
      · subst h; simp [dictSet, hk, List.lookup_cons]
      · have : (j == k') = false := by simpa using h
        simp [dictSet, hk, List.lookup_cons, this, ih]

theorem updateDict_keys {κ β : Type} [DecidableEq κ] (base d : List (κ × β))
    (h : ∀ e ∈ d, e.1 ∈ base.map (·.1)) : (updateDict base d).map (·.1) = base.map (·.1) := by
  unfold updateDict
  induction d generalizing base with
  | nil => rfl
  | cons e d ih =>
    have h1 := dictSet_keys base e.1 e.2 (h e (by simp))
    rw [List.foldl_cons, ih _ (fun x hx => by rw [h1]; exact h x (by simp [hx])), h1]

theorem lookup_updateDict {κ β : Type} [DecidableEq κ] (base d : List (κ × β))
    (hn : (d.map (·.1)).Nodup) (j : κ) :
    (updateDict base d).lookup j = (d.lookup j).or (base.lookup j) := by
  unfold updateDict
  induction d generalizing base with
  | nil => simp
  | cons e d ih =>
    obtain ⟨k, v⟩ := e
    simp only [List.map_cons, List.nodup_cons] at hn
    rw [List.foldl_cons, ih _ hn.2, lookup_dictSet]
    by_cases h : j = k
    · subst h
      have hd : d.lookup j = none := by
        rw [List.lookup_eq_none_iff]
        intro p hp
        have : p.1 ≠ j := fun e => hn.1 (e ▸ List.mem_map_of_mem hp)
        simpa using this.symm
      simp [hd, List.lookup_cons]
    · have : (j == k) = false := by simpa using h
      simp [h, List.lookup_cons, this]

theorem eq_map_lookup {κ β : Type} [DecidableEq κ] (d : List (κ × β)) (hn : (d.map (·.1)).Nodup)
    (b : β) : d = (d.map (·.1)).map fun k => (k, (d.lookup k).getD b) := by
  induction d with
  | nil => rfl
  | cons e d ih =>
    obtain ⟨k, v⟩ := e
    simp only [List.map_cons, List.nodup_cons] at hn
    simp only [List.map_cons, List.lookup_cons, beq_self_eq_true, Option.getD_some]
    congr 1
    conv_lhs => rw [ih hn.2]
    apply List.map_congr_left
    intro j hj
    have : (j == k) = false := by
      have : j ≠ k := fun e => hn.1 (e ▸ hj)
      simpa using this
    simp [this]

theorem noOptions_keys (n : ℕ) :
    (noOptions n).map (·.1) = (List.range n).map fun k : ℕ => (k : ℤ) + 1 := by
  simp [noOptions, Function.comp_def]

theorem keys_nodup (n : ℕ) : ((List.range n).map fun k : ℕ => (k : ℤ) + 1).Nodup := by
  rw [List.nodup_map_iff (fun a b h => by simpa using h)]
  exact List.nodup_range

theorem lookup_noOptions (n : ℕ) (j : ℤ) : ((noOptions n).lookup j).getD .none = .none := by
  unfold noOptions
  induction List.range n with
  | nil => rfl
  | cons k l ih =>
    rw [List.map_cons, List.lookup_cons]
    split
    · rfl
    · exact ih

/-- The values of a dictionary with the keys `1..n`, sorted by key. -/
theorem sortedVals_of_keys (n : ℕ) (m : List (ℤ × Val))
    (hk : m.map (·.1) = (List.range n).map fun k : ℕ => (k : ℤ) + 1) :
    sortedVals m = (List.range n).map fun k : ℕ => valueAt m ((k : ℤ) + 1) := by
  have hn : (m.map (·.1)).Nodup := hk ▸ keys_nodup n
  have hs : m.Pairwise fun a b => a.1 ≤ b.1 := by
    have : (m.map (·.1)).Pairwise (· ≤ ·) := by
      rw [hk, List.pairwise_map]
      have := List.pairwise_lt_range (n := n)
      exact this.imp (by intro a b h; omega)
    rw [List.pairwise_map] at this
    exact this
  unfold sortedVals
  rw [hs.insertionSort_eq]
  conv_lhs => rw [eq_map_lookup m hn .none]
  rw [hk]
  simp [valueAt, Function.comp_def]

theorem sortedVals_update (n : ℕ) (d : List (ℤ × Val)) (hn : (d.map (·.1)).Nodup)
    (h : ∀ e ∈ d, 1 ≤ e.1 ∧ e.1 ≤ n) :
    sortedVals (updateDict (noOptions n) d) =
      (List.range n).map fun k : ℕ => valueAt d ((k : ℤ) + 1) := by
  have hk : (updateDict (noOptions n) d).map (·.1) =
      (List.range n).map fun k : ℕ => (k : ℤ) + 1 := by
    rw [updateDict_keys, noOptions_keys]
    intro e he
    obtain ⟨h1, h2⟩ := h e he
    rw [noOptions_keys, List.mem_map]
    exact ⟨(e.1 - 1).toNat, by rw [List.mem_range]; omega, by omega⟩
  rw [sortedVals_of_keys n _ hk]
  apply List.map_congr_left
  intro k _
  unfold valueAt
  rw [lookup_updateDict _ _ hn]
  cases d.lookup ((k : ℤ) + 1) with
  | none => simpa using lookup_noOptions n _
  | some v => rfl

/-! ### option digits -/

/-- The character printed for an option. -/
def optChar : Val → Char
  | .int i => digitChar i.toNat
  | _ => ' '

theorem intStr_digit (k : Fin 10) : intStr ((k : ℕ) : ℤ) = [digitChar k] := by
  revert k; decide

theorem optStr_digit {v : Val} (h : v = .none ∨ ∃ k : Fin 10, v = .int (k : ℕ)) :
    optStr v = .ok [optChar v] := by
  rcases h with rfl | ⟨k, rfl⟩
  · rfl
  · rw [optStr, intStr_digit]; rfl

theorem valueAt_digit {n : ℕ} {d : List (ℤ × Val)} (h : DigitsOk n d) (j : ℤ) :
    valueAt d j = .none ∨ ∃ k : Fin 10, valueAt d j = .int (k : ℕ) := by
  unfold valueAt
  cases hl : d.lookup j with
  | none => exact Or.inl rfl
  | some v =>
    obtain ⟨l1, l2, rfl, -⟩ := List.lookup_eq_some_iff.1 hl
    exact (h.2 (j, v) (by simp)).2.2

theorem optText_eq {n : ℕ} {d : List (ℤ × Val)} (h : DigitsOk n d) :
    optText n d = .ok ((List.range n).map fun k : ℕ => optChar (valueAt d ((k : ℤ) + 1))) := by
  unfold optText
  rw [sortedVals_update n d h.1 (fun e he => ⟨(h.2 e he).1, (h.2 e he).2.1⟩),
    concatM_ok (g := fun v => [optChar v])]
  · congr 1
    rw [List.flatMap_map]
    simp [List.flatMap_def]
    induction List.range n with
    | nil => rfl
    | cons a l ih => simp [ih]
  · intro v hv
    obtain ⟨k, -, rfl⟩ := List.mem_map.1 hv
    exact optStr_digit (valueAt_digit h _)

theorem readDigits_eq {n : ℕ} {d : List (ℤ × Val)} (h : DigitsOk n d) :
    readDigits (.str ((List.range n).map fun k : ℕ => optChar (valueAt d ((k : ℤ) + 1)))) =
      .ok (setEntries n d) := by
  have hstep : ∀ (l : List ℕ) (s : ℕ), l = List.range' s l.length →
      (((l.map fun k : ℕ => optChar (valueAt d ((k : ℤ) + 1))).zipIdx s).filter
        fun p => isDigit p.1).map (fun p => ((p.2 : ℤ) + 1, Val.int (digitVal p.1))) =
      (l.map fun k : ℕ => ((k : ℤ) + 1, valueAt d ((k : ℤ) + 1))).filter (·.2 ≠ .none) := by
    intro l
    induction l with
    | nil => intros; rfl
    | cons a l ih =>
      intro s hs
      rw [List.length_cons, List.range'_succ] at hs
      injection hs with h1 h2
      subst h1
      have ih' := ih (a + 1) h2
      rw [List.map_cons, List.zipIdx_cons, List.map_cons, List.filter_cons, List.filter_cons]
      rcases valueAt_digit h ((a : ℤ) + 1) with hv | ⟨k, hv⟩
      · rw [hv]
        simpa [optChar, isDigit] using ih'
      · rw [hv]
        have h1 : isDigit (digitChar k) = true := isDigit_digitChar k.2
        have h2 : digitVal (digitChar k) = k := digitVal_digitChar k.2
        simp only [optChar, Int.toNat_natCast, h1, if_true, ne_eq, reduceCtorEq, not_false_iff,
          decide_true, List.map_cons, h2]
        congr 1
  unfold readDigits setEntries
  simp only
  congr 1
  have := hstep (List.range n) 0 (by rw [List.length_range, List.range_eq_range'])
  simpa using this

theorem pruneDict_setEntries (n : ℕ) (d : List (ℤ × Val)) :
    pruneDict (setEntries n d) = setEntries n d := by
  unfold pruneDict setEntries
  rw [List.filter_filter]
  simp

/-! ### initial conditions on one or two lines -/

theorem prune_two (p : ℕ) (n : ℕ) (ic : List Val) (hl : ic.length ≤ n + n) (hn : n < ic.length) :
    pruneNones (((ic.take n).map (num p) ++ List.replicate (n - (ic.take n).length) .none) ++
      ((ic.drop n).map (num p) ++ List.replicate (n - (ic.drop n).length) .none)) =
      dropTrailing (ic.map (num p)) := by
  have : n - (ic.take n).length = 0 := by rw [List.length_take]; omega
  rw [this, List.replicate_zero, List.append_nil, ← List.append_assoc, ← List.map_append,
    List.take_append_drop, pruneNones_eq, dropTrailing_append_none]

theorem prune_one (p : ℕ) (n : ℕ) (ic : List Val) (hn : ic.length ≤ n) :
    pruneNones ((ic.take n).map (num p) ++ List.replicate (n - (ic.take n).length) .none) =
      dropTrailing (ic.map (num p)) := by
  rw [List.take_of_length_le hn, pruneNones_eq, dropTrailing_append_none]

theorem param5_eq : Fmt.param5 = List.replicate 4 (eCol 20 13) := rfl
theorem indom0_eq : Fmt.indom0 = List.replicate 4 (eCol 20 13) := rfl

/-- The line of a name that is not a number is not a record of numbers. -/
theorem readRecord_nonNumber {fmt : List Tok} {w p : ℕ} (hw : 0 < w) {line s t : Str}
    (hs : strip ((line).take w) = s) (hne : s ≠ []) (hnum : ¬ NumberText s)
    (hf : fmt = eCol w p :: t.map (fun _ => eCol w p)) :
    readRecord fmt line = .error .valueError := by
  subst hf
  have h1 : str2float s = .error .valueError := by
    unfold NumberText at hnum
    rw [not_or, Option.not_isSome_iff_eq_none, Option.not_isSome_iff_eq_none] at hnum
    obtain ⟨h1, h2⟩ := hnum
    unfold str2float
    rw [h1]
    simp only
    rw [h2]
  have h2 : readField (eCol w p) (slice line 0 w) = .error .valueError := by
    unfold readField slice
    simp [hs, hne, h1]
  unfold readRecord
  rw [readFrom, h2]
  rfl

end Verif.Model
