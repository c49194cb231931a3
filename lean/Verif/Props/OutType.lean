import Verif.Props.Csv
import Verif.Spec.OutType

/-!
# Recognition of output files (C37)
-/

namespace Verif.Props
open Verif.Py Verif.Model Verif.Spec

theorem headD_line1 (lines : List Str) : strip (lines.headD []) = line1 lines := by
  cases lines <;> rfl

theorem tail_line2 (lines : List Str) : line1 lines.tail = line2 lines := by
  match lines with
  | [] => rfl
  | [_] => rfl
  | _ :: _ :: _ => rfl

theorem beforeComma_spec (s : Str) : (beforeComma s = s ∨ ∃ r, s = beforeComma s ++ ',' :: r) ∧
    ',' ∉ beforeComma s := by
  unfold beforeComma
  constructor
  · induction s with
    | nil => exact Or.inl rfl
    | cons c s ih =>
      by_cases hc : c = ','
      · subst hc
        exact Or.inr ⟨s, by simp⟩
      · rw [List.takeWhile_cons, if_pos (by simpa using hc)]
        rcases ih with h | ⟨r, h⟩
        · exact Or.inl (by rw [h])
        · exact Or.inr ⟨r, by conv_lhs => rw [h]
                              simp⟩
  · intro h
    have := List.all_takeWhile (p := fun c => decide (c ≠ ',')) (l := s)
    rw [List.all_eq_true] at this
    simpa using this ',' h

theorem beforeComma_unique {s col : Str} (h : col = s ∨ ∃ r, s = col ++ ',' :: r) (hc : ',' ∉ col) :
    beforeComma s = col := by
  unfold beforeComma
  rcases h with rfl | ⟨r, rfl⟩
  · rw [← List.append_nil (List.takeWhile _ _)]
    conv_rhs => rw [← List.append_nil col]
    conv_lhs => rw [List.append_nil, ← List.append_nil col]
    rw [List.takeWhile_append_of_pos]
    · rfl
    · intro c h
      have : c ≠ ',' := by rintro rfl; exact hc h
      simpa using this
  · rw [List.takeWhile_append_of_pos, List.takeWhile_cons]
    · simp
    · intro c h
      have : c ≠ ',' := by rintro rfl; exact hc h
      simpa using this

theorem firstColumn_iff (lines : List Str) (name : Str) : FirstColumn lines name ↔
    strip ((beforeComma (line1 lines)).filter (· ≠ '"')) = name := by
  constructor
  · rintro ⟨col, h1, h2, h3⟩
    rw [beforeComma_unique h1 h2]
    exact h3
  · intro h
    obtain ⟨h1, h2⟩ := beforeComma_spec (line1 lines)
    exact ⟨_, h1.imp (fun h => h) (fun h => h), h2, h⟩

/-- C37. The type and format of a file are decided from its first lines, and
exactly so. -/
theorem C37_output_type (lines : List Str) : outputType lines =
    open Classical in
    if IsTough lines then .ok (.element, .tough)
    else if IsSave lines then .ok (.element, .save)
    else if HasEqual lines then .ok (.element, .tecplot)
    else if IsPetrasim lines then .ok (.element, .petrasim)
    else if FirstColumn lines "ELEM".toList then .ok (.element, .csv)
    else if FirstColumn lines "ELEM1".toList then .ok (.connection, .csv)
    else .error .valueError := by
  classical
  unfold outputType
  simp only [headD_line1, tail_line2, List.isPrefixOf_iff_prefix]
  have hfc := firstColumn_iff lines
  by_cases h0 : line1 lines = []
  · have e1 : ¬ IsSave lines := by unfold IsSave; rw [h0]; decide
    have e2 : ¬ HasEqual lines := by unfold HasEqual; rw [h0]; decide
    have e3 : ¬ IsPetrasim lines := by unfold IsPetrasim; rw [h0]; decide
    have e4 : ¬ FirstColumn lines "ELEM".toList := by rw [hfc, h0]; decide
    have e5 : ¬ FirstColumn lines "ELEM1".toList := by rw [hfc, h0]; decide
    have e6 : IsTough lines ↔ "@@@@@".toList <+: line2 lines := by
      unfold IsTough
      rw [h0]
      simp
    rw [if_pos h0, if_neg e1, if_neg e2, if_neg e3, if_neg e4, if_neg e5]
    simp only [e6]
  · rw [if_neg h0]
    have e6 : IsTough lines ↔ "1      @@@@@".toList <+: line1 lines := by
      unfold IsTough
      simp [h0]
    simp only [e6, hfc, IsSave, HasEqual, IsPetrasim]

/-- C37. A file is recognised as CSV exactly when its first column is `ELEM` or
`ELEM1` and it has no mark of another format. -/
theorem C37_csv_iff (lines : List Str) (t : OutType) : outputType lines = .ok (t, .csv) ↔
    ¬ IsTough lines ∧ ¬ IsSave lines ∧ ¬ HasEqual lines ∧ ¬ IsPetrasim lines ∧
      FirstColumn lines (match t with
        | .element => "ELEM".toList
        | .connection => "ELEM1".toList) := by
  classical
  have hfc := firstColumn_iff lines
  have hne : ¬ (FirstColumn lines "ELEM".toList ∧ FirstColumn lines "ELEM1".toList) := by
    rw [hfc, hfc]
    rintro ⟨h1, h2⟩
    rw [h1] at h2
    exact absurd h2 (by decide)
  rw [C37_output_type]
  by_cases h1 : IsTough lines
  · simp [h1]
  by_cases h2 : IsSave lines
  · simp [h1, h2]
  by_cases h3 : HasEqual lines
  · simp [h1, h2, h3]
  by_cases h4 : IsPetrasim lines
  · simp [h1, h2, h3, h4]
  by_cases h5 : FirstColumn lines "ELEM".toList
  · have h6 : ¬ FirstColumn lines "ELEM1".toList := fun h => hne ⟨h5, h⟩
    cases t <;> simp only [h1, h2, h3, h4, h5, h6] <;> simp
  · by_cases h6 : FirstColumn lines "ELEM1".toList
    · cases t <;> simp only [h1, h2, h3, h4, h5, h6] <;> simp
    · cases t <;> simp only [h1, h2, h3, h4, h5, h6] <;> simp

/-- C37. A file as the CSV writer writes it is recognised as such, unless the name
of a variable contains an equal sign. -/
theorem C37_csv_header_partial (type : OutType) (vars : List Str) (rest : List Str)
    (hv : ∀ k ∈ vars, PlainText k ∧ '=' ∉ k) :
    outputType ((joinWith ',' ((labelHeaders type ++ vars).map quoted) ++ ['\n']) :: rest) =
      .ok (type, .csv) := by
  have hj : ∀ (xs : List Str), (∀ x ∈ xs, '=' ∉ x) → '=' ∉ joinWith ',' xs := by
    intro xs hx
    induction xs with
    | nil => simp [joinWith]
    | cons x xs ih =>
      by_cases hn : xs = []
      · subst hn; exact hx x (by simp)
      · rw [joinWith_cons hn]
        simp only [List.mem_append, List.mem_cons, not_or]
        exact ⟨hx x (by simp), by decide, ih fun y hy => hx y (List.mem_cons_of_mem _ hy)⟩
  obtain ⟨h0, hs, hh⟩ : ∃ h0 hs, labelHeaders type = h0 :: hs := by
    cases type <;> exact ⟨_, _, rfl⟩
  have hlab : ∀ k ∈ labelHeaders type, '=' ∉ k := by cases type <;> decide
  have hall : ∀ k ∈ labelHeaders type ++ vars, '=' ∉ k := by
    intro k hk
    rcases List.mem_append.1 hk with hk | hk
    · exact hlab k hk
    · exact (hv k hk).2
  have hl1 : line1 ((joinWith ',' ((labelHeaders type ++ vars).map quoted) ++ ['\n']) :: rest) =
      joinWith ',' ((labelHeaders type ++ vars).map quoted) := by
    unfold line1
    simp only [List.getElem?_cons_zero, Option.getD_some]
    apply strip_line
    · rw [hh, List.cons_append, List.map_cons, head_join (quoted_last h0).1]
      intro c hc
      have : c = '"' := by simpa [quoted] using hc.symm
      subst this; decide
    · apply last_join
      intro x hx
      obtain ⟨k, -, rfl⟩ := List.mem_map.1 hx
      exact quoted_last k
  obtain ⟨r, hr⟩ : ∃ r, joinWith ',' ((labelHeaders type ++ vars).map quoted) = '"' :: r := by
    have := head_join (sep := ',') (xs := (hs ++ vars).map quoted) (quoted_last h0).1
    rw [hh, List.cons_append, List.map_cons]
    cases hq : joinWith ',' (quoted h0 :: (hs ++ vars).map quoted) with
    | nil => rw [hq] at this; simp [quoted] at this
    | cons c r =>
      rw [hq] at this
      have : c = '"' := by simpa [quoted] using this
      subst this
      exact ⟨r, rfl⟩
  rw [C37_csv_iff]
  refine ⟨?_, ?_, ?_, ?_, ?_⟩
  · unfold IsTough
    rw [hl1, hr]
    rintro (⟨h, -⟩ | h)
    · cases h
    · have := h.eq_of_length_le
      obtain ⟨t, ht⟩ := h
      have := congrArg List.head? ht
      simp at this
  · unfold IsSave
    rw [hl1, hr]
    rintro ⟨t, ht⟩
    have := congrArg List.head? ht
    simp at this
  · unfold HasEqual
    rw [hl1]
    refine hj _ fun x hx => ?_
    obtain ⟨k, hk, rfl⟩ := List.mem_map.1 hx
    have := hall k hk
    simp [quoted, padLeft, blanks, this]
  · unfold IsPetrasim
    rw [hl1, hr]
    rintro ⟨t, ht⟩
    have := congrArg List.head? ht
    simp at this
  · rw [firstColumn_iff, hl1]
    have hc : beforeComma (joinWith ',' ((labelHeaders type ++ vars).map quoted)) = quoted h0 := by
      apply beforeComma_unique
      · rw [hh, List.cons_append, List.map_cons]
        by_cases hn : (hs ++ vars).map quoted = []
        · rw [hn]; exact Or.inl rfl
        · exact Or.inr ⟨_, joinWith_cons hn⟩
      · have : h0 ∈ labelHeaders type := by rw [hh]; simp
        intro hcm
        have hp := (labelHeaders_elem type h0 this).2
        have := (labelField hp).2.1
        unfold quoted at hcm
        simp only [List.cons_append, List.mem_cons, List.mem_append, List.not_mem_nil, or_false] at hcm
        rcases hcm with hcm | hcm | hcm
        · revert hcm; decide
        · exact this hcm
        · revert hcm; decide
    rw [hc]
    have hp := (labelHeaders_elem type h0 (by rw [hh]; simp)).2
    have e := (labelField hp).1
    unfold unquote at e
    rw [e, (labelField hp).2.2]
    cases type <;> (simp only [labelHeaders, List.cons.injEq] at hh; exact hh.1.symm)

example : ∀ k ∈ ["X".toList, "PRES".toList], PlainText k ∧ '=' ∉ k := by decide

/-- C38, partial as in `C38_csv_round_trip_partial`. The file written is recognised
and read back without being told its type. -/
theorem C38_recognised_partial {L : Type} (repr : Flt → Str) (type : OutType) (texts : L → List Str)
    (ks : List Str) (n : ℕ) (outs : List (Output L Flt)) (hne : outs ≠ []) (hn : 0 < n)
    (h : SeriesOk (labelHeaders type).length texts ks n outs) (hk : ∀ k ∈ ks, '=' ∉ k) :
    ∃ lines rs, writeCsv repr type texts outs = .ok lines ∧ outputType lines = .ok (type, .csv) ∧
      readCsv type lines = .ok rs ∧ List.Forall₂ (TableBack texts) outs rs := by
  obtain ⟨lines, rs, h1, h2, h3⟩ := C38_csv_round_trip_partial repr type texts ks n outs hne hn h
  refine ⟨lines, rs, h1, ?_, h2, h3⟩
  obtain ⟨vars, -, -, hv, hp, e⟩ := writeCsv_eq repr type texts ks n outs hne h
  rw [e] at h1
  injection h1 with h1
  rw [← h1]
  exact C37_csv_header_partial type vars _ fun k hk' => ⟨(hv k hk').1, hk k (hp.mem_iff.1 hk')⟩

example : ∀ k ∈ ["X".toList, "PRES".toList, "SG".toList], '=' ∉ k := by decide

/-- C37. An unknown first line is rejected. -/
theorem C37_rejected (lines : List Str) : outputType lines = .error .valueError ↔
    ¬ IsTough lines ∧ ¬ IsSave lines ∧ ¬ HasEqual lines ∧ ¬ IsPetrasim lines ∧
      ¬ FirstColumn lines "ELEM".toList ∧ ¬ FirstColumn lines "ELEM1".toList := by
  classical
  rw [C37_output_type]
  by_cases h1 : IsTough lines
  · simp [h1]
  by_cases h2 : IsSave lines
  · simp [h1, h2]
  by_cases h3 : HasEqual lines
  · simp [h1, h2, h3]
  by_cases h4 : IsPetrasim lines
  · simp [h1, h2, h3, h4]
  by_cases h5 : FirstColumn lines "ELEM".toList
  · simp only [h1, h2, h3, h4, h5]; simp
  by_cases h6 : FirstColumn lines "ELEM1".toList
  · simp only [h1, h2, h3, h4, h5, h6]; simp
  · simp only [h1, h2, h3, h4, h5, h6]; simp

/-- C37 is violated by the code for a variable whose name contains an equal sign:
a CSV file is taken for a Tecplot file. -/
theorem C37_violated : outputType [joinWith ',' (["ELEM".toList, "a=b".toList].map quoted)] =
    .ok (.element, .tecplot) := by decide

end Verif.Props
