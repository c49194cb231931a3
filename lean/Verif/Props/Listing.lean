import Verif.Lemmas.Listing
import Verif.Lemmas.Csv

/-!
# Main output files of TOUGH (C63)
-/

namespace Verif.Props
open Verif.Py Verif.Model Verif.Spec

theorem columnsOf_listing {L m n : ℕ} {key : Str} {vars : List Str} {s : ListingStep}
    (h : StepFits key L m n vars s) (hn : 0 < n) (hv : vars.Nodup) :
    columnsOf vars ((s.rows.map rowRead).map dropIndex) = s.output.data := by
  obtain ⟨-, -, -, -, -, -, -, -, -, hvars, hr, hlen, -⟩ := h
  have hl : s.vars.length = vars.length := by rw [← hvars, List.length_map]
  have hc : nColumns ((s.rows.map rowRead).map dropIndex) = vars.length := by
    cases hs : s.rows with
    | nil => rw [hs] at hlen; simp at hlen; omega
    | cons r rs =>
      have := (hr r (by rw [hs]; simp)).2.2.2.2.2.2
      simp [nColumns, dropIndex, rowRead, this]
  unfold columnsOf ListingStep.output
  simp only
  have e : vars.zip ((List.range (nColumns ((s.rows.map rowRead).map dropIndex))).map
      (column ((s.rows.map rowRead).map dropIndex))) = s.vars.zipIdx.map fun v =>
      (v.1.text, s.rows.filterMap fun r => (r.cells[v.2]?).map fun c => cellNumber c.text) := by
    refine List.ext_getElem (by rw [hc]; simp [hl]) fun j h1 h2 => ?_
    have hj : j < s.vars.length := by simpa using h2
    simp only [List.getElem_zip, List.getElem_map, List.getElem_range, List.getElem_zipIdx, Nat.zero_add]
    refine Prod.ext ?_ ?_
    · simp [← hvars]
    · simp [column, List.filterMap_map, Function.comp_def, dropIndex, rowRead]
  rw [e, updateDict_nil_of_nodup]
  rw [List.map_map]
  have : ((fun x : Str × List Flt => x.1) ∘ fun v : Spaced × ℕ =>
      (v.1.text, s.rows.filterMap fun r => (r.cells[v.2]?).map fun c => cellNumber c.text)) =
      (fun c : Spaced => c.text) ∘ Prod.fst := rfl
  rw [this, ← List.map_map, List.zipIdx_map_fst, hvars]
  exact hv

/-- C63. The tables of a file are read: for every time the labels of the rows and the
numbers in the columns, whatever there is between the tables. Missing: columns that
touch, labels starting with `ELEM`, a given label length (see the violations below);
tables of different shapes are refused (`C63_shapes`). -/
theorem C63_read_partial (type : OutType) (L n : ℕ) (hL : 5 ≤ L ∧ L ≤ 9) (hn : 0 < n) (vars : List Str)
    (hv : vars.Nodup) (pre : List Str) (hpre : ∀ l ∈ pre, ¬ "TOTAL TIME".toList <+: strip l)
    (steps : List ListingStep) (hne : steps ≠ [])
    (h : ∀ s ∈ steps, StepFits (tableKey type) L (labelHeaders type).length n vars s) :
    readListing type none (pre ++ steps.flatMap (·.lines)) = .ok (steps.map (·.output)) := by
  obtain ⟨res, hres, he⟩ := listLoop_steps hL.1 hL.2 steps (steps.flatMap (·.lines)).length none none
    (fun s hs => ⟨n, vars, hn, h s hs⟩) (.inl rfl) le_rfl
  unfold readListing
  rw [List.length_append, Nat.add_comm, listLoop_skip hpre, he, ok_bind]
  have hlast := List.getLast?_eq_getLast_of_ne_nil hne
  have hf := h _ (List.getLast_mem hne)
  simp only [hlast, Option.map_some, Option.some_or]
  have hh : (stepHeaders (steps.getLast hne)).drop ((labelHeaders type).length + 1) = vars := by
    obtain ⟨-, -, -, -, -, -, -, h8, -, h10, -⟩ := hf
    unfold stepHeaders
    rw [List.drop_succ_cons, List.map_append, List.drop_left' (by simpa using h8), h10]
  have hshape : sameShape (res.map fun e => (some e.1, e.2.map dropIndex)) = true := by
    refine sameShape_of n vars.length ?_ hn
    intro e he
    obtain ⟨r, hr, rfl⟩ := List.mem_map.1 he
    obtain ⟨s, hs, -, h2⟩ : ∃ s ∈ steps, pyFloat s.timeText = some r.1 ∧ r.2 = s.rows.map rowRead := by
      clear he h hne hlast hf hh
      clear * - hres hr
      induction hres with
      | nil => simp at hr
      | cons h _ ih =>
        rcases List.mem_cons.1 hr with rfl | hr
        · exact ⟨_, List.mem_cons_self .., h⟩
        · obtain ⟨s, hs, h⟩ := ih hr
          exact ⟨s, List.mem_cons_of_mem _ hs, h⟩
    obtain ⟨-, -, -, -, -, -, -, -, -, -, hr, hlen, -⟩ := h s hs
    simp only [h2]
    refine ⟨by simp [hlen], ?_⟩
    intro row hrow
    obtain ⟨row', hrow', rfl⟩ := List.mem_map.1 hrow
    obtain ⟨x, hx, rfl⟩ := List.mem_map.1 hrow'
    simp [dropIndex, rowRead, (hr x hx).2.2.2.2.2.2]
  rw [if_pos hshape, hh]
  congr 1
  rw [List.map_map]
  clear hshape hh hf hlast he hne
  induction hres with
  | nil => rfl
  | cons h1 _ ih =>
    rename_i s e ss es _
    rw [List.map_cons, List.map_cons, ih fun s hs => h s (List.mem_cons_of_mem _ hs)]
    congr 1
    simp only [Function.comp]
    rw [h1.2, columnsOf_listing (h s (by simp)) hn hv]
    unfold ListingStep.output
    rw [h1.1]
    simp [dropIndex, rowRead, Function.comp_def]

/-- The output of the elements at one time. -/
def elementOutput (s : ListingStep) : Output Str Flt :=
  ⟨s.output.time, s.rows.filterMap fun r => r.labels.head?, s.output.data⟩

/-- C63. The tables of elements of a file are read and, if labels are given, their rows
are put in that order (see C36). Missing: as above. -/
theorem C63_elements_partial (L n : ℕ) (hL : 5 ≤ L ∧ L ≤ 9) (hn : 0 < n) (vars : List Str)
    (hv : vars.Nodup) (pre : List Str) (hpre : ∀ l ∈ pre, ¬ "TOTAL TIME".toList <+: strip l)
    (steps : List ListingStep) (hne : steps ≠ [])
    (h : ∀ s ∈ steps, StepFits "ELEM.".toList L 1 n vars s) (order : Option (List Str)) :
    readListingElements none (pre ++ steps.flatMap (·.lines)) order =
      match order with
      | none => .ok (steps.map elementOutput)
      | some ls => steps.mapM fun s => reorderLabels (elementOutput s) ls := by
  have hr := C63_read_partial .element L n hL hn vars hv pre hpre steps hne h
  have he : (steps.map (·.output)).mapM elementLabels = .ok (steps.map elementOutput) := by
    clear hr hne
    induction steps with
    | nil => rfl
    | cons s steps ih =>
      have h1 : elementLabels s.output = .ok (elementOutput s) := by
        unfold elementLabels elementOutput
        have : s.output.labels.mapM firstLabel = .ok (s.rows.filterMap fun r => r.labels.head?) := by
          obtain ⟨-, -, -, -, -, -, -, -, -, -, hr, -⟩ := h s (by simp)
          unfold ListingStep.output
          simp only
          generalize s.rows = rows at hr
          induction rows with
          | nil => rfl
          | cons r rows ih =>
            obtain ⟨l, hl⟩ := List.length_eq_one_iff.1 (hr r (by simp)).2.1
            rw [List.map_cons, List.mapM_cons, ih fun r h => hr r (by simp [h]), hl]
            simp [firstLabel, hl]
        rw [this]
        rfl
      rw [List.map_cons, List.mapM_cons, h1, ih fun s hs => h s (by simp [hs])]
      rfl
  unfold readListingElements
  rw [hr, ok_bind, he, ok_bind]
  unfold reorderAll
  cases order with
  | none => rfl
  | some ls => exact List.mapM_map ..

/-! ### an example -/

/-- A table of two elements after 1.5 seconds. -/
def exampleListing : ListingStep where
  total := "     TOTAL TIME     KCYC\n".toList
  timeGap := 2
  timeText := "0.15000E+01".toList
  timeRest := "    1\n".toList
  before := ["\n".toList, " some text\n".toList]
  headGap := 1
  head := "ELEM.".toList
  heads := [⟨1, "INDEX".toList⟩]
  vars := [⟨3, "P".toList⟩, ⟨4, "T".toList⟩]
  table := [.inr "\n".toList, .inr "                 (PA)   (DEG-C)\n".toList,
    .inl ⟨1, ["AAA 0".toList], "  ".toList, ⟨3, "1".toList⟩, [⟨1, "0.1E+06".toList⟩, ⟨1, "0.25E+02".toList⟩], 0⟩,
    .inr "\n".toList,
    .inl ⟨1, ["AAA 1".toList], "  ".toList, ⟨3, "2".toList⟩, [⟨1, "-0.2+106".toList⟩, ⟨1, "****".toList⟩], 2⟩,
    .inr "\n".toList]
  last := " @@@@@@@@@@@@\n".toList
  after := ["\n".toList, " more\n".toList]

theorem between_of {t : List (ListingRow ⊕ Str)} (h : ∀ l ∈ t.filterMap Sum.getRight?, BetweenRows l) :
    ∀ l, .inr l ∈ t → BetweenRows l :=
  fun l hl => h l (List.mem_filterMap.2 ⟨_, hl, rfl⟩)

theorem exampleListing_fits : StepFits (tableKey .element) 5 (labelHeaders .element).length 2
    ["P".toList, "T".toList] exampleListing := by
  have e : ∀ l, .inr l ∈ exampleListing.table → BetweenRows l := between_of (by decide +kernel)
  have e2 : ∀ r ∈ exampleListing.rows, RowFits 5 (labelHeaders .element).length 2 r := by
    decide +kernel
  refine ⟨by decide, by decide, by decide, by decide +kernel, by decide, by decide, by decide, by decide, by decide,
    by decide, e2, by decide, e, by decide, by decide⟩

example : readListing .element none ("title\n".toList :: exampleListing.lines ++ exampleListing.lines) =
    .ok [exampleListing.output, exampleListing.output] := by
  have := C63_read_partial .element 5 2 (by decide) (by decide) ["P".toList, "T".toList] (by decide)
    ["title\n".toList] (by decide) [exampleListing, exampleListing] (by simp)
    (fun s hs => by
      have : s = exampleListing := by simpa using hs
      exact this ▸ exampleListing_fits)
  simpa using this

example : exampleListing.output.labels = [["AAA 0".toList], ["AAA 1".toList]] := by decide

/-- A table of one connection. -/
def exampleConnection : ListingStep where
  total := " TOTAL TIME\n".toList
  timeGap := 1
  timeText := "0.1E+01".toList
  timeRest := "\n".toList
  before := [" ELEM. INDEX   P\n".toList]
  headGap := 1
  head := "ELEM1".toList
  heads := [⟨1, "ELEM2".toList⟩, ⟨1, "INDEX".toList⟩]
  vars := [⟨3, "FLOW".toList⟩]
  table := [.inl ⟨1, ["AAA 0".toList, "AAA 1".toList], "  ".toList, ⟨3, "1".toList⟩, [⟨0, "-0.1E-05".toList⟩], 0⟩]
  last := " @@@@@@@@@@@@\n".toList
  after := []

example : readListing .connection none exampleConnection.lines = .ok [exampleConnection.output] := by
  have h : StepFits (tableKey .connection) 5 (labelHeaders .connection).length 1 ["FLOW".toList]
      exampleConnection := by
    have e2 : ∀ r ∈ exampleConnection.rows, RowFits 5 (labelHeaders .connection).length 1 r := by
      decide +kernel
    exact ⟨by decide, by decide, by decide, by decide +kernel, by decide, by decide, by decide, by decide,
      by decide, by decide, e2, by decide, between_of (by decide), by decide, by decide⟩
  have := C63_read_partial .connection 5 1 (by decide) (by decide) ["FLOW".toList] (by decide) [] (by simp)
    [exampleConnection] (by simp) (by simpa using h)
  simpa using this

/-! ### errors -/

/-- C63. A file without any line starting with `TOTAL TIME` is rejected, though with an error
about a variable that is not set. -/
theorem C63_no_time (type : OutType) (given : Option ℕ) (lines : List Str)
    (h : ∀ l ∈ lines, ¬ "TOTAL TIME".toList <+: strip l) :
    readListing type given lines = .error .unboundLocalError := by
  unfold readListing
  have := listLoop_skip (type := type) (given := given) (len := none) (headers := none) h [] (k := 0)
  rw [List.append_nil, Nat.zero_add] at this
  rw [this]
  rfl

example : readListing .element none ["some text\n".toList] = .error .unboundLocalError :=
  C63_no_time _ _ _ (by decide)

/-- C63. A file with a time but no table of that type after it is rejected. -/
theorem C63_no_table (type : OutType) (given : Option ℕ) (pre : List Str)
    (hpre : ∀ l ∈ pre, ¬ "TOTAL TIME".toList <+: strip l) (total : Str)
    (ht : "TOTAL TIME".toList <+: strip total) (gap : ℕ) (time rest : Str) (hw : Word time)
    (hf : (pyFloat time).isSome = true) (hr : ∀ c ∈ rest.head?, isSpace c = true) (lines : List Str)
    (h : ∀ l ∈ lines, ¬ tableKey type <+: strip l) :
    readListing type given (pre ++ total :: (blanks gap ++ (time ++ rest)) :: lines) =
      .error .valueError := by
  obtain ⟨t, htime⟩ := Option.isSome_iff_exists.1 hf
  have e1 : words (strip (blanks gap ++ (time ++ rest))) = time :: words rest := by
    rw [words_strip, words_spaces_append (blanks_space _), words_token hw.1 hw.2 hr]
  have e2 : findTable (tableKey type) lines = .error .valueError := by
    clear * - h
    induction lines with
    | nil => rfl
    | cons l ls ih =>
      rw [findTable, if_neg, ih fun l hl => h l (by simp [hl])]
      rw [startsWith, List.isPrefixOf_iff_prefix]
      exact h l (by simp)
  unfold readListing
  rw [List.length_append, Nat.add_comm, listLoop_skip hpre, List.length_cons, listLoop_eq ht]
  unfold listStep listTime
  simp only [e1, rowAt, List.getElem?_cons_zero, toFloat, htime, ok_bind, e2]
  rfl

example : readListing .connection none (" TOTAL TIME\n".toList :: (blanks 1 ++ ("1.0".toList ++ "\n".toList)) ::
    exampleListing.before) = .error .valueError :=
  C63_no_table .connection none [] (by simp) _ (by decide) 1 "1.0".toList "\n".toList (by decide) (by decide +kernel)
    (by decide) _ (by decide)

/-- C63. Files in which a table has another number of rows or of variables than another one are
refused. -/
theorem C63_shapes (type : OutType) (L : ℕ) (hL : 5 ≤ L ∧ L ≤ 9) (pre : List Str)
    (hpre : ∀ l ∈ pre, ¬ "TOTAL TIME".toList <+: strip l) (steps : List ListingStep)
    (h : ∀ s ∈ steps, ∃ n vars, 0 < n ∧ StepFits (tableKey type) L (labelHeaders type).length n vars s)
    (a b : ListingStep) (ha : a ∈ steps) (hb : b ∈ steps)
    (hab : a.rows.length ≠ b.rows.length ∨ a.vars.length ≠ b.vars.length) :
    readListing type none (pre ++ steps.flatMap (·.lines)) = .error .valueError := by
  obtain ⟨res, hres, he⟩ := listLoop_steps hL.1 hL.2 steps (steps.flatMap (·.lines)).length none none h
    (.inl rfl) le_rfl
  unfold readListing
  rw [List.length_append, Nat.add_comm, listLoop_skip hpre, he, ok_bind]
  have hne : steps ≠ [] := by rintro rfl; cases ha
  simp only [List.getLast?_eq_getLast_of_ne_nil hne, Option.map_some, Option.some_or]
  have fits : ∀ s ∈ steps, s.rows ≠ [] ∧ ∀ r ∈ s.rows, r.cells.length = s.vars.length := by
    intro s hs
    obtain ⟨n, vars, hn, -, -, -, -, -, -, -, -, -, hv, hr, hlen, -⟩ := h s hs
    refine ⟨fun h0 => ?_, fun r hr' => ?_⟩
    · rw [h0] at hlen
      simp at hlen
      omega
    · rw [(hr r hr').2.2.2.2.2.2, ← hv, List.length_map]
  have hmem : ∀ s ∈ steps, ∃ t, (some t, (s.rows.map rowRead).map dropIndex) ∈
      res.map fun e => ((some e.1 : Option Flt), e.2.map dropIndex) := by
    intro s hs
    obtain ⟨i, hi, rfl⟩ := List.mem_iff_getElem.1 hs
    have hl := hres.length_eq
    obtain ⟨-, h2⟩ := (List.forall₂_iff_get.1 hres).2 i hi (by omega)
    have he : res[i]'(by omega) ∈ res := List.getElem_mem _
    generalize hg : res[i]'(by omega) = e at he
    rw [List.get_eq_getElem, List.get_eq_getElem] at h2
    simp only [hg] at h2
    exact ⟨e.1, List.mem_map.2 ⟨e, he, by rw [h2]⟩⟩
  obtain ⟨t1, m1⟩ := hmem a ha
  obtain ⟨t2, m2⟩ := hmem b hb
  have hsh : sameShape (res.map fun e => ((some e.1 : Option Flt), e.2.map dropIndex)) = false := by
    refine not_sameShape m1 m2 ?_
    rcases hab with hab | hab
    · left
      simpa using hab
    · right
      obtain ⟨x, xs, hx⟩ := List.exists_cons_of_ne_nil (fits a ha).1
      obtain ⟨y, ys, hy⟩ := List.exists_cons_of_ne_nil (fits b hb).1
      refine ⟨dropIndex (rowRead x), by rw [hx]; simp, dropIndex (rowRead y), by rw [hy]; simp, ?_⟩
      have e1 := (fits a ha).2 x (by rw [hx]; simp)
      have e2 := (fits b hb).2 y (by rw [hy]; simp)
      simpa [dropIndex, rowRead, e1, e2] using hab
  rw [hsh]
  rfl

/-- The example with only one row. -/
def shortListing : ListingStep := { exampleListing with table := exampleListing.table.take 4 }

example : (∀ s ∈ [exampleListing, shortListing], ∃ n vars, 0 < n ∧
      StepFits (tableKey .element) 5 (labelHeaders .element).length n vars s) ∧
    exampleListing.rows.length ≠ shortListing.rows.length := by
  refine ⟨?_, by decide⟩
  intro s hs
  rcases List.mem_cons.1 hs with rfl | hs
  · exact ⟨2, _, by decide, exampleListing_fits⟩
  · rw [List.mem_singleton.1 hs]
    have e : ∀ l, .inr l ∈ shortListing.table → BetweenRows l := between_of (by decide +kernel)
    have e2 : ∀ r ∈ shortListing.rows, RowFits 5 (labelHeaders .element).length 2 r := by
      decide +kernel
    exact ⟨1, ["P".toList, "T".toList], by decide, by decide, by decide, by decide, by decide +kernel, by decide,
      by decide, by decide, by decide, by decide, by decide, e2, by decide, e, by decide, by decide⟩

/-- C63 is violated with a given number of characters of labels, for every file: the position of
the end of the labels is only set when the number is not given. -/
theorem C63_label_length_violated (type : OutType) (g L n : ℕ) (hL : 5 ≤ L) (hn : 0 < n) (vars : List Str)
    (pre : List Str) (hpre : ∀ l ∈ pre, ¬ "TOTAL TIME".toList <+: strip l) (s : ListingStep)
    (h : StepFits (tableKey type) L (labelHeaders type).length n vars s) (rest : List Str) :
    readListing type (some (g + 1)) (pre ++ (s.lines ++ rest)) = .error .unboundLocalError := by
  unfold readListing
  have e : (pre ++ (s.lines ++ rest)).length = ((s.lines ++ rest).length - 1 + 1) + pre.length := by
    simp [ListingStep.lines]
    omega
  rw [e, listLoop_skip hpre, listLoop_given hL hn h rest]
  rfl

example : readListing .element (some 5) ([] ++ (exampleListing.lines ++ [])) = .error .unboundLocalError :=
  C63_label_length_violated .element 4 5 2 le_rfl (by decide) _ [] (by simp) exampleListing exampleListing_fits []

/-- The example with a label that starts with `ELEM`. -/
def elemListing : ListingStep := { exampleListing with
  table := [
    .inl ⟨1, ["ELEM1".toList], "  ".toList, ⟨3, "1".toList⟩, [⟨1, "0.1E+06".toList⟩, ⟨1, "0.25E+02".toList⟩], 0⟩,
    .inl ⟨1, ["AAA 1".toList], "  ".toList, ⟨3, "2".toList⟩, [⟨1, "0.2E+06".toList⟩, ⟨1, "0.5E+02".toList⟩], 2⟩] }

/-- C63 is violated for a label that starts with `ELEM`: its row is skipped. -/
theorem C63_elem_violated :
    (readListing .element none elemListing.lines).map (fun outs => outs.map (·.labels)) =
      .ok [[["AAA 1".toList]]] := by decide +kernel

/-- The example with columns of twelve characters that touch: every row holds the
pressures `-0.10000E+06` and `-0.20000E+06`. -/
def gluedListing : List Str :=
  [" TOTAL TIME\n".toList, " 1.0\n".toList, " ELEM. INDEX   P1          P2\n".toList,
    " AAA 0     1-0.10000E+06-0.20000E+06\n".toList, " @@@@@\n".toList]

/-- C63 is violated for columns that touch: no number of the row is read. The reader for
columns of fixed width is never used, because no text makes the other one fail. -/
theorem C63_glued_violated :
    (readListing .element none gluedListing).map (fun outs => outs.map (·.data)) = .ok [[]] := by
  decide +kernel

end Verif.Props
