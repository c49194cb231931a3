import Verif.Lemmas.Save
import Verif.Lemmas.MeshWrite

/-!
# C69: SAVE files
-/

namespace Verif.Model
open Verif.Py Verif.Spec Verif.Mesh Verif.Props

/-- C69. The output for any file that has initial conditions with distinct labels, as many
variables and user fields in every cell and a porosity in every cell: exactly the cells
of the file in the order that is asked for, each with its variables, porosity and user
fields.

Missing: a numpy array as the order (`C69_array_violated`), cells without porosity
(`C69_porosity_violated`), user fields for some of the cells (`C69_userx_violated`). -/
theorem C69_output_partial {k : ℕ} {u : Option ℕ} {es : List (Val × Incon)} (h : SaveOk k es) (hu : UserxOk u es)
    {lines : List Str} {p : FileRead} (hp : readFile none lines = .ok p)
    (hi : p.initialConditions = some (es, es.map (·.1))) {given : LabelsOrder} {ls : List Val}
    (ho : OrderFor (es.map (·.1)) given ls) :
    ∃ es' : List (Val × Incon), (∀ e ∈ es', e ∈ es) ∧ es'.map (·.1) = ls ∧
      readSave given lines = .ok (saveResult k u es') := by
  obtain ⟨h1, h2⟩ := orderFor_known ho
  rw [List.length_map] at h1
  obtain ⟨es', g1, g2, g3⟩ := reorder_cells (cols := saveColumns k u) h1 h2 none
  refine ⟨es', g1, g2, ?_⟩
  rw [save_table h hu hp hi, orderOr_eq ho, ok_bind, saveResult_eq, g3, saveResult_eq]

/-- A cell with a porosity, two variables and the user fields `u`. -/
def saveCell (phi : Val) (u : List Val) : Incon := ⟨phi, some u, some [.flt (.fin false 100000), .flt (.fin false 20)]⟩

/-- Two cells. -/
def saveCells (phi : Val) (u : List Val) : List (Val × Incon) :=
  [(.str "AAA12".toList, saveCell (.flt (.fin false (1 / 4))) [.flt (.fin false 3)]), (.str "AAA13".toList, saveCell phi u)]

/-- The hypotheses hold for two cells with user fields and an order. -/
example : let es := (saveCells (.flt (.fin false (1 / 2))) [.flt (.fin false 3)]).map fun e => (e.1, inconBack e.2)
    (∃ lines p, readFile none lines = .ok p ∧ p.initialConditions = some (es, es.map (·.1))) ∧
    SaveOk 2 es ∧ UserxOk (some 1) es ∧
    OrderFor (es.map (·.1)) (.list [.str "AAA13".toList, .str "AAA12".toList]) [.str "AAA13".toList, .str "AAA12".toList] := by
  refine ⟨⟨_, _, readFile_incon (L := 5) (es := saveCells (.flt (.fin false (1 / 2))) [.flt (.fin false 3)])
    (by decide +kernel) (by decide +kernel) (by decide +kernel) (by decide +kernel) (by decide +kernel) (by decide)
    (stop := "+++".toList) (by decide) [] (rest := []) (by simp), ?_⟩,
    ⟨by decide +kernel, by decide +kernel, by decide +kernel, by decide +kernel⟩, ?_, ?_⟩
  · rw [List.map_map]; rfl
  · unfold UserxOk; decide +kernel
  · exact ⟨rfl, by decide, by decide⟩

/-- C69. A file as TOUGH writes it: a line that begins with `INCON`, the rows as written
for the block INCON, an empty line or one that begins with `+++`, and any lines that open
no block. -/
theorem C69_file_partial {L k : ℕ} {u : Option ℕ} {es : List (Val × Incon)} (hl : LabelsFit L (es.map (·.1)))
    (hk : ∀ e ∈ es, InconLabel e.1) (hf : ∀ e ∈ es, InconFits e.2) (hlong : LongEntriesFirst es)
    (hd : ∀ e ∈ es.head?, Detectable L e.1 [])
    (hs : SaveOk k (es.map fun e => (e.1, inconBack e.2))) (hu : UserxOk u (es.map fun e => (e.1, inconBack e.2))) :
    ∃ body, writeIncon none es = .ok (headLine "INCON" :: (body ++ [['\n']])) ∧
      ∀ (head stop : Str) (rest : List Str) (given : LabelsOrder) (ls : List Val),
        startsWith head "INCON".toList = true → (OnlyBlanks stop ∨ startsWith stop "+++".toList = true) →
        (∀ l ∈ rest, NoBlock l) → OrderFor (es.map (·.1)) given ls →
        ∃ es' : List (Val × Incon), (∀ e ∈ es', e ∈ es) ∧ es'.map (·.1) = ls ∧
          readSave given (head :: (body ++ stop :: rest)) =
            .ok (saveResult k u (es'.map fun e => (e.1, inconBack e.2))) := by
  refine ⟨es.flatMap (inconLines L), writeIncon_eq hl hf, ?_⟩
  intro head stop rest given ls hh hst hr ho
  have h0 : es ≠ [] := by
    rintro rfl
    exact hs.cells rfl
  obtain ⟨t, rfl⟩ : ∃ t, head = "INCON".toList ++ t := by
    obtain ⟨t, ht⟩ := List.isPrefixOf_iff_prefix.1 hh
    exact ⟨t, ht.symm⟩
  have hstop : stopsRows stop = true := by
    rw [stopsRows, Bool.or_eq_true]
    rcases hst with hst | hst
    · left
      unfold isBlank
      simpa [strip_eq_nil_iff, OnlyBlanks] using hst
    · exact Or.inr hst
  have hp := readFile_incon hl hk hf hlong hd h0 hstop t hr
  have hkeys : (es.map fun e => (e.1, inconBack e.2)).map (·.1) = es.map (·.1) := by
    rw [List.map_map]; rfl
  obtain ⟨h1, h2⟩ := orderFor_known ho
  rw [List.length_map] at h1
  obtain ⟨es', g1, g2, g3⟩ := reorder_cells
    (cols := (saveColumns k u).map fun c => (c.1, fun e : Val × Incon => c.2 (e.1, inconBack e.2))) h1 h2 none
  refine ⟨es', g1, g2, ?_⟩
  rw [save_table hs hu hp (by rw [hkeys]), hkeys, orderOr_eq ho, ok_bind, saveResult_eq, saveResult_eq, hkeys]
  have e1 : ∀ l : List (Val × Incon), ((saveColumns k u).map fun c => (c.1, fun e : Val × Incon => c.2 (e.1, inconBack e.2))).map
      (fun c => (c.1, l.map c.2)) = (saveColumns k u).map fun c => (c.1, (l.map fun e => (e.1, inconBack e.2)).map c.2) := by
    intro l
    rw [List.map_map]
    apply List.map_congr_left
    intro c _
    simp only [Function.comp_apply, List.map_map]
    rfl
  rw [e1, e1] at g3
  rw [g3, List.map_map]
  rfl

/-- The hypotheses hold for two cells, the end of a SAVE file and two more lines. -/
example : let es := saveCells (.flt (.fin false (1 / 2))) [.flt (.fin false 3)]
    LabelsFit 5 (es.map (·.1)) ∧ (∀ e ∈ es, InconLabel e.1) ∧ (∀ e ∈ es, InconFits e.2) ∧ LongEntriesFirst es ∧
    (∀ e ∈ es.head?, Detectable 5 e.1 []) ∧ SaveOk 2 (es.map fun e => (e.1, inconBack e.2)) ∧
    UserxOk (some 1) (es.map fun e => (e.1, inconBack e.2)) ∧
    (∀ l ∈ ["    1   10    2".toList, []], NoBlock l) ∧
    startsWith "INCON -- INITIAL CONDITIONS FOR     2 ELEMENTS".toList "INCON".toList = true := by
  refine ⟨by decide +kernel, by decide +kernel, by decide +kernel, by decide +kernel, by decide +kernel,
    ⟨by decide +kernel, by decide +kernel, by decide +kernel, by decide +kernel⟩, ?_, by decide +kernel, by decide⟩
  unfold UserxOk; decide +kernel

/-- C69, violated. A numpy array with the labels, which is accepted as an argument, is
refused, whatever the file. -/
theorem C69_array_violated {k : ℕ} {u : Option ℕ} {es : List (Val × Incon)} (h : SaveOk k es) (hu : UserxOk u es)
    {lines : List Str} {p : FileRead} (hp : readFile none lines = .ok p)
    (hi : p.initialConditions = some (es, es.map (·.1))) {ls : List Val} (hl : 2 ≤ ls.length) :
    readSave (.array ls) lines = .error .valueError := by
  rw [save_table h hu hp hi]
  match ls, hl with
  | a :: b :: r, _ => rfl

/-- C69, violated. A file in which the porosity of one cell is missing is refused. -/
theorem C69_porosity_violated {k : ℕ} {es : List (Val × Incon)}
    (hv : ∀ e ∈ es, e.2.values.map List.length = some k) (hm : ∃ e ∈ es, e.2.porosity = .none)
    {lines : List Str} {p : FileRead} (hp : readFile none lines = .ok p)
    (hi : p.initialConditions = some (es, es.map (·.1))) (given : LabelsOrder) :
    readSave given lines = .error .keyError := by
  obtain ⟨h1, h2⟩ := save_values hv
  simp only [List.all_eq_true, decide_eq_true_eq] at h2
  unfold readSave
  rw [hp, ok_bind, hi, present, ok_bind]
  simp only
  rw [h1, ok_bind, if_pos (rectangular_of_length h2), mapM_error_of_mem (x := .keyError)]
  · rfl
  · intro e _
    unfold porosityOf
    split
    · exact Or.inr rfl
    · exact Or.inl ⟨_, rfl⟩
  · obtain ⟨e, he, hn⟩ := hm
    refine ⟨e, he, ?_⟩
    unfold porosityOf
    rw [hn]

/-- There is a file with two cells of which one has no porosity. -/
example : let es := (saveCells .none [.flt (.fin false 3)]).map fun e => (e.1, inconBack e.2)
    (∃ lines p, readFile none lines = .ok p ∧ p.initialConditions = some (es, es.map (·.1))) ∧
    (∀ e ∈ es, e.2.values.map List.length = some 2) ∧ ∃ e ∈ es, e.2.porosity = .none := by
  refine ⟨⟨_, _, readFile_incon (L := 5) (es := saveCells .none [.flt (.fin false 3)])
    (by decide +kernel) (by decide +kernel) (by decide +kernel) (by decide +kernel) (by decide +kernel) (by decide)
    (stop := "+++".toList) (by decide) [] (rest := []) (by simp), ?_⟩, by decide +kernel, by decide +kernel⟩
  rw [List.map_map]; rfl

/-- C69, violated. A file in which some cells have user fields and others do not is
refused. -/
theorem C69_userx_violated {k n : ℕ} {es : List (Val × Incon)} (h : SaveOk k es)
    (hn : ∀ e ∈ es, ∀ l ∈ e.2.userx, l.length = n) (hy : ∃ e ∈ es, e.2.userx ≠ none) (hm : ∃ e ∈ es, e.2.userx = none)
    {lines : List Str} {p : FileRead} (hp : readFile none lines = .ok p)
    (hi : p.initialConditions = some (es, es.map (·.1))) :
    readSave .absent lines = .error .indexError := by
  have h1 := (save_values h.values).2
  simp only [List.all_eq_true, decide_eq_true_eq] at h1
  unfold readSave
  rw [hp, ok_bind, hi, present, ok_bind]
  simp only
  rw [(save_values h.values).1, ok_bind, if_pos (rectangular_of_length h1), save_porosity h, ok_bind]
  have hr : rectangular (es.filterMap (·.2.userx)) = true := by
    apply rectangular_of_length (k := n)
    intro r hr
    obtain ⟨e, he, hu⟩ := List.mem_filterMap.1 hr
    exact hn e he r hu
  have hne : (es.filterMap (·.2.userx)).isEmpty = false := by
    obtain ⟨e, he, hu⟩ := hy
    obtain ⟨l, hl⟩ := Option.ne_none_iff_exists'.1 hu
    rw [List.isEmpty_eq_false_iff]
    exact List.ne_nil_of_mem (List.mem_filterMap.2 ⟨e, he, hl⟩)
  rw [if_pos hr, hne, saveVariables_eq h, dictSet_new, if_neg (by decide), dictSet_new, orderOr, ok_bind]
  · refine reorder_short (o := ⟨none, es.map (·.1), _⟩) h.labels (by simpa using h.cells) ?_ ?_
    · intro e he
      simp only [List.mem_append, List.mem_map, List.mem_singleton] at he
      rcases he with (⟨i, -, rfl⟩ | rfl) | rfl
      · simp
      · simp
      · simpa using List.length_filterMap_le (fun e : Val × Incon => e.2.userx) es
    · refine ⟨("userx".toList, (es.filterMap (·.2.userx)).map .many), by simp, ?_⟩
      simpa using filterMap_shorter hm
  · intro e he
    rcases List.mem_append.1 he with he | he
    · obtain ⟨i, -, rfl⟩ := List.mem_map.1 he
      exact (natStr_X_ne i).2
    · rw [List.mem_singleton.1 he]
      show "porosity".toList ≠ "userx".toList
      decide
  · intro e he
    obtain ⟨i, -, rfl⟩ := List.mem_map.1 he
    exact (natStr_X_ne i).1

/-- There is a file with two cells of which one has no user fields. -/
example : let es := (saveCells (.flt (.fin false (1 / 2))) []).map fun e => (e.1, inconBack e.2)
    (∃ lines p, readFile none lines = .ok p ∧ p.initialConditions = some (es, es.map (·.1))) ∧
    SaveOk 2 es ∧ (∀ e ∈ es, ∀ l ∈ e.2.userx, l.length = 1) ∧ (∃ e ∈ es, e.2.userx ≠ none) ∧ ∃ e ∈ es, e.2.userx = none := by
  refine ⟨⟨_, _, readFile_incon (L := 5) (es := saveCells (.flt (.fin false (1 / 2))) [])
    (by decide +kernel) (by decide +kernel) (by decide +kernel) (by decide +kernel) (by decide +kernel) (by decide)
    (stop := "+++".toList) (by decide) [] (rest := []) (by simp), ?_⟩,
    ⟨by decide +kernel, by decide +kernel, by decide +kernel, by decide +kernel⟩, by decide +kernel, by decide +kernel,
    by decide +kernel⟩
  rw [List.map_map]; rfl

end Verif.Model
