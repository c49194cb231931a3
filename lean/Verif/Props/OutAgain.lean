import Verif.Lemmas.OutAgain

/-!
# Output files that are loaded and saved (C97)
-/

namespace Verif.Props
open Verif.Py Verif.Model Verif.Spec

theorem timesKept_self {L : Type} {outs : List (Output L Flt)} {p : ℕ} (hp : p ≤ 13)
    (h : TimesInRange outs) : TimesKept p p outs :=
  fun o ho t ht => fmtE_quant p hp t (h o ho t ht)

/-- C97. A CSV file that is loaded and saved is the same file.
Missing: numbers out of the range of the floats, which have no literal in Python, and
what C38 leaves out. -/
theorem C97_csv_partial {L : Type} (repr : Flt → Str) (type : OutType) (texts : L → List Str)
    (ks : List Str) (n : ℕ) (outs : List (Output L Flt)) (hne : outs ≠ []) (hn : 0 < n)
    (h : SeriesOk (labelHeaders type).length texts ks n outs) (hx : ValuesInRange outs)
    (ht : TimesInRange outs) :
    ∃ lines rs, writeCsv repr type texts outs = .ok lines ∧ readCsv type lines = .ok rs ∧
      writeCsv repr type id rs = .ok lines := by
  obtain ⟨vars, hv, -, -, hvp, hw⟩ := writeCsv_eq repr type texts ks n outs hne h
  obtain ⟨rs, h1, h2, h3⟩ := readCsv_lines type texts ks vars hvp n outs hne hn h
  refine ⟨_, rs, hw, h1, ?_⟩
  rw [writeCsv_alike repr type texts id ks n outs hne h rs
    (forall₂_with h2 fun o ho r hb => ?_) (fun r hr => by rw [h3 r hr, hv]), hw]
  obtain ⟨t, e⟩ := Option.isSome_iff_exists.1 (h.2.2 o ho).1
  refine ⟨⟨t, quant 8 t, e, by rw [hb.1, e]; rfl, timesKept_self (by decide) ht o ho t e⟩, ?_,
    hb.2.2, hx o ho⟩
  rw [hb.2.1, List.map_id]

/-- What is read of a CSV file of elements is like the outputs. -/
theorem csv_elements_alike (repr : Flt → Str) (ks : List Str) (n : ℕ) (p : ℕ)
    (outs : List (Output Str Flt)) (hne : outs ≠ []) (hn : 0 < n)
    (h : SeriesOk 1 (fun s => [s]) ks n outs) (hx : ValuesInRange outs) (ht : TimesKept 8 p outs) :
    ∃ lines rs, writeCsv repr .element (fun s => [s]) outs = .ok lines ∧
      readCsvElements lines none = .ok rs ∧
      List.Forall₂ (Alike p (fun s => [s]) (fun s => [s])) outs rs ∧
      ∀ r ∈ rs, r.data.map (·.1) = varOrder ((outs.getLast hne).data.map (·.1)) := by
  obtain ⟨lines, rs, h1, h2, h3⟩ := C38_element_files_partial repr ks n outs hne hn h
  refine ⟨lines, rs, h1, h2, forall₂_with h3 fun o ho r hb => ?_, ?_⟩
  · obtain ⟨t, e⟩ := Option.isSome_iff_exists.1 (h.2.2 o ho).1
    exact ⟨⟨t, quant 8 t, e, by rw [hb.1, e]; rfl, ht o ho t e⟩, by rw [hb.2.1], hb.2.2, hx o ho⟩
  · obtain ⟨vars, hv, -, -, hvp, hw⟩ := writeCsv_eq repr .element (fun s => [s]) ks n outs hne h
    obtain ⟨rs', g1, -, g3⟩ := readCsv_lines .element (fun s => [s]) ks vars hvp n outs hne hn h
    rw [h1] at hw
    cases hw
    unfold readCsvElements at h2
    rw [g1, ok_bind] at h2
    obtain ⟨rs'', k1, k2⟩ := bind_eq_ok.1 h2
    cases k2
    intro r hr
    obtain ⟨r', hr', e⟩ := forall_right (mapM_eq_ok k1) hr
    unfold elementLabels at e
    obtain ⟨ls, -, e⟩ := bind_eq_ok.1 e
    cases e
    exact (g3 r' hr').trans hv

/-- What is read of a Petrasim file is like the outputs. -/
theorem petrasim_alike (ks : List Str) (p : ℕ) (outs : List (Output Str Flt)) (hne : outs ≠ [])
    (h : PetraOk ks outs) (hl : ∀ o ∈ outs, o.labels ≠ [])
    (ha : (outs.map fun o => (outTime o).getD 0).Pairwise (· < ·))
    (hx : ValuesInRange outs) (ht : TimesKept 12 p outs) :
    ∃ lines rs, writePetrasim outs = .ok lines ∧ readPetrasim lines none = .ok rs ∧
      List.Forall₂ (Alike p (fun s => [s]) (fun s => [s])) outs rs ∧
      ∀ r ∈ rs, r.data.map (·.1) = varOrder ((outs.getLast hne).data.map (·.1)) := by
  obtain ⟨lines, rs, h1, h2, h3⟩ := C56_round_trip_partial ks outs hne h hl ha
  refine ⟨lines, rs, h1, h2, forall₂_with h3 fun o ho r hb => ?_, ?_⟩
  · have h1 := (h.2.2.2 o ho).1
    cases e : o.time with
    | none => rw [outTime, e] at h1; cases h1
    | some t =>
      exact ⟨⟨t, quant 12 t, e, by rw [hb.1, e]; rfl, ht o ho t e⟩, by rw [hb.2.1], hb.2.2, hx o ho⟩
  · obtain ⟨vars, hv, hvp, hw⟩ := writePetrasim_eq ks outs hne h
    obtain ⟨rs', qs, g1, g2, -⟩ := readPetrasim_lines ks vars hvp outs h
    rw [h1] at hw
    cases hw
    rw [h2] at g1
    cases g1
    exact fun r hr => (g2 r hr).trans hv

/-- C97. The same for CSV files of elements. -/
theorem C97_csv_elements_partial (repr : Flt → Str) (ks : List Str) (n : ℕ)
    (outs : List (Output Str Flt)) (hne : outs ≠ []) (hn : 0 < n)
    (h : SeriesOk 1 (fun s => [s]) ks n outs) (hx : ValuesInRange outs) (ht : TimesInRange outs) :
    ∃ lines rs, writeCsv repr .element (fun s => [s]) outs = .ok lines ∧
      readCsvElements lines none = .ok rs ∧
      writeCsv repr .element (fun s => [s]) rs = .ok lines := by
  obtain ⟨lines, rs, h1, h2, h3, h4⟩ := csv_elements_alike repr ks n 8 outs hne hn h hx
    (timesKept_self (by decide) ht)
  exact ⟨lines, rs, h1, h2, by
    rw [writeCsv_alike repr .element _ (fun s => [s]) ks n outs hne h rs h3 h4, h1]⟩

/-- C97. A Petrasim file with increasing times that is loaded and saved is the same
file. Missing: other orders of the times, see the violation below. -/
theorem C97_petrasim_partial (ks : List Str) (outs : List (Output Str Flt)) (hne : outs ≠ [])
    (h : PetraOk ks outs) (hl : ∀ o ∈ outs, o.labels ≠ [])
    (ha : (outs.map fun o => (outTime o).getD 0).Pairwise (· < ·))
    (hx : ValuesInRange outs) (ht : TimesInRange outs) :
    ∃ lines rs, writePetrasim outs = .ok lines ∧ readPetrasim lines none = .ok rs ∧
      writePetrasim rs = .ok lines := by
  obtain ⟨lines, rs, h1, h2, h3, h4⟩ := petrasim_alike ks 12 outs hne h hl ha hx
    (timesKept_self (by decide) ht)
  exact ⟨lines, rs, h1, h2, by rw [writePetrasim_alike ks outs hne h rs h3 h4, h1]⟩

/-- C97. A Tecplot file that is loaded and saved is the same file, whatever labels
are given to the outputs. -/
theorem C97_tecplot_partial (ks : List Str) (outs : List (Output Str Flt)) (hne : outs ≠ [])
    (h : TecOk ks outs) (hx : ValuesInRange outs) (ht : TimesInRange outs)
    (labels : TecOut → List Str) :
    ∃ lines rs, writeTecplot outs = .ok lines ∧ readTecplot lines none = .ok rs ∧
      writeTecplot (rs.map fun r => ⟨r.time, labels r, r.data⟩) = .ok lines := by
  obtain ⟨vars, hv, hvp, hw⟩ := writeTecplot_eq ks outs hne h
  obtain ⟨rs, h1, h2, h3⟩ := readTecplot_lines ks vars hvp outs hne h
  refine ⟨_, rs, hw, h1, ?_⟩
  have hlen := h2.length_eq
  have key : writeTecplot (List.zipWith (fun o r => ⟨r.time, o.labels, r.data⟩) outs rs) =
      writeTecplot outs := by
    refine writeTecplot_alike (fun s => [s]) (fun s => [s]) ks outs hne h _ ?_ ?_
    · have : ∀ os, (∀ o ∈ os, o ∈ outs) → ∀ rs : List TecOut, List.Forall₂ (fun (o : Output Str Flt) (r : TecOut) =>
          r.time = o.time.map (quant 7) ∧
          r.data.Perm (o.data.map fun e => (e.1, e.2.map (quant 12)))) os rs →
          List.Forall₂ (Alike 7 (fun s : Str => [s]) (fun s : Str => [s])) os
            (List.zipWith (fun o r => ⟨r.time, o.labels, r.data⟩) os rs) := by
        intro os ho rs hr
        induction hr with
        | nil => exact .nil
        | @cons o r os rs hb _ ih =>
          refine .cons ?_ (ih fun o h => ho o (List.mem_cons_of_mem _ h))
          have hm := ho o (by simp)
          obtain ⟨t, e⟩ := Option.isSome_iff_exists.1 (h.2.2.2.2 o hm).1
          exact ⟨⟨t, quant 7 t, e, by show r.time = _; rw [hb.1, e]; rfl, timesKept_self (by decide) ht o hm t e⟩,
            rfl, hb.2, hx o hm⟩
      exact this outs (fun _ h => h) rs h2
    · intro r hr
      rw [← hv]
      obtain ⟨i, hi, rfl⟩ := List.getElem_of_mem hr
      rw [List.getElem_zipWith]
      exact h3 _ (List.getElem_mem _)
  rw [← hw, ← key, ← writeTecplot_labels (List.zipWith (fun o r => ⟨r.time, o.labels, r.data⟩) outs rs)
    (fun r => labels ⟨r.time, r.data⟩)]
  congr 1
  refine List.ext_getElem (by simp [hlen]) fun i g1 g2 => ?_
  simp

/-- C97. Converting a CSV file to Petrasim gives the file that is written of the
outputs themselves, if the times have no more digits than the CSV file keeps. -/
theorem C97_csv_to_petrasim_partial (repr : Flt → Str) (ks : List Str) (n : ℕ)
    (outs : List (Output Str Flt)) (hne : outs ≠ []) (hn : 0 < n)
    (h : SeriesOk 1 (fun s => [s]) ks n outs) (hp : PetraOk ks outs) (hx : ValuesInRange outs)
    (ht : TimesKept 8 12 outs) :
    ∃ lines rs, writeCsv repr .element (fun s => [s]) outs = .ok lines ∧
      readCsvElements lines none = .ok rs ∧ writePetrasim rs = writePetrasim outs := by
  obtain ⟨lines, rs, h1, h2, h3, h4⟩ := csv_elements_alike repr ks n 12 outs hne hn h hx ht
  exact ⟨lines, rs, h1, h2, writePetrasim_alike ks outs hne hp rs h3 h4⟩

/-- C97. Converting a CSV file to Tecplot gives the file that is written of the
outputs themselves, unless a time is rounded twice. -/
theorem C97_csv_to_tecplot_partial (repr : Flt → Str) (ks : List Str) (n : ℕ)
    (outs : List (Output Str Flt)) (hne : outs ≠ []) (hn : 0 < n)
    (h : SeriesOk 1 (fun s => [s]) ks n outs) (hp : TecOk ks outs) (hx : ValuesInRange outs)
    (ht : TimesKept 8 7 outs) :
    ∃ lines rs, writeCsv repr .element (fun s => [s]) outs = .ok lines ∧
      readCsvElements lines none = .ok rs ∧ writeTecplot rs = writeTecplot outs := by
  obtain ⟨lines, rs, h1, h2, h3, h4⟩ := csv_elements_alike repr ks n 7 outs hne hn h hx ht
  exact ⟨lines, rs, h1, h2, writeTecplot_alike _ _ ks outs hne hp rs h3 h4⟩

/-- C97. Converting a Petrasim file to CSV gives the file that is written of the
outputs themselves, unless a time is rounded twice. -/
theorem C97_petrasim_to_csv_partial (repr : Flt → Str) (ks : List Str) (n : ℕ)
    (outs : List (Output Str Flt)) (hne : outs ≠ []) (h : SeriesOk 1 (fun s => [s]) ks n outs)
    (hp : PetraOk ks outs) (hl : ∀ o ∈ outs, o.labels ≠ [])
    (ha : (outs.map fun o => (outTime o).getD 0).Pairwise (· < ·)) (hx : ValuesInRange outs)
    (ht : TimesKept 12 8 outs) :
    ∃ lines rs, writePetrasim outs = .ok lines ∧ readPetrasim lines none = .ok rs ∧
      writeCsv repr .element (fun s => [s]) rs = writeCsv repr .element (fun s => [s]) outs := by
  obtain ⟨lines, rs, h1, h2, h3, h4⟩ := petrasim_alike ks 8 outs hne hp hl ha hx ht
  exact ⟨lines, rs, h1, h2, writeCsv_alike repr .element _ _ ks n outs hne h rs h3 h4⟩

/-- C97. Converting a Petrasim file to Tecplot gives the file that is written of the
outputs themselves, unless a time is rounded twice. -/
theorem C97_petrasim_to_tecplot_partial (ks : List Str) (outs : List (Output Str Flt))
    (hne : outs ≠ []) (h : TecOk ks outs) (hp : PetraOk ks outs)
    (ha : (outs.map fun o => (outTime o).getD 0).Pairwise (· < ·)) (hx : ValuesInRange outs)
    (ht : TimesKept 12 7 outs) :
    ∃ lines rs, writePetrasim outs = .ok lines ∧ readPetrasim lines none = .ok rs ∧
      writeTecplot rs = writeTecplot outs := by
  obtain ⟨lines, rs, h1, h2, h3, h4⟩ := petrasim_alike ks 7 outs hne hp
    (fun o ho => (h.2.2.2.2 o ho).2.2.2.1) ha hx ht
  exact ⟨lines, rs, h1, h2, writeTecplot_alike _ _ ks outs hne h rs h3 h4⟩

/-- Outputs at two times with the coordinates of two cells. -/
def againSample : List (Output Str Flt) :=
  [⟨some (.fin false 0), ["A1100".toList, "A1101".toList],
    [("PRES".toList, [.fin false 100000, .nan]), ("X".toList, [.fin true (1 / 2), .fin false 1]),
     ("Y".toList, [.fin false 2, .inf true])]⟩,
   ⟨some (.fin false 86400), ["A1100".toList, "A1101".toList],
    [("PRES".toList, [.fin false (1 / 3), .fin false 7]), ("Y".toList, [.fin false 2, .fin false 4]),
     ("X".toList, [.fin true (1 / 2), .fin false 1])]⟩]

example : againSample ≠ [] ∧
    SeriesOk 1 (fun s => [s]) ["X".toList, "Y".toList, "PRES".toList] 2 againSample ∧
    PetraOk ["X".toList, "Y".toList, "PRES".toList] againSample ∧
    TecOk ["X".toList, "Y".toList, "PRES".toList] againSample ∧
    (∀ o ∈ againSample, o.labels ≠ []) ∧
    (againSample.map fun o => (outTime o).getD 0).Pairwise (· < ·) ∧ ValuesInRange againSample := by
  unfold SeriesOk PetraOk TecOk Full ValuesInRange
  refine ⟨by simp [againSample], ?_, ?_, ?_, by simp [againSample], by decide +kernel, ?_⟩ <;>
  · simp only [againSample, List.mem_cons, List.not_mem_nil, or_false, forall_eq_or_imp, forall_eq,
      List.map_cons, List.map_nil, List.length_cons, List.length_nil]
    decide +kernel

example : TimesInRange againSample ∧ TimesKept 8 12 againSample ∧ TimesKept 8 7 againSample ∧
    TimesKept 12 8 againSample ∧ TimesKept 12 7 againSample := by
  unfold TimesInRange TimesKept
  simp only [againSample, List.mem_cons, List.not_mem_nil, or_false, forall_eq_or_imp, forall_eq,
    Option.mem_some_iff, forall_eq']
  decide +kernel

/-- One cell at a time. -/
def atTime (t : ℚ≥0) : Output Str Flt :=
  ⟨some (.fin false t), ["A1100".toList], [("P".toList, [.fin false 1])]⟩

/-- C97 is violated by the code for Petrasim files with decreasing times: the order
changes. -/
theorem C97_order_violated :
    (writePetrasim [atTime 2, atTime 1] >>= fun lines => readPetrasim lines none >>= writePetrasim) =
      writePetrasim [atTime 1, atTime 2] ∧
    writePetrasim [atTime 1, atTime 2] ≠ writePetrasim [atTime 2, atTime 1] := by
  constructor <;> decide +kernel

/-- C97 is violated by the code for a time of ten digits: by way of a CSV file it
loses the last one. -/
theorem C97_digits_violated :
    (writeCsv (fun _ => []) .element (fun s => [s]) [atTime 1234567891] >>= fun lines =>
      readCsvElements lines none >>= writePetrasim) = writePetrasim [atTime 1234567890] ∧
    writePetrasim [atTime 1234567890] ≠ writePetrasim [atTime 1234567891] := by
  constructor <;> decide +kernel

/-- The centre of a cell at a time. -/
def pointAt (t : ℚ≥0) : Output Str Flt :=
  ⟨some (.fin false t), ["A1100".toList], [("X".toList, [.fin false 1]), ("Y".toList, [.fin false 2])]⟩

/-- C97 is violated by the code for a time that is rounded twice: by way of a CSV
file the last digit of the Tecplot file changes. -/
theorem C97_twice_violated :
    (writeCsv (fun _ => []) .element (fun s => [s]) [pointAt (1234567746 / 1000)] >>= fun lines =>
      readCsvElements lines none >>= writeTecplot) = writeTecplot [pointAt 1234567.8] ∧
    writeTecplot [pointAt (1234567746 / 1000)] = writeTecplot [pointAt 1234567.7] ∧
    writeTecplot [pointAt 1234567.8] ≠ writeTecplot [pointAt 1234567.7] := by
  refine ⟨?_, ?_, ?_⟩ <;> decide +kernel

end Verif.Props
