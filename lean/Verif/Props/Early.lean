import Verif.Lemmas.Early
import Verif.Props.Csv
import Verif.Props.Petrasim
import Verif.Props.Tecplot
import Verif.Props.Listing

/-!
# Output files that end early (C87)
-/

namespace Verif.Props
open Verif.Py Verif.Model Verif.Spec

/-! ### CSV files -/

/-- The lines of a CSV file that ends after `j` rows of the output number `k`. -/
theorem csv_take {L : Type} (texts : L → List Str) (vars : List Str) (outs : List (Output L Flt)) {k : ℕ}
    {o : Output L Flt} (ho : outs[k]? = some o) {j : ℕ} (hj : j ≤ o.labels.length) :
    (outs.flatMap (stepLines texts vars)).take (linesBefore k outs + (j + 1)) =
      (known k j outs).flatMap (stepLines texts vars) := by
  have := take_flatMap_in (stepLines texts vars) outs ho (m := j + 1) (by rw [stepLines_length]; omega)
  simp only [stepLines_length] at this
  unfold linesBefore known
  rw [this, ho, Option.map_some, Option.toList_some, List.flatMap_append, List.flatMap_singleton,
    stepLines_shorten]

theorem mem_known {L : Type} {k j : ℕ} {outs : List (Output L Flt)} {o : Output L Flt}
    (h : o ∈ known k j outs) : o ∈ outs ∨ ∃ o' ∈ outs, o = shorten j o' := by
  rcases List.mem_append.1 h with h | h
  · exact .inl (List.mem_of_mem_take h)
  · obtain ⟨o', ho', rfl⟩ := Option.map_eq_some_iff.1 (Option.mem_toList.1 h)
    exact .inr ⟨o', List.mem_of_getElem? ho', rfl⟩

/-- C87. A CSV file that ends after the first `k` outputs is read as these. -/
theorem C87_csv_steps {L : Type} (repr : Flt → Str) (type : OutType) (texts : L → List Str)
    (ks : List Str) (n : ℕ) (outs : List (Output L Flt)) (hn : 0 < n)
    (h : SeriesOk (labelHeaders type).length texts ks n outs) (k : ℕ) (hk : 0 < k) (hko : k ≤ outs.length) :
    ∃ lines rs, writeCsv repr type texts outs = .ok lines ∧
      readCsv type (lines.take (linesBefore k outs + 2)) = .ok rs ∧
      List.Forall₂ (TableBack texts) (outs.take k) rs := by
  have hne : outs ≠ [] := by rintro rfl; simp at hko; omega
  obtain ⟨vars, -, -, -, hvp, hw⟩ := writeCsv_eq repr type texts ks n outs hne h
  obtain ⟨rs, h1, h2, -⟩ := readCsv_lines type texts ks vars hvp n (outs.take k) (by
    intro h0
    have := congrArg List.length h0
    rw [List.length_take, List.length_nil] at this
    omega) hn ⟨h.1, h.2.1, fun o ho => h.2.2 o (List.mem_of_mem_take ho)⟩
  refine ⟨_, rs, hw, ?_, h2⟩
  rw [show linesBefore k outs + 2 = linesBefore k outs + 1 + 1 from rfl, List.take_succ_cons,
    List.take_succ_cons]
  have := take_flatMap (stepLines texts vars) outs k 0
  simp only [stepLines_length, Nat.add_zero, List.take_zero, List.append_nil] at this
  unfold linesBefore
  rw [this]
  exact h1

example : 0 < 2 ∧ SeriesOk 1 (fun s => [s]) ["X".toList, "PRES".toList, "SG".toList] 2 csvSample ∧
    1 ≤ csvSample.length ∧ linesBefore 1 csvSample = 3 :=
  ⟨by decide, csvSampleOk, by simp [csvSample], by simp [csvSample, linesBefore]⟩

/-- C87. A CSV file that ends inside an output that is not the first one is refused.
Missing: the first output, see the violations below. -/
theorem C87_csv_inside_partial {L : Type} (repr : Flt → Str) (type : OutType) (texts : L → List Str)
    (ks : List Str) (n : ℕ) (outs : List (Output L Flt))
    (h : SeriesOk (labelHeaders type).length texts ks n outs) (k : ℕ) (hk : 0 < k) (hko : k < outs.length)
    (j : ℕ) (hj : j < n) :
    ∃ lines, writeCsv repr type texts outs = .ok lines ∧
      readCsv type (lines.take (linesBefore k outs + 1 + j + 2)) = .error .valueError := by
  have hne : outs ≠ [] := by rintro rfl; simp at hko
  obtain ⟨vars, -, -, hvok, hvp, hw⟩ := writeCsv_eq repr type texts ks n outs hne h
  obtain ⟨-, -, hsteps⟩ := h
  refine ⟨_, hw, ?_⟩
  have ho : outs[k]? = some outs[k] := List.getElem?_eq_getElem hko
  have hlen := (hsteps _ (List.getElem_mem hko)).2.2.2.1
  have hk1 : outs[0] ∈ known k j outs := by
    refine List.mem_append_left _ (List.mem_iff_getElem.2 ⟨0, ?_, ?_⟩)
    · rw [List.length_take]; omega
    · rw [List.getElem_take]
  have hk2 : shorten j outs[k] ∈ known k j outs := by
    unfold known
    rw [ho]
    simp
  rw [show linesBefore k outs + 1 + j + 2 = linesBefore k outs + (j + 1) + 1 + 1 by omega,
    List.take_succ_cons, List.take_succ_cons, csv_take texts vars outs ho (by omega)]
  unfold readCsv
  simp only
  rw [readCsvTable_steps type texts vars hvok (known k j outs) (List.ne_nil_of_mem hk2), ok_bind]
  · simp only
    rw [if_neg]
    rw [Bool.not_eq_true]
    refine not_sameShape (List.mem_map_of_mem hk1) (List.mem_map_of_mem hk2) (.inl ?_)
    have h0 := (hsteps _ (List.getElem_mem (show 0 < outs.length by omega))).2.2.2.1
    simp [stepRead, shorten, h0, hlen]
    omega
  · intro o ho
    rcases mem_known ho with ho | ⟨o', ho', rfl⟩
    · exact ⟨(hsteps o ho).1, (hsteps o ho).2.2.2.2⟩
    · exact ⟨(hsteps o' ho').1, fun l hl => (hsteps o' ho').2.2.2.2 l (List.mem_of_mem_take hl)⟩

example : SeriesOk 1 (fun s => [s]) ["X".toList, "PRES".toList, "SG".toList] 2 csvSample ∧
    1 < csvSample.length ∧ 1 < 2 := ⟨csvSampleOk, by simp [csvSample], by decide⟩

/-- C87 is violated by the code for a CSV file that ends inside its first output: the
rows that are there are read as if they were all. -/
theorem C87_csv_first_violated {L : Type} (repr : Flt → Str) (type : OutType) (texts : L → List Str)
    (ks : List Str) (n : ℕ) (o : Output L Flt) (outs : List (Output L Flt))
    (h : SeriesOk (labelHeaders type).length texts ks n (o :: outs)) (j : ℕ) (hj0 : 0 < j) (hj : j ≤ n) :
    ∃ lines r, writeCsv repr type texts (o :: outs) = .ok lines ∧
      readCsv type (lines.take (j + 3)) = .ok [r] ∧ TableBack texts (shorten j o) r := by
  obtain ⟨vars, -, -, -, hvp, hw⟩ := writeCsv_eq repr type texts ks n _ (by simp) h
  obtain ⟨h1, h2, h3, h4, h5⟩ := h.2.2 o (by simp)
  obtain ⟨rs, hr1, hr2, -⟩ := readCsv_lines type texts ks vars hvp j [shorten j o] (by simp) hj0 ⟨h.1, h.2.1, by
    intro o' ho'
    obtain rfl : o' = shorten j o := by simpa using ho'
    refine ⟨h1, by rwa [shorten_keys], shorten_full j h3, ?_, fun l hl => h5 l (List.mem_of_mem_take hl)⟩
    simp [shorten, h4, hj]⟩
  obtain ⟨r, rs', hr, hnil, rfl⟩ := List.forall₂_cons_left_iff.1 hr2
  obtain rfl := List.forall₂_nil_left_iff.1 hnil
  refine ⟨_, r, hw, ?_, hr⟩
  rw [show j + 3 = j + 1 + 1 + 1 from rfl, List.take_succ_cons, List.take_succ_cons]
  have := csv_take texts vars (o :: outs) (k := 0) (o := o) rfl (j := j) (by omega)
  simp only [linesBefore, List.take_zero, List.map_nil, List.sum_nil, Nat.zero_add] at this
  rw [this]
  exact hr1

example : ∃ o outs, SeriesOk 1 (fun s => [s]) ["X".toList, "PRES".toList, "SG".toList] 2 (o :: outs) :=
  ⟨_, _, csvSampleOk⟩

/-- C87 is violated by the code for a CSV file that ends after its first time: an output
without rows is read. -/
theorem C87_csv_time_violated {L : Type} (repr : Flt → Str) (type : OutType) (texts : L → List Str)
    (ks : List Str) (n : ℕ) (o : Output L Flt) (outs : List (Output L Flt))
    (h : SeriesOk (labelHeaders type).length texts ks n (o :: outs)) :
    ∃ lines, writeCsv repr type texts (o :: outs) = .ok lines ∧
      readCsv type (lines.take 3) = .ok [⟨o.time.map (quant 8), [], []⟩] := by
  obtain ⟨vars, -, -, hvok, hvp, hw⟩ := writeCsv_eq repr type texts ks n _ (by simp) h
  refine ⟨_, hw, ?_⟩
  rw [show 3 = 1 + 1 + 1 from rfl, List.take_succ_cons, List.take_succ_cons]
  have := csv_take texts vars (o :: outs) (k := 0) (o := o) rfl (j := 0) (by omega)
  simp only [linesBefore, List.take_zero, List.map_nil, List.sum_nil, Nat.zero_add] at this
  rw [this]
  unfold readCsv
  simp only
  rw [readCsvTable_steps type texts vars hvok (known 0 0 (o :: outs)) (by simp [known]), ok_bind]
  · have e : (known 0 0 (o :: outs)).map (stepRead texts vars) = [(o.time.map (quant 8), [])] := by
      simp [known, shorten, stepRead]
    simp only [e]
    rw [if_pos (by rfl)]
    simp [columnsOf, nColumns, updateDict]
  · intro o' ho'
    obtain rfl : o' = shorten 0 o := by simpa [known] using ho'
    exact ⟨(h.2.2 o (by simp)).1, by simp [shorten]⟩

example : ∃ o outs, SeriesOk 1 (fun s => [s]) ["X".toList, "PRES".toList, "SG".toList] 2 (o :: outs) :=
  ⟨_, _, csvSampleOk⟩

/-- C87 is violated by the code for a CSV file without any output, such as an empty one:
an output without time, rows and variables is read. -/
theorem C87_csv_header_violated (type : OutType) (lines : List Str) :
    readCsv type (lines.take 2) = .ok [⟨none, [], []⟩] := by
  have h1 : (lines.take 2).drop 2 = [] := List.drop_eq_nil_of_le (by simp)
  have h2 : (lines.take 2).drop 3 = [] := List.drop_eq_nil_of_le (by simp)
  unfold readCsv readCsvTable
  simp only [h1, h2, List.headD_nil]
  simp [startsWith, unquote, strip, lstrip, rstrip, csvLoop, sameShape, columnsOf, nColumns, updateDict,
    Bind.bind, Except.bind]

/-- C87 is violated by the code for a CSV file that ends inside a number: without its last
digit, `1e+10` is read as ten. -/
theorem C87_csv_number_violated :
    (writeCsv (fun _ => []) .element (fun s => [s])
      [⟨some (.fin false 0), ["A1100".toList], [("P".toList, [.fin false (10 ^ 10)])]⟩] >>= fun lines =>
      readCsv .element (lines.take 3 ++ (lines.drop 3).map fun l => l.take (l.length - 2)) >>= fun rs =>
      .ok (rs.map fun r => r.data)) =
    (.ok [[("P".toList, [.fin false 10])]] : Except PyErr (List (List (Str × List Flt)))) := by
  decide +kernel

/-! ### Petrasim files -/

/-- C87 is violated by the code for Petrasim files: wherever such a file ends, the rows
that are there are read as if they were all. -/
theorem C87_petrasim_violated (ks : List Str) (outs : List (Output Str Flt)) (h : PetraOk ks outs) (k : ℕ)
    (o : Output Str Flt) (ho : outs[k]? = some o) (j : ℕ) (hj : j ≤ o.labels.length) :
    ∃ lines rs qs, writePetrasim outs = .ok lines ∧
      readPetrasim (lines.take (rowsBefore k outs + j + 1)) none = .ok rs ∧
      qs.Pairwise (· < ·) ∧
      (∀ q, q ∈ qs ↔ ∃ o ∈ known k j outs, o.labels ≠ [] ∧ outTime o = some q) ∧
      List.Forall₂ (GroupBack ks (known k j outs)) qs rs := by
  have hne : outs ≠ [] := by rintro rfl; simp at ho
  obtain ⟨vars, -, hvp, hw⟩ := writePetrasim_eq ks outs hne h
  obtain ⟨rs, qs, h1, -, h2⟩ := readPetrasim_lines ks vars hvp (known k j outs) ⟨h.1, h.2.1, h.2.2.1, by
    intro x hx
    rcases mem_known hx with hx | ⟨o', ho', rfl⟩
    · exact h.2.2.2 x hx
    · obtain ⟨g1, g2, g3, g4⟩ := h.2.2.2 o' ho'
      exact ⟨g1, by rwa [shorten_keys], shorten_full j g3, fun l hl => g4 l (List.mem_of_mem_take hl)⟩⟩
  refine ⟨_, rs, qs, hw, ?_, h2⟩
  rw [List.take_succ_cons]
  have := take_flatMap_in (petraLines vars) outs ho (m := j) (by rwa [petraLines_length])
  simp only [petraLines_length] at this
  unfold rowsBefore
  rw [this, ← petraLines_shorten]
  unfold known at h1
  rw [ho, Option.map_some, Option.toList_some, List.flatMap_append, List.flatMap_singleton] at h1
  exact h1

example : PetraOk ["X".toList, "PRES".toList, "SG".toList] csvSample ∧ csvSample[1]? = some csvSample[1] ∧
    1 ≤ csvSample[1].labels.length ∧ rowsBefore 1 csvSample = 2 := by
  refine ⟨⟨by decide, by decide, by decide, ?_⟩, by simp [csvSample], by simp [csvSample],
    by simp [csvSample, rowsBefore]⟩
  unfold Full
  simp only [csvSample, List.mem_cons, List.not_mem_nil, or_false, forall_eq_or_imp, forall_eq,
    List.map_cons, List.map_nil, List.length_cons, List.length_nil]
  decide +kernel

/-! ### Tecplot files -/

/-- C87. A Tecplot file that ends after the first `k` outputs is read as these. -/
theorem C87_tecplot_steps (ks : List Str) (outs : List (Output Str Flt)) (h : TecOk ks outs) (k : ℕ)
    (hk : 0 < k) (hko : k ≤ outs.length) :
    ∃ lines rs, writeTecplot outs = .ok lines ∧
      readTecplot (lines.take (linesBefore k outs + 1)) none = .ok rs ∧
      List.Forall₂ (fun o r => r.time = o.time.map (quant 7) ∧
        r.data.Perm (o.data.map fun e => (e.1, e.2.map (quant 12)))) (outs.take k) rs := by
  have hne : outs ≠ [] := by rintro rfl; simp at hko; omega
  obtain ⟨vars, -, hvp, hw⟩ := writeTecplot_eq ks outs hne h
  obtain ⟨rs, h1, h2, -⟩ := readTecplot_lines ks vars hvp (outs.take k) (by
    intro h0
    have := congrArg List.length h0
    rw [List.length_take, List.length_nil] at this
    omega) ⟨h.1, h.2.1, h.2.2.1, h.2.2.2.1, fun o ho => h.2.2.2.2 o (List.mem_of_mem_take ho)⟩
  refine ⟨_, rs, hw, ?_, h2⟩
  rw [List.take_succ_cons]
  have := take_flatMap (tecLines vars) outs k 0
  simp only [tecLines_length, Nat.add_zero, List.take_zero, List.append_nil] at this
  unfold linesBefore
  rw [this]
  exact h1

example : TecOk ["X".toList, "Y".toList, "PRES".toList] tecSample ∧ 1 ≤ tecSample.length :=
  ⟨tecSample_ok, by simp [tecSample]⟩

/-- The lines of a Tecplot file that ends after `j` rows of an output. -/
theorem readTecplot_cut {ks vars : List Str} (hvp : vars.Perm ks) {outs : List (Output Str Flt)}
    (h : TecOk ks outs) {k : ℕ} {o : Output Str Flt} (ho : outs[k]? = some o) {j : ℕ}
    (hj : j ≤ o.labels.length) {r : Except PyErr (List TecOut)}
    (hr : ∀ z f, tecLoop vars (f + 1) z (strip (upper (((tecLines vars o).take (j + 1)).headD [])))
      ((tecLines vars o).take (j + 1)).tail = r) :
    readTecplot ((tecVarLine vars :: outs.flatMap (tecLines vars)).take (linesBefore k outs + 1 + j + 1)) none =
      (do let rs ← r; .ok ((outs.take k).map (tecRead vars) ++ rs)) := by
  have hv : ∀ k ∈ vars, TecName k := fun k hk => h.2.2.2.1 k (hvp.subset hk)
  have ht := take_flatMap_in (tecLines vars) outs ho (m := j + 1) (by rw [tecLines_length]; omega)
  simp only [tecLines_length] at ht
  rw [List.take_succ_cons, readTecplot_vars hv (hvp.symm.subset h.1) (hvp.symm.subset h.2.1),
    show linesBefore k outs + 1 + j = linesBefore k outs + (j + 1) by omega]
  unfold linesBefore
  rw [ht]
  have hcells := tecOk_cells hvp h
  obtain ⟨t, hto⟩ := Option.isSome_iff_exists.1 (hcells o (List.mem_of_getElem? ho)).1
  cases hp : outs.take k with
  | nil =>
    rw [List.flatMap_nil, List.nil_append, hr]
    cases r <;> rfl
  | cons o1 outs1 =>
    have e : (o1 :: outs1).flatMap (tecLines vars) ++ (tecLines vars o).take (j + 1) =
        (tecLines vars o1).headD [] :: ((tecLines vars o1).tail ++ (outs1.flatMap (tecLines vars) ++
          (tecLines vars o).take (j + 1))) := by
      rw [List.flatMap_cons, List.append_assoc]; rfl
    rw [e]
    simp only [List.headD_cons, List.tail_cons]
    rw [tecLoop_then (fun o' ho' => hcells o' (List.mem_of_mem_take (hp ▸ ho'))) ?_ hr]
    · rw [List.length_cons, List.length_append, List.length_append]
      have := length_le_flatMap vars outs1
      have h2 : 0 < ((tecLines vars o).take (j + 1)).length := by
        rw [List.length_take, tecLines_length]; omega
      omega
    · have e1 : ((tecLines vars o).take (j + 1)).headD [] = (tecLines vars o).headD [] := by
        unfold tecLines; rfl
      rw [e1, tecLines_head vars hto]
      exact zoneText_ne _ _

/-- C87. A Tecplot file that ends inside the rows of an output is refused.
Missing: a file that ends before the first row, see below. -/
theorem C87_tecplot_inside_partial (ks : List Str) (outs : List (Output Str Flt)) (h : TecOk ks outs) (k : ℕ)
    (o : Output Str Flt) (ho : outs[k]? = some o) (j : ℕ) (hj0 : 0 < j) (hj : j < o.labels.length) :
    ∃ lines, writeTecplot outs = .ok lines ∧
      readTecplot (lines.take (linesBefore k outs + 1 + j + 1)) none = .error .valueError := by
  have hne : outs ≠ [] := by rintro rfl; simp at ho
  obtain ⟨vars, -, hvp, hw⟩ := writeTecplot_eq ks outs hne h
  refine ⟨_, hw, ?_⟩
  obtain ⟨h1, h2⟩ := tecOk_cells hvp h o (List.mem_of_getElem? ho)
  obtain ⟨t, hto⟩ := Option.isSome_iff_exists.1 h1
  rw [readTecplot_cut hvp h ho hj.le (r := .error .valueError) fun z f =>
    tecLoop_cut (List.ne_nil_of_mem (hvp.symm.subset h.1)) hto h2 hj0 hj z f]
  rfl

example : TecOk ["X".toList, "Y".toList, "PRES".toList] tecSample ∧ tecSample[0]? = some tecSample[0] ∧
    1 < tecSample[0].labels.length :=
  ⟨tecSample_ok, by simp [tecSample], by simp [tecSample]⟩

/-- C87 is violated by the code for a Tecplot file that ends after the line before a table:
an output without any variable is read. -/
theorem C87_tecplot_zone_violated (ks : List Str) (outs : List (Output Str Flt)) (h : TecOk ks outs) (k : ℕ)
    (o : Output Str Flt) (ho : outs[k]? = some o) :
    ∃ lines rs, writeTecplot outs = .ok lines ∧
      readTecplot (lines.take (linesBefore k outs + 1 + 1)) none =
        .ok (rs ++ [⟨o.time.map (quant 7), []⟩]) ∧ rs.length = k := by
  have hne : outs ≠ [] := by rintro rfl; simp at ho
  obtain ⟨vars, -, hvp, hw⟩ := writeTecplot_eq ks outs hne h
  obtain ⟨h1, h2⟩ := tecOk_cells hvp h o (List.mem_of_getElem? ho)
  obtain ⟨t, hto⟩ := Option.isSome_iff_exists.1 h1
  refine ⟨_, (outs.take k).map (tecRead vars), hw, ?_, ?_⟩
  · have := readTecplot_cut hvp h ho (Nat.zero_le _) (r := .ok [⟨some (quant 7 t), []⟩]) fun z f =>
      tecLoop_bare hto z f
    rw [Nat.add_zero] at this
    rw [this, hto]
    rfl
  · have := (List.getElem?_eq_some_iff.1 ho).1
    rw [List.length_map, List.length_take]
    omega

example : TecOk ["X".toList, "Y".toList, "PRES".toList] tecSample ∧ tecSample[1]? = some tecSample[1] :=
  ⟨tecSample_ok, by simp [tecSample]⟩

/-- C87. A Tecplot file without any output is refused, though with an error about a variable
that is not set. -/
theorem C87_tecplot_header (ks : List Str) (outs : List (Output Str Flt)) (hne : outs ≠ []) (h : TecOk ks outs) :
    ∃ lines, writeTecplot outs = .ok lines ∧
      readTecplot (lines.take 1) none = .error .unboundLocalError := by
  obtain ⟨vars, -, hvp, hw⟩ := writeTecplot_eq ks outs hne h
  refine ⟨_, hw, ?_⟩
  rw [List.take_succ_cons, List.take_zero,
    readTecplot_vars (fun k hk => h.2.2.2.1 k (hvp.subset hk)) (hvp.symm.subset h.1) (hvp.symm.subset h.2.1)]
  rfl

example : TecOk ["X".toList, "Y".toList, "PRES".toList] tecSample ∧ tecSample ≠ [] :=
  ⟨tecSample_ok, by simp [tecSample]⟩

/-- C87. An empty Tecplot file is read for ever. -/
theorem C87_tecplot_empty_violated : readTecplot [] none = .error .diverges := rfl

/-! ### main output files -/

/-- C87. A main output file that ends after a table, wherever, is read with the tables that
are complete. -/
theorem C87_listing_steps (type : OutType) (L n : ℕ) (hL : 5 ≤ L ∧ L ≤ 9) (hn : 0 < n) (vars : List Str)
    (hv : vars.Nodup) (pre : List Str) (hpre : ∀ l ∈ pre, ¬ "TOTAL TIME".toList <+: strip l)
    (steps : List ListingStep) (s : ListingStep)
    (h : ∀ s' ∈ steps ++ [s], StepFits (tableKey type) L (labelHeaders type).length n vars s') (m : ℕ)
    (hm : s.upToTable ≤ m) :
    readListing type none (pre ++ (steps.flatMap (·.lines) ++ s.lines.take m)) =
      .ok ((steps ++ [s]).map (·.output)) := by
  obtain ⟨i, rfl⟩ : ∃ i, m = s.upToTable + i := ⟨m - s.upToTable, by omega⟩
  have e : s.lines.take (s.upToTable + i) = ListingStep.lines { s with after := s.after.take i } := by
    have hsplit : s.lines = (s.total :: (blanks s.timeGap ++ (s.timeText ++ s.timeRest)) ::
        (s.before ++ (blanks s.headGap ++ (s.head ++ (spacedText (s.heads ++ s.vars) ++ ['\n']))) ::
        (s.table.map tableLine ++ [s.last]))) ++ s.after := by
      simp [ListingStep.lines]
    have hl : s.upToTable = (s.total :: (blanks s.timeGap ++ (s.timeText ++ s.timeRest)) ::
        (s.before ++ (blanks s.headGap ++ (s.head ++ (spacedText (s.heads ++ s.vars) ++ ['\n']))) ::
        (s.table.map tableLine ++ [s.last]))).length := by
      simp [ListingStep.upToTable]; omega
    rw [hsplit, hl, List.take_length_add_append]
    simp [ListingStep.lines]
  have := C63_read_partial type L n hL hn vars hv pre hpre (steps ++ [{ s with after := s.after.take i }])
    (by simp) (by
      intro s' hs'
      rcases List.mem_append.1 hs' with hs' | hs'
      · exact h s' (List.mem_append_left _ hs')
      · obtain rfl : s' = { s with after := s.after.take i } := by simpa using hs'
        obtain ⟨h1, h2, h3, h4, h5, h6, h7, h8, h9, h10, h11, h12, h13, h14, h15⟩ := h s (by simp)
        exact ⟨h1, h2, h3, h4, h5, h6, h7, h8, h9, h10, h11, h12, h13, h14,
          fun l hl => h15 l (List.mem_of_mem_take hl)⟩)
  rw [List.flatMap_append, List.flatMap_singleton, ← e] at this
  rw [this, List.map_append, List.map_append]
  rfl

example : ∀ s' ∈ [exampleListing] ++ [exampleListing], StepFits (tableKey .element) 5
    (labelHeaders .element).length 2 ["P".toList, "T".toList] s' := by
  intro s hs
  have : s = exampleListing := by simpa using hs
  exact this ▸ exampleListing_fits

example : exampleListing.upToTable = 12 ∧ exampleListing.lines.length = 14 := by decide

/-- C87. A main output file that ends between the line `TOTAL TIME` and the end of the table
is refused: with `ValueError` between the time and the table, with `StopIteration`
elsewhere. -/
theorem C87_listing_inside (type : OutType) (L n : ℕ) (hL : 5 ≤ L ∧ L ≤ 9) (hn : 0 < n) (vars : List Str)
    (pre : List Str) (hpre : ∀ l ∈ pre, ¬ "TOTAL TIME".toList <+: strip l)
    (steps : List ListingStep) (s : ListingStep)
    (h : ∀ s' ∈ steps ++ [s], StepFits (tableKey type) L (labelHeaders type).length n vars s') (m : ℕ)
    (hm0 : 0 < m) (hm : m < s.upToTable) :
    readListing type none (pre ++ (steps.flatMap (·.lines) ++ s.lines.take m)) =
      .error (if 2 ≤ m ∧ m < s.before.length + 3 then .valueError else .stopIteration) := by
  obtain ⟨m, rfl⟩ : ∃ i, m = i + 1 := ⟨m - 1, by omega⟩
  unfold readListing
  rw [List.length_append, Nat.add_comm, listLoop_skip hpre,
    listLoop_cut hL.1 hL.2 (h s (by simp)) (m := m) (by omega) steps _ none none
      (fun s hs => ⟨n, vars, hn, h s (List.mem_append_left _ hs)⟩) (.inl rfl)]
  · by_cases hc : m = 0 ∨ s.before.length + 2 ≤ m
    · rw [if_pos hc, if_neg (by omega)]
      rfl
    · rw [if_neg hc, if_pos (by omega)]
      rfl
  · rw [List.length_append]
    have : 0 < (s.lines.take (m + 1)).length := by
      simp [ListingStep.lines]
    omega

example : ∀ s' ∈ [exampleListing] ++ [exampleListing], StepFits (tableKey .element) 5
    (labelHeaders .element).length 2 ["P".toList, "T".toList] s' := by
  intro s hs
  have : s = exampleListing := by simpa using hs
  exact this ▸ exampleListing_fits

end Verif.Props
