import Verif.Lemmas.Extract

/-!
# C71: the command toughio-extract
-/

namespace Verif.Model
open Verif.Py Verif.Mesh Verif.Spec Verif.Props

/-- The first line of the examples. -/
def extractHead : List Str := ["1      @@@@@@@@@@\n".toList]

/-- The MESH file of the examples: two cells. -/
def extractMesh : List Str :=
  ["ELEME\n".toList,
    "AAA 0          ROCK1 1.0000E+0                     1.000E+00 2.000E+00-3.000E+00\n".toList,
    "AAA 1          ROCK1 1.0000E+0                     1.500E+00 2.000E+00-3.000E+00\n".toList,
    "\n".toList]

/-- The centres of the two cells. -/
def extractCenters : List (P3 Flt) :=
  [⟨.fin false 1, .fin false 2, .fin true 3⟩, ⟨.fin false (3 / 2), .fin false 2, .fin true 3⟩]

theorem extractMesh_read : ∃ p elems, readFile none extractMesh = .ok p ∧ p.elements = some elems ∧
    List.Forall₂ (CenterIs elems.1) ["AAA 0".toList, "AAA 1".toList] extractCenters := by
  have key : (match readFile none extractMesh with
    | .ok p => match p.elements with
      | some t => decide ((["AAA 0".toList, "AAA 1".toList].map fun l => (dictGet t.1 (.str l)).map (·.center)) =
        extractCenters.map fun c => .ok (.list [.flt c.x, .flt c.y, .flt c.z]))
      | none => false
    | .error _ => false) = true := by decide +kernel
  split at key
  next p hp =>
    split at key
    next t ht =>
      have hk := of_decide_eq_true key
      refine ⟨p, t, hp, ht, ?_⟩
      have one : ∀ {l : Str} {c : P3 Flt},
          (dictGet t.1 (.str l)).map (·.center) = .ok (.list [.flt c.x, .flt c.y, .flt c.z]) → CenterIs t.1 l c := by
        intro l c h
        cases hd : dictGet t.1 (.str l) with
        | error e => rw [hd] at h; cases h
        | ok e =>
          rw [hd] at h
          exact ⟨e, hd, by simpa [Except.map] using h⟩
      simp only [extractCenters, List.map_cons, List.map_nil, List.cons.injEq, and_true] at hk
      exact .cons (one hk.1) (.cons (one hk.2) .nil)
    · cases key
  · cases key

theorem extractListing_fits : ListingFile "ELEM.".toList 1 ["P".toList, "T".toList]
    (["AAA 0".toList, "AAA 1".toList].map fun l => [l]) extractHead [exampleListing, exampleListing] where
  names := by decide
  before := by decide
  some := by simp
  rows := by simp
  fits := ⟨5, by decide, fun s hs => by
    have : s = exampleListing := by simpa using hs
    exact this ▸ exampleListing_fits⟩
  labels := by
    intro s hs
    have : s = exampleListing := by simpa using hs
    subst this
    decide

/-- C71, `--split`. With a single time the name of the file and its format are those without
`--split`. -/
theorem C71_split_single (repr : Flt → Str) (mean : List Flt → Flt) (name : Option Str) (fmt : ExtractFormat)
    {vars : List Str} {ls : List Str} {pre : List Str} {s : ListingStep}
    (h : ListingFile "ELEM.".toList 1 vars (ls.map fun l => [l]) pre [s])
    (ht : outputType (listingLines pre [s]) = .ok (.element, .tough)) {mesh : List Str} {p : FileRead}
    {elems : Table Elem} (hm : readFile none mesh = .ok p) (he : p.elements = some elems) {cs : List (P3 Flt)}
    (hcs : List.Forall₂ (CenterIs elems.1) ls cs) :
    extract repr mean ⟨name, fmt, none, true, false⟩ (some (listingLines pre [s])) (some mesh) =
      extract repr mean ⟨name, fmt, none, false, false⟩ (some (listingLines pre [s])) (some mesh) := by
  rw [extract_elements repr mean rfl rfl h ht hm he hcs, extract_elements repr mean rfl rfl h ht hm he hcs]
  unfold writeOutputs
  rw [if_pos (by simp), if_pos (by simp)]
  rfl

/-- C71 is violated with a given number of characters of labels: no main output file can be read. -/
theorem C71_label_length_violated (repr : Flt → Str) (mean : List Flt → Flt) (a : ExtractArgs) (g : ℕ)
    (ha : a.labelLength = some (g + 1)) (hc : a.connection = true → a.format = .csv) {L n : ℕ} (hL : 5 ≤ L)
    (hn : 0 < n) {vars pre : List Str} (hpre : ∀ l ∈ pre, ¬ "TOTAL TIME".toList <+: strip l) {s : ListingStep}
    {steps : List ListingStep} (hs : StepFits (tableKey (if a.connection then .connection else .element)) L
      (labelHeaders (if a.connection then .connection else .element)).length n vars s)
    {t : OutType} (ht : outputType (listingLines pre (s :: steps)) = .ok (t, .tough)) {mesh : List Str} {p : FileRead}
    {elems : Table Elem} (hm : readFile (some (g + 1)) mesh = .ok p) (he : p.elements = some elems) :
    extract repr mean a (some (listingLines pre (s :: steps))) (some mesh) = .error .unboundLocalError := by
  have key := C63_label_length_violated _ g L n hL hn vars pre hpre s hs (steps.flatMap (·.lines))
  unfold extract
  rw [if_neg (by rintro ⟨h1, h2⟩; exact h2 (hc h1))]
  simp only [ha]
  rw [hm, ok_bind, he]
  simp only
  rw [ht, ok_bind]
  simp only
  cases hcc : a.connection with
  | true =>
    rw [hcc] at key
    rw [if_pos rfl]
    unfold extractConnections
    rw [ha, listingLines, List.flatMap_cons]
    simp only [if_true] at key
    rw [key]
    rfl
  | false =>
    rw [hcc] at key
    rw [if_neg (by simp)]
    unfold extractElements readListingElements
    rw [ha, listingLines, List.flatMap_cons]
    simp only [Bool.false_eq_true, if_false] at key
    rw [key]
    rfl

/-- The hypotheses hold for the file and the mesh above. -/
example : StepFits (tableKey .element) 5 (labelHeaders .element).length 2 ["P".toList, "T".toList] exampleListing ∧
    outputType (listingLines extractHead [exampleListing]) = .ok (.element, .tough) ∧
    ((readFile (some 5) extractMesh).toOption.bind fun p => p.elements.map fun e => e.1.length) = some 2 :=
  ⟨exampleListing_fits, by decide +kernel, by decide +kernel⟩

/-- C71, CSV. The file has the variables of the main output file at every time, and the
coordinates of the cells from the MESH file.

Missing: tables whose labels are not the same at every time (`C71_order_violated`), cells
without coordinates (`C71_null_violated`). -/
theorem C71_csv_partial (repr : Flt → Str) (mean : List Flt → Flt) (name : Option Str)
    {vars : List Str} {ls : List Str} {pre : List Str} {steps : List ListingStep}
    (h : ListingFile "ELEM.".toList 1 vars (ls.map fun l => [l]) pre steps)
    (ht : outputType (listingLines pre steps) = .ok (.element, .tough)) {mesh : List Str} {p : FileRead}
    {elems : Table Elem} (hm : readFile none mesh = .ok p) (he : p.elements = some elems) {cs : List (P3 Flt)}
    (hcs : List.Forall₂ (CenterIs elems.1) ls cs) (hv : ∀ k ∈ vars, VarOk k) (hlab : ∀ l ∈ ls, LabelOk 1 [l]) :
    ∃ lines rs, extract repr mean ⟨name, .csv, none, false, false⟩ (some (listingLines pre steps)) (some mesh) =
        .ok [(name.getD "OUTPUT_ELEME.csv".toList, lines)] ∧
      readCsvElements lines none = .ok rs ∧
      List.Forall₂ (fun s r => r.time = (pyFloat s.timeText).map (quant 8) ∧ r.labels = ls ∧
        r.data.Perm (rounded (located cs s.output.data))) steps rs := by
  rw [extract_elements repr mean rfl rfl h ht hm he hcs]
  obtain ⟨L, hL, hf⟩ := h.fits
  rw [List.length_map] at hf
  have hser := series_withAxes h.names hf hcs.length_eq hv hlab
  have hn : 0 < ls.length := by
    have := List.length_pos_iff.2 h.rows
    rwa [List.length_map] at this
  obtain ⟨lines, rs, h1, h2, h3⟩ := C38_element_files_partial repr _ _ _ (by simpa using h.some) hn hser
  refine ⟨lines, rs, ?_, h2, ?_⟩
  · unfold writeOutputs
    rw [if_pos (by simp)]
    simp only [writeElements]
    rw [h1]
    rfl
  · rw [List.forall₂_map_left_iff] at h3
    refine forall₂_mem h3 ?_
    rintro s r hs ⟨g1, g2, g3⟩
    exact ⟨g1, g2, g3.trans ((withAxes_perm h.names (hf s hs)).map _)⟩

/-- The hypotheses hold for two times, two cells and two variables. -/
example : ListingFile "ELEM.".toList 1 ["P".toList, "T".toList]
      (["AAA 0".toList, "AAA 1".toList].map fun l => [l]) extractHead [exampleListing, exampleListing] ∧
    outputType (listingLines extractHead [exampleListing, exampleListing]) = .ok (.element, .tough) ∧
    (∃ p elems, readFile none extractMesh = .ok p ∧ p.elements = some elems ∧
      List.Forall₂ (CenterIs elems.1) ["AAA 0".toList, "AAA 1".toList] extractCenters) ∧
    (∀ k ∈ ["P".toList, "T".toList], VarOk k) ∧ ∀ l ∈ ["AAA 0".toList, "AAA 1".toList], LabelOk 1 [l] :=
  ⟨extractListing_fits, by decide +kernel, extractMesh_read, by decide, by decide⟩

/-- C71, `--split`. With several times there is one CSV file for each of them, with
different names made from the name of the file and the number of the time, and each of
them has the variables at that time and the coordinates.

Missing: as above; and the format that is asked for (`C71_split_violated`). -/
theorem C71_split_partial (repr : Flt → Str) (mean : List Flt → Flt) (name : Option Str) (fmt : ExtractFormat)
    {vars : List Str} {ls : List Str} {pre : List Str} {steps : List ListingStep}
    (h : ListingFile "ELEM.".toList 1 vars (ls.map fun l => [l]) pre steps) (h1 : steps.length ≠ 1)
    (ht : outputType (listingLines pre steps) = .ok (.element, .tough)) {mesh : List Str} {p : FileRead}
    {elems : Table Elem} (hm : readFile none mesh = .ok p) (he : p.elements = some elems) {cs : List (P3 Flt)}
    (hcs : List.Forall₂ (CenterIs elems.1) ls cs) (hv : ∀ k ∈ vars, VarOk k) (hlab : ∀ l ∈ ls, LabelOk 1 [l]) :
    ∃ files, extract repr mean ⟨name, fmt, none, true, false⟩ (some (listingLines pre steps)) (some mesh) = .ok files ∧
      (files.map (·.1)).Nodup ∧
      files.map (·.1) = (List.range steps.length).map (fun i : ℕ =>
        (splitext (name.getD ("OUTPUT_ELEME".toList ++ formatExt fmt))).1 ++ ('_' :: natStr (i + 1)) ++
          (splitext (name.getD ("OUTPUT_ELEME".toList ++ formatExt fmt))).2) ∧
      List.Forall₂ (fun s file => ∃ r, readCsvElements file.2 none = .ok [r] ∧
        r.time = (pyFloat s.timeText).map (quant 8) ∧ r.labels = ls ∧
        r.data.Perm (rounded (located cs s.output.data))) steps files := by
  rw [extract_elements repr mean rfl rfl h ht hm he hcs]
  obtain ⟨L, hL, hf⟩ := h.fits
  rw [List.length_map] at hf
  have hn : 0 < ls.length := by
    have := List.length_pos_iff.2 h.rows
    rwa [List.length_map] at this
  set nm := name.getD ("OUTPUT_ELEME".toList ++ formatExt fmt)
  have one : ∀ s ∈ steps, ∃ lines r, writeCsv repr .element (fun s => [s]) [withAxes cs ls s] = .ok lines ∧
      readCsvElements lines none = .ok [r] ∧ r.time = (pyFloat s.timeText).map (quant 8) ∧ r.labels = ls ∧
        r.data.Perm (rounded (located cs s.output.data)) := by
    intro s hs
    have hser := series_withAxes (steps := [s]) h.names (fun s' hs' => by
      rw [List.mem_singleton] at hs'; exact hs' ▸ hf s hs) hcs.length_eq hv hlab
    obtain ⟨lines, rs, g1, g2, g3⟩ := C38_element_files_partial repr _ _ _ (by simp) hn hser
    rw [List.map_cons, List.map_nil] at g3
    cases g3 with
    | cons g3 g4 =>
      cases g4
      exact ⟨lines, _, g1, g2, g3.1, g3.2.1, g3.2.2.trans ((withAxes_perm h.names (hf s hs)).map _)⟩
  have key : ∀ (k : ℕ) (st : List ListingStep), (∀ s ∈ st, s ∈ steps) →
      ∃ files, (((st.map (withAxes cs ls)).zipIdx k).mapM fun e => do
          let lines ← writeElements repr .csv [e.1]
          .ok (splitName nm e.2, lines)) = .ok files ∧
        files.map (·.1) = (List.range st.length).map (fun i : ℕ => splitName nm (k + i)) ∧
        List.Forall₂ (fun s file => ∃ r, readCsvElements file.2 none = .ok [r] ∧
          r.time = (pyFloat s.timeText).map (quant 8) ∧ r.labels = ls ∧
          r.data.Perm (rounded (located cs s.output.data))) st files := by
    intro k st
    induction st generalizing k with
    | nil => intro _; exact ⟨[], rfl, rfl, .nil⟩
    | cons s st ih =>
      intro hst
      obtain ⟨lines, r, g1, g2⟩ := one s (hst s (by simp))
      obtain ⟨files, i1, i2, i3⟩ := ih (k + 1) fun s' hs' => hst s' (List.mem_cons_of_mem _ hs')
      refine ⟨(splitName nm k, lines) :: files, ?_, ?_, .cons ⟨r, g2⟩ i3⟩
      · rw [List.map_cons, List.zipIdx_cons, List.mapM_cons]
        simp only [writeElements] at i1 ⊢
        rw [g1, ok_bind, ok_bind, i1]
        rfl
      · rw [List.map_cons, i2, List.length_cons, List.range_succ_eq_map, List.map_cons, List.map_map]
        congr 1
        apply List.map_congr_left
        intro i _
        simp only [Function.comp]
        congr 1
        omega
  obtain ⟨files, g1, g2, g3⟩ := key 0 steps fun s hs => hs
  simp only [Nat.zero_add] at g2
  refine ⟨files, ?_, ?_, g2, g3⟩
  · unfold writeOutputs
    rw [if_neg (by simpa using h1)]
    exact g1
  · rw [g2]
    exact List.nodup_range.map fun i j hij => splitName_inj hij

/-- C71, Tecplot. As for CSV; a Tecplot file has no labels and the time has eight digits. -/
theorem C71_tecplot_partial (repr : Flt → Str) (mean : List Flt → Flt) (name : Option Str)
    {vars : List Str} {ls : List Str} {pre : List Str} {steps : List ListingStep}
    (h : ListingFile "ELEM.".toList 1 vars (ls.map fun l => [l]) pre steps)
    (ht : outputType (listingLines pre steps) = .ok (.element, .tough)) {mesh : List Str} {p : FileRead}
    {elems : Table Elem} (hm : readFile none mesh = .ok p) (he : p.elements = some elems) {cs : List (P3 Flt)}
    (hcs : List.Forall₂ (CenterIs elems.1) ls cs) (hv : ∀ k ∈ vars, TecName k)
    (hnum : ∀ s ∈ steps, ∀ e ∈ located cs s.output.data, ∀ x ∈ e.2, TecNum x) :
    ∃ lines rs, extract repr mean ⟨name, .tecplot, none, false, false⟩ (some (listingLines pre steps)) (some mesh) =
        .ok [(name.getD "OUTPUT_ELEME.tec".toList, lines)] ∧
      readTecplot lines none = .ok rs ∧
      List.Forall₂ (fun s r => r.time = (pyFloat s.timeText).map (quant 7) ∧
        r.data.Perm (rounded (located cs s.output.data))) steps rs := by
  rw [extract_elements repr mean rfl rfl h ht hm he hcs]
  obtain ⟨L, hL, hf⟩ := h.fits
  rw [List.length_map] at hf
  have hls : ls ≠ [] := by
    rintro rfl
    exact h.rows rfl
  have hser : TecOk (axes ++ vars.filter (· ∉ axes)) (steps.map (withAxes cs ls)) := by
    refine ⟨List.mem_append_left _ (by decide), List.mem_append_left _ (by decide), names_nodup h.names,
      all_names (fun k hk => (axes_ok k hk).2.2) hv, ?_⟩
    intro o ho
    obtain ⟨s, hs, rfl⟩ := List.mem_map.1 ho
    refine ⟨listing_time (hf s hs), withAxes_keys h.names (hf s hs), withAxes_full h.names (hf s hs) hcs.length_eq, hls, ?_⟩
    intro e he' x hx
    exact hnum s hs e ((withAxes_perm h.names (hf s hs)).mem_iff.1 he') x hx
  obtain ⟨lines, rs, h1, h2, h3⟩ := C57_round_trip_partial _ _ (by simpa using h.some) hser
  refine ⟨lines, rs, ?_, h2, ?_⟩
  · unfold writeOutputs
    rw [if_pos (by simp)]
    simp only [writeElements]
    rw [h1]
    rfl
  · rw [List.forall₂_map_left_iff] at h3
    refine forall₂_mem h3 ?_
    rintro s r hs ⟨g1, g2⟩
    exact ⟨g1, g2.trans ((withAxes_perm h.names (hf s hs)).map _)⟩

/-- The example with other values in the second row. -/
def plainListing : ListingStep := { exampleListing with
  table := [
    .inl ⟨1, ["AAA 0".toList], "  ".toList, ⟨3, "1".toList⟩, [⟨1, "0.1E+06".toList⟩, ⟨1, "0.25E+02".toList⟩], 0⟩,
    .inl ⟨1, ["AAA 1".toList], "  ".toList, ⟨3, "2".toList⟩, [⟨1, "-0.2+06".toList⟩, ⟨1, "****".toList⟩], 2⟩] }

example : (∀ k ∈ ["P".toList, "T".toList], TecName k) ∧
    ∀ s ∈ [plainListing], ∀ e ∈ located extractCenters s.output.data, ∀ x ∈ e.2, TecNum x := by
  decide +kernel

/-- C71, Petrasim. As for CSV, for times that increase and are finite. -/
theorem C71_petrasim_partial (repr : Flt → Str) (mean : List Flt → Flt) (name : Option Str)
    {vars : List Str} {ls : List Str} {pre : List Str} {steps : List ListingStep}
    (h : ListingFile "ELEM.".toList 1 vars (ls.map fun l => [l]) pre steps)
    (ht : outputType (listingLines pre steps) = .ok (.element, .tough)) {mesh : List Str} {p : FileRead}
    {elems : Table Elem} (hm : readFile none mesh = .ok p) (he : p.elements = some elems) {cs : List (P3 Flt)}
    (hcs : List.Forall₂ (CenterIs elems.1) ls cs) (hv : ∀ k ∈ vars, FieldText k) (hlab : ∀ l ∈ ls, FieldText l)
    {times : List Time} (htimes : steps.map (fun s => (pyFloat s.timeText).bind fun t => value (quant 12 t)) = times.map some)
    (hinc : times.Pairwise (· < ·)) :
    ∃ lines rs, extract repr mean ⟨name, .petrasim, none, false, false⟩ (some (listingLines pre steps)) (some mesh) =
        .ok [(name.getD "OUTPUT_ELEME.csv".toList, lines)] ∧
      readPetrasim lines none = .ok rs ∧
      List.Forall₂ (fun s r => r.time = (pyFloat s.timeText).map (quant 12) ∧ r.labels = ls ∧
        r.data.Perm (rounded (located cs s.output.data))) steps rs := by
  rw [extract_elements repr mean rfl rfl h ht hm he hcs]
  obtain ⟨L, hL, hf⟩ := h.fits
  rw [List.length_map] at hf
  have hls : ls ≠ [] := by
    rintro rfl
    exact h.rows rfl
  have htime : (steps.map (withAxes cs ls)).map outTime = times.map some := by
    rw [← htimes, List.map_map]
    rfl
  have hser : PetraOk (axes ++ vars.filter (· ∉ axes)) (steps.map (withAxes cs ls)) := by
    refine ⟨by simp [axes], names_nodup h.names, all_names (fun k hk => (axes_ok k hk).2.1) hv, ?_⟩
    intro o ho
    have hso : (outTime o).isSome = true := by
      have := List.mem_map_of_mem (f := outTime) ho
      rw [htime] at this
      obtain ⟨q, _, hq⟩ := List.mem_map.1 this
      rw [← hq]
      rfl
    obtain ⟨s, hs, rfl⟩ := List.mem_map.1 ho
    exact ⟨hso, withAxes_keys h.names (hf s hs), withAxes_full h.names (hf s hs) hcs.length_eq, hlab⟩
  have hpw : ((steps.map (withAxes cs ls)).map fun o => (outTime o).getD 0).Pairwise (· < ·) := by
    have e : ((steps.map (withAxes cs ls)).map fun o => (outTime o).getD 0) = times := by
      have := congrArg (List.map fun o : Option Time => o.getD 0) htime
      rw [List.map_map, List.map_map] at this
      simpa [Function.comp_def] using this
    rw [e]
    exact hinc
  obtain ⟨lines, rs, h1, h2, h3⟩ := C56_round_trip_partial _ _ (by simpa using h.some) hser (by
    intro o ho
    obtain ⟨s, hs, rfl⟩ := List.mem_map.1 ho
    exact hls) hpw
  refine ⟨lines, rs, ?_, h2, ?_⟩
  · unfold writeOutputs
    rw [if_pos (by simp)]
    simp only [writeElements]
    rw [h1]
    rfl
  · rw [List.forall₂_map_left_iff] at h3
    refine forall₂_mem h3 ?_
    rintro s r hs ⟨g1, g2, g3⟩
    exact ⟨g1, g2, g3.trans ((withAxes_perm h.names (hf s hs)).map _)⟩

/-- The example at a later time. -/
def laterListing : ListingStep := { exampleListing with timeText := "0.25000E+01".toList }

example : (∀ k ∈ ["P".toList, "T".toList], FieldText k) ∧ (∀ l ∈ ["AAA 0".toList, "AAA 1".toList], FieldText l) ∧
    ([exampleListing, laterListing].map fun s => (pyFloat s.timeText).bind fun t => value (quant 12 t)) =
      [(((3 / 2 : ℚ) : WithTop ℚ) : Time), ((5 / 2 : ℚ) : WithTop ℚ)].map some ∧
    [(((3 / 2 : ℚ) : WithTop ℚ) : Time), ((5 / 2 : ℚ) : WithTop ℚ)].Pairwise (· < ·) := by
  decide +kernel

/-- C71, `--connection`. The coordinates are the means of those of the two cells. -/
theorem C71_connection_partial (repr : Flt → Str) (mean : List Flt → Flt) (name : Option Str)
    {vars : List Str} {ls : List (Str × Str)} {pre : List Str} {steps : List ListingStep}
    (h : ListingFile "ELEM1".toList 2 vars (ls.map fun l => [l.1, l.2]) pre steps)
    (ht : outputType (listingLines pre steps) = .ok (.element, .tough)) {mesh : List Str} {p : FileRead}
    {elems : Table Elem} (hm : readFile none mesh = .ok p) (he : p.elements = some elems) {cs : List (P3 Flt × P3 Flt)}
    (hcs : List.Forall₂ (fun l c => CenterIs elems.1 l.1 c.1 ∧ CenterIs elems.1 l.2 c.2) ls cs)
    (hv : ∀ k ∈ vars, VarOk k) (hlab : ∀ l ∈ ls, LabelOk 2 [l.1, l.2]) :
    ∃ lines rs, extract repr mean ⟨name, .csv, none, false, true⟩ (some (listingLines pre steps)) (some mesh) =
        .ok [(name.getD "OUTPUT_CONNE.csv".toList, lines)] ∧
      readCsv .connection lines = .ok rs ∧
      List.Forall₂ (fun s r => r.time = (pyFloat s.timeText).map (quant 8) ∧ r.labels = ls.map (fun l => [l.1, l.2]) ∧
        r.data.Perm (rounded (located (cs.map fun c =>
          ⟨mean [c.1.x, c.2.x], mean [c.1.y, c.2.y], mean [c.1.z, c.2.z]⟩) s.output.data))) steps rs := by
  set ps : List (P3 Flt) := cs.map fun c => ⟨mean [c.1.x, c.2.x], mean [c.1.y, c.2.y], mean [c.1.z, c.2.z]⟩
  set tls : List (List Str) := ls.map fun l => [l.1, l.2]
  obtain ⟨L, hL, hf⟩ := h.fits
  have hlen : tls.length = ps.length := by rw [List.length_map, List.length_map, hcs.length_eq]
  have hps : ps ≠ [] := by
    intro hps
    rw [hps] at hlen
    exact h.rows (List.length_eq_zero_iff.1 hlen)
  have hr := C63_read_partial .connection L _ hL (List.length_pos_iff.2 h.rows) vars h.names pre h.before steps h.some hf
  have hpts : connPoints mean elems.1 tls = .ok (axisColumns ps) := by
    unfold connPoints
    have : tls.mapM (meanCenter mean elems.1) = .ok (ps.map fun c => [c.x, c.y, c.z]) := by
      apply mapM_of_forall₂
      rw [List.forall₂_map_left_iff, List.forall₂_map_right_iff, List.forall₂_map_right_iff]
      exact hcs.imp fun l c hc => meanCenter_of mean hc.1 hc.2
    rw [this, ok_bind, pointColumns_of hps]
  have hlast : (steps.map (·.output)).getLast? = some (steps.getLast h.some).output := by
    rw [List.getLast?_map, List.getLast?_eq_getLast_of_ne_nil h.some, Option.map_some]
  have hwrite : extract repr mean ⟨name, .csv, none, false, true⟩ (some (listingLines pre steps)) (some mesh) =
      writeOutputs ⟨name, .csv, none, false, true⟩ (writeCsv repr .connection id) (writeCsv repr .connection id)
        (steps.map (withAxes ps tls)) := by
    unfold extract
    rw [if_neg (by simp)]
    simp only
    rw [hm, ok_bind, he]
    simp only
    rw [ht, ok_bind]
    simp only [if_true]
    unfold extractConnections
    rw [listingLines, hr, ok_bind, hlast]
    simp only
    have e : (steps.getLast h.some).output.labels = tls := h.labels _ (List.getLast_mem h.some)
    rw [e, hpts, ok_bind]
    congr 1
    unfold addPoints
    rw [List.map_map]
    apply List.map_congr_left
    intro s hs
    have e : s.output.labels = tls := h.labels s hs
    simp only [Function.comp, withAxes, ← e]
  have hser := series_withAxes (texts := id) (k := 2) h.names hf hlen hv (by
    intro l hl
    obtain ⟨q, hq, rfl⟩ := List.mem_map.1 hl
    exact hlab q hq)
  obtain ⟨lines, rs, h1, h2, h3⟩ := C38_csv_round_trip_partial repr .connection id _ _ _ (by simpa using h.some)
    (List.length_pos_iff.2 h.rows) hser
  refine ⟨lines, rs, ?_, h2, ?_⟩
  · rw [hwrite]
    unfold writeOutputs
    rw [if_pos (by simp), h1]
    rfl
  · rw [List.forall₂_map_left_iff] at h3
    refine forall₂_mem h3 ?_
    rintro s r hs ⟨g1, g2, g3⟩
    exact ⟨g1, by simpa [withAxes] using g2, g3.trans ((withAxes_perm h.names (hf s hs)).map _)⟩

example : ListingFile "ELEM1".toList 2 ["FLOW".toList]
      ([("AAA 0".toList, "AAA 1".toList)].map fun l => [l.1, l.2]) extractHead [exampleConnection] ∧
    outputType (listingLines extractHead [exampleConnection]) = .ok (.element, .tough) ∧
    (∀ k ∈ ["FLOW".toList], VarOk k) ∧ ∀ l ∈ [("AAA 0".toList, "AAA 1".toList)], LabelOk 2 [l.1, l.2] := by
  refine ⟨⟨by decide, by decide, by simp, by simp, ⟨5, by decide, ?_⟩, by decide⟩, by decide +kernel, by decide, by decide⟩
  intro s hs
  have : s = exampleConnection := by simpa using hs
  subst this
  have e2 : ∀ r ∈ exampleConnection.rows, RowFits 5 2 1 r := by decide +kernel
  exact ⟨by decide, by decide, by decide, by decide +kernel, by decide, by decide, by decide, by decide,
    by decide, by decide, e2, by decide, between_of (by decide), by decide, by decide⟩

/-! ### Refusals -/

/-- C71. Data of connections are written as CSV only. -/
theorem C71_connection_format (repr : Flt → Str) (mean : List Flt → Flt) (a : ExtractArgs) (infile mesh : Option (List Str))
    (hc : a.connection = true) (hf : a.format ≠ .csv) : extract repr mean a infile mesh = .error .valueError := by
  unfold extract
  rw [if_pos ⟨hc, hf⟩]

example : extract (fun _ => []) (fun _ => .nan) ⟨none, .tecplot, none, false, true⟩
    (some (listingLines extractHead [exampleListing])) (some extractMesh) = .error .valueError :=
  C71_connection_format _ _ _ _ _ rfl (by decide)

/-- C71. A missing file is refused. -/
theorem C71_no_file (repr : Flt → Str) (mean : List Flt → Flt) (a : ExtractArgs) (infile mesh : Option (List Str))
    (h : infile = none ∨ mesh = none) : extract repr mean a infile mesh = .error .valueError := by
  unfold extract
  split
  · rfl
  · rcases h with rfl | rfl
    · rfl
    · cases infile <;> rfl

example : extract (fun _ => []) (fun _ => .nan) ⟨none, .csv, none, false, false⟩
    (some (listingLines extractHead [exampleListing])) none = .error .valueError :=
  C71_no_file _ _ _ _ _ (.inr rfl)

/-- C71. A MESH file without the block ELEME is refused. -/
theorem C71_no_elements (repr : Flt → Str) (mean : List Flt → Flt) (a : ExtractArgs) (lines mesh : List Str) {p : FileRead}
    (hm : readFile a.labelLength mesh = .ok p) (he : p.elements = none) :
    extract repr mean a (some lines) (some mesh) = .error .valueError := by
  unfold extract
  split
  · rfl
  · simp only
    rw [hm, ok_bind, he]

example : (readFile none ["INCON\n".toList, "\n".toList]).map (·.elements) = .ok none := by decide +kernel

/-- C71. From any other file than a main output file nothing is written. -/
theorem C71_other_file (repr : Flt → Str) (mean : List Flt → Flt) (a : ExtractArgs) (lines mesh : List Str)
    (h : ∀ t, outputType lines ≠ .ok (t, .tough)) : ∃ e, extract repr mean a (some lines) (some mesh) = .error e := by
  have nt : ∀ {α : Type} (outs : Except PyErr (List α)), ∃ e, notTough outs = .error e := by
    intro α outs
    unfold notTough
    cases outs with
    | error e => exact ⟨e, rfl⟩
    | ok outs =>
      cases outs with
      | nil => exact ⟨_, rfl⟩
      | cons o outs => exact ⟨_, rfl⟩
  unfold extract
  split
  · exact ⟨_, rfl⟩
  simp only
  cases hp : readFile a.labelLength mesh with
  | error e => exact ⟨e, rfl⟩
  | ok p =>
    rw [ok_bind]
    cases p.elements with
    | none => exact ⟨_, rfl⟩
    | some elems =>
      simp only
      cases ho : outputType lines with
      | error e => exact ⟨e, rfl⟩
      | ok t =>
        obtain ⟨t, f⟩ := t
        rw [ok_bind]
        cases f with
        | tough => exact absurd ho (h t)
        | save =>
          simp only
          cases readSave .absent lines with
          | error e => exact ⟨e, rfl⟩
          | ok _ => exact ⟨_, rfl⟩
        | tecplot => exact nt _
        | petrasim => exact nt _
        | csv => cases t <;> exact nt _

example : ∀ t, outputType ["\"ELEM\",\"P\"\n".toList] ≠ .ok (t, .tough) := by
  intro t
  cases t <;> decide +kernel

/-- C71. A cell of the last table that is not in the MESH file is refused. -/
theorem C71_unknown_cell (repr : Flt → Str) (mean : List Flt → Flt) {a : ExtractArgs} (hl : a.labelLength = none)
    (hc : a.connection = false) {vars : List Str} {ls : List Str} {pre : List Str} {steps : List ListingStep}
    (h : ListingFile "ELEM.".toList 1 vars (ls.map fun l => [l]) pre steps)
    (ht : outputType (listingLines pre steps) = .ok (.element, .tough)) {mesh : List Str} {p : FileRead}
    {elems : Table Elem} (hm : readFile none mesh = .ok p) (he : p.elements = some elems) {l : Str} (hls : l ∈ ls)
    (hn : ∀ e ∈ elems.1, e.1 ≠ .str l) :
    extract repr mean a (some (listingLines pre steps)) (some mesh) = .error .valueError := by
  obtain ⟨L, hL, hf⟩ := h.fits
  have hr := C63_elements_partial L _ hL (List.length_pos_iff.2 h.rows) vars h.names pre h.before steps h.some hf none
  simp only at hr
  have hlast : (steps.map elementOutput).getLast? = some (elementOutput (steps.getLast h.some)) := by
    rw [List.getLast?_map, List.getLast?_eq_getLast_of_ne_nil h.some, Option.map_some]
  have hcell : ∀ l', (∃ c, centerOf elems.1 l' = .ok c) ∨ centerOf elems.1 l' = .error .valueError := by
    intro l'
    unfold centerOf
    split
    · exact .inr rfl
    · split
      · exact .inl ⟨_, rfl⟩
      · exact .inr rfl
  have hbad : centerOf elems.1 l = .error .valueError := by
    unfold centerOf
    rw [dictGet_absent hn]
  unfold extract
  rw [if_neg (by simp [hc])]
  simp only [hl]
  rw [hm, ok_bind, he]
  simp only
  rw [ht, ok_bind]
  simp only [hc]
  rw [if_neg (by simp)]
  unfold extractElements
  rw [hl, listingLines, hr, ok_bind, hlast]
  simp only
  rw [elementOutput_labels (h.labels _ (List.getLast_mem h.some))]
  unfold cellPoints
  rw [mapM_error_of_mem (x := .valueError) (fun a _ => hcell a) ⟨l, hls, hbad⟩]
  rfl

example : (readFile none (extractMesh.take 2 ++ ["\n".toList])).map
    (fun p => p.elements.map fun t => decide (∀ e ∈ t.1, e.1 ≠ .str "AAA 1".toList)) = .ok (some true) := by
  decide +kernel

/-! ### Where the code does not do what it should -/

/-- C71 is violated with `--split` and another format than CSV: the files are CSV files,
whatever their extension. -/
theorem C71_split_violated :
    (extract (fun _ => []) (fun _ => .nan) ⟨none, .tecplot, none, true, false⟩
      (some (listingLines extractHead [plainListing, plainListing])) (some extractMesh)).map
        (fun files => files.map fun f => (f.1, outputType f.2)) =
      .ok [("OUTPUT_ELEME_1.tec".toList, .ok (.element, .csv)), ("OUTPUT_ELEME_2.tec".toList, .ok (.element, .csv))] := by
  decide +kernel

/-- The example with the rows the other way round. -/
def swappedListing : ListingStep := { plainListing with table := plainListing.table.reverse }

/-- C71 is violated if the rows are in another order at another time: the coordinates are
those for the last time, here those of the cells `AAA 0` and `AAA 1` for `AAA 1` and
`AAA 0`. -/
theorem C71_order_violated :
    (extract (fun _ => []) (fun _ => .nan) ⟨none, .csv, none, false, false⟩
      (some (listingLines extractHead [swappedListing, plainListing])) (some extractMesh) >>= fun files =>
        readCsvElements ((files.map (·.2)).headD []) none >>= fun rs =>
        .ok (rs.map fun r => (r.labels, r.data.lookup "X".toList))) =
      .ok [(["AAA 1".toList, "AAA 0".toList], some [.fin false 1, .fin false (3 / 2)]),
        (["AAA 0".toList, "AAA 1".toList], some [.fin false 1, .fin false (3 / 2)])] := by
  decide +kernel

/-- The MESH file without the coordinates of the second cell. -/
def nullMesh : List Str :=
  ["ELEME\n".toList,
    "AAA 0          ROCK1 1.0000E+0                     1.000E+00 2.000E+00-3.000E+00\n".toList,
    "AAA 1          ROCK1 1.0000E+0\n".toList,
    "\n".toList]

/-- C71 is violated for a cell without coordinates: they are zero in a CSV file, and there
is no other file. -/
theorem C71_null_violated :
    (extract (fun _ => []) (fun _ => .nan) ⟨none, .csv, none, false, false⟩
      (some (listingLines extractHead [plainListing])) (some nullMesh) >>= fun files =>
        readCsvElements ((files.map (·.2)).headD []) none >>= fun rs =>
        .ok (rs.map fun r => r.data.lookup "X".toList)) =
      .ok [some [.fin false 1, .fin false 0]] ∧
    extract (fun _ => []) (fun _ => .nan) ⟨none, .tecplot, none, false, false⟩
      (some (listingLines extractHead [plainListing])) (some nullMesh) = .error .typeError := by
  decide +kernel

/-- C71 is violated for a SAVE file: it is refused, but not as an invalid output file. -/
theorem C71_save_violated :
    extract (fun _ => []) (fun _ => .nan) ⟨none, .csv, none, false, false⟩
      (some ["INCON\n".toList, "AAA 0           0.10000000E+00\n".toList, "  0.1000000000000E+06\n".toList, "\n".toList])
      (some extractMesh) = .error .attributeError := by
  decide +kernel

end Verif.Model
