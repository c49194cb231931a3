import Verif.Lemmas.Csv
import Verif.Lemmas.Layout

/-!
# CSV output files (C37, C38)
-/

namespace Verif.Props
open Verif.Py Verif.Model Verif.Spec

/-- What the CSV writer writes. -/
theorem writeCsv_eq {L : Type} (repr : Flt → Str) (type : OutType) (texts : L → List Str)
    (ks : List Str) (n : ℕ) (outs : List (Output L Flt)) (hne : outs ≠ [])
    (h : SeriesOk (labelHeaders type).length texts ks n outs) :
    ∃ vars, vars = varOrder ((outs.getLast hne).data.map (·.1)) ∧
      (∀ o ∈ outs, vars.Perm (o.data.map (·.1))) ∧ (∀ k ∈ vars, VarOk k) ∧ vars.Perm ks ∧
      writeCsv repr type texts outs = .ok
        ((joinWith ',' ((labelHeaders type ++ vars).map quoted) ++ ['\n']) ::
          (joinWith ',' (((labelHeaders type ++ vars).map csvUnit).map quoted) ++ ['\n']) ::
          outs.flatMap (stepLines texts vars)) := by
  obtain ⟨hnd, hvar, hsteps⟩ := h
  have hmem := List.getLast_mem hne
  obtain ⟨-, hp, -⟩ := hsteps _ hmem
  have hlnd : ((outs.getLast hne).data.map (·.1)).Nodup := hp.nodup_iff.2 hnd
  have hvp : (varOrder ((outs.getLast hne).data.map (·.1))).Perm ks :=
    (varOrder_perm hlnd).trans hp
  refine ⟨varOrder ((outs.getLast hne).data.map (·.1)), rfl, fun o ho => ?_, fun k hk => ?_, hvp, ?_⟩
  · exact hvp.trans (hsteps o ho).2.1.symm
  · exact hvar k (hvp.subset hk)
  · unfold writeCsv
    rw [List.getLast?_eq_getLast_of_ne_nil hne]
    simp only
    rw [concatM_ok (g := stepLines texts (varOrder ((outs.getLast hne).data.map (·.1))))]
    · rfl
    · intro o ho
      obtain ⟨h1, h2, h3, h4, h5⟩ := hsteps o ho
      exact csvStep_eq repr type texts h1 (h2.nodup_iff.2 hnd) h3 (fun k hk =>
        ⟨hvar k (hvp.subset hk), h2.symm.subset (hvp.subset hk)⟩) h5

/-- What is read of the lines of some outputs. -/
theorem readCsv_lines {L : Type} (type : OutType) (texts : L → List Str) (ks vars : List Str)
    (hvp : vars.Perm ks) (n : ℕ) (outs : List (Output L Flt)) (hne : outs ≠ [])
    (hn : 0 < n) (h : SeriesOk (labelHeaders type).length texts ks n outs) :
    ∃ rs, readCsv type ((joinWith ',' ((labelHeaders type ++ vars).map quoted) ++ ['\n']) ::
          (joinWith ',' (((labelHeaders type ++ vars).map csvUnit).map quoted) ++ ['\n']) ::
          outs.flatMap (stepLines texts vars)) = .ok rs ∧
      List.Forall₂ (TableBack texts) outs rs ∧ ∀ r ∈ rs, r.data.map (·.1) = vars := by
  obtain ⟨hnd, hvar, hsteps⟩ := h
  have hvok : ∀ k ∈ vars, VarOk k := fun k hk => hvar k (hvp.subset hk)
  have hperm : ∀ o ∈ outs, vars.Perm (o.data.map (·.1)) := fun o ho => hvp.trans (hsteps o ho).2.1.symm
  have htable := readCsvTable_steps type texts vars hvok outs hne fun o ho => ⟨(hsteps o ho).1, (hsteps o ho).2.2.2.2⟩
  refine ⟨(outs.map (stepRead texts vars)).map fun e =>
    ⟨e.1, e.2.map (·.labels), columnsOf vars e.2⟩, ?_, ?_, ?_⟩
  · unfold readCsv
    simp only
    rw [htable, ok_bind]
    simp only
    rw [sameShape_of n vars.length, if_pos rfl, List.drop_append_of_le_length le_rfl,
      List.drop_of_length_le le_rfl, List.nil_append]
    · intro e he
      obtain ⟨o, ho, rfl⟩ := List.mem_map.1 he
      refine ⟨by simp [stepRead, (hsteps o ho).2.2.2.1], fun row hrow => ?_⟩
      unfold stepRead at hrow
      obtain ⟨e, -, rfl⟩ := List.mem_map.1 hrow
      simp
    · exact hn
  · rw [List.map_map, List.forall₂_map_right_iff, List.forall₂_same]
    intro o ho
    obtain ⟨h1, h2, h3, h4, h5⟩ := hsteps o ho
    refine ⟨rfl, ?_, ?_⟩
    · simp only [Function.comp]
      unfold stepRead
      simp only [List.map_map]
      refine List.ext_getElem (by simp) fun i g1 g2 => ?_
      simp
    · exact columnsOf_stepRead texts vars o (by omega) (h2.nodup_iff.2 hnd) h3 (hperm o ho)
  · rw [List.map_map, List.forall_mem_map]
    intro o ho
    obtain ⟨h1, h2, h3, h4, h5⟩ := hsteps o ho
    exact columnsOf_keys texts vars o (by omega) (h2.nodup_iff.2 hnd) h3 (hperm o ho)

/-- C38. Outputs with the same variables and at least one label at every time,
written as CSV, are read back with times, labels and all variables, the numbers
rounded to the printed digits. -/
theorem C38_csv_round_trip_partial {L : Type} (repr : Flt → Str) (type : OutType)
    (texts : L → List Str) (ks : List Str) (n : ℕ) (outs : List (Output L Flt)) (hne : outs ≠ [])
    (hn : 0 < n) (h : SeriesOk (labelHeaders type).length texts ks n outs) :
    ∃ lines rs, writeCsv repr type texts outs = .ok lines ∧ readCsv type lines = .ok rs ∧
      List.Forall₂ (TableBack texts) outs rs := by
  obtain ⟨vars, -, -, -, hvp, hw⟩ := writeCsv_eq repr type texts ks n outs hne h
  obtain ⟨rs, h1, h2, -⟩ := readCsv_lines type texts ks vars hvp n outs hne hn h
  exact ⟨_, rs, hw, h1, h2⟩

/-- The same for element files read with `labels_order=None`. -/
theorem C38_element_files_partial (repr : Flt → Str) (ks : List Str) (n : ℕ)
    (outs : List (Output Str Flt)) (hne : outs ≠ []) (hn : 0 < n)
    (h : SeriesOk 1 (fun s => [s]) ks n outs) :
    ∃ lines rs, writeCsv repr .element (fun s => [s]) outs = .ok lines ∧
      readCsvElements lines none = .ok rs ∧
      List.Forall₂ (fun o r => r.time = o.time.map (quant 8) ∧ r.labels = o.labels ∧
        r.data.Perm (o.data.map fun e => (e.1, e.2.map (quant 12)))) outs rs := by
  obtain ⟨lines, rs, h1, h2, h3⟩ := C38_csv_round_trip_partial repr .element (fun s => [s]) ks n outs
    hne hn h
  refine ⟨lines, List.zipWith (fun o r => ⟨r.time, o.labels, r.data⟩) outs rs, h1, ?_, ?_⟩
  · unfold readCsvElements
    rw [h2, ok_bind, mapM_of_forall₂ (ys := List.zipWith (fun o r => ⟨r.time, o.labels, r.data⟩) outs rs)]
    · rfl
    · clear h1 h2 h hne
      induction h3 with
      | nil => exact .nil
      | cons h _ ih =>
        refine .cons ?_ ih
        unfold elementLabels
        rw [h.2.1, List.mapM_map, mapM_ok (f := firstLabel ∘ fun s => [s]) (g := id) fun s _ => rfl,
          List.map_id]
        rfl
  · clear h1 h2 h hne
    induction h3 with
    | nil => exact .nil
    | cons h _ ih => exact .cons ⟨h.1, rfl, h.2.2⟩ ih

/-- Two time steps of two elements with three variables. -/
def csvSample : List (Output Str Flt) :=
  [⟨some (.fin false 0), ["A1100".toList, "A1101".toList],
      [("PRES".toList, [.fin false 100000, .fin true 3]), ("X".toList, [.fin false 1, .fin false 2]),
       ("SG".toList, [.nan, .inf true])]⟩,
   ⟨some (.fin false 86400), ["A1100".toList, "A1101".toList],
      [("PRES".toList, [.fin false 100000, .fin true 3]), ("X".toList, [.fin false 1, .fin false 2]),
       ("SG".toList, [.fin false 0, .fin false (1 / 3)])]⟩]

theorem csvSampleOk :
    SeriesOk 1 (fun s => [s]) ["X".toList, "PRES".toList, "SG".toList] 2 csvSample := by
  refine ⟨by decide, by decide, ?_⟩
  unfold Full
  simp only [csvSample, List.mem_cons, List.not_mem_nil, or_false, forall_eq_or_imp, forall_eq,
    List.map_cons, List.map_nil, List.length_cons, List.length_nil, Option.isSome_some, true_and]
  decide

example : csvSample ≠ [] ∧ 0 < 2 ∧
    SeriesOk 1 (fun s => [s]) ["X".toList, "PRES".toList, "SG".toList] 2 csvSample :=
  ⟨by simp [csvSample], by decide, csvSampleOk⟩

/-- C38 is violated by the code for a variable whose name starts with `ELEM`: it
is lost. -/
theorem C38_violated :
    (writeCsv (fun _ => []) .element (fun s => [s])
      [⟨some (.fin false 0), ["A1100".toList], [("ELEMENTS".toList, [.fin false 1])]⟩] >>= fun lines =>
      readCsv .element lines >>= fun rs =>
      .ok (rs.map fun r => (r.labels, r.data.map (·.1)))) =
    (.ok [([["A1100".toList]], [])] : Except PyErr (List (List (List Str) × List Str))) := by
  decide +kernel

/-- An output without a time cannot be written as CSV. -/
theorem C38_without_time {L : Type} (repr : Flt → Str) (type : OutType) (texts : L → List Str)
    (o : Output L Flt) (outs : List (Output L Flt)) (h : o.time = none) :
    writeCsv repr type texts (o :: outs) = .error .typeError := by
  unfold writeCsv
  rw [List.getLast?_cons]
  simp only
  have : csvStep repr texts (labelHeaders type ++ varOrder ((outs.getLast?.getD o).data.map (·.1))) o =
      .error .typeError := by
    unfold csvStep; rw [h]; rfl
  rw [concatM, this]
  rfl

/-- C38. No file is written of no outputs. -/
theorem C38_no_outputs {L : Type} (repr : Flt → Str) (type : OutType) (texts : L → List Str) :
    writeCsv repr type texts [] = .error .indexError := rfl

/-- C38. Outputs of elements whose labels are pairs are refused, if they have a variable. -/
theorem C38_pair_refused {L : Type} (repr : Flt → Str) (texts : L → List Str) (o : Output L Flt)
    (outs : List (Output L Flt)) (t : Flt) (ht : o.time = some t) (l : L) (ls : List L) (hl : o.labels = l :: ls)
    (a b : Str) (hab : texts l = [a, b])
    (hk : ∀ k ∈ (outs.getLast?.getD o).data.map (·.1), isElem k = false ∧
      ∃ v x, dictGet o.data k = .ok v ∧ rowAt v 0 = .ok x)
    (hne : (outs.getLast?.getD o).data ≠ []) :
    writeCsv repr .element texts (o :: outs) = .error .valueError := by
  unfold writeCsv
  rw [List.getLast?_cons]
  simp only
  generalize (outs.getLast?.getD o).data = d at *
  have hv : ∀ k ∈ varOrder (d.map (·.1)), k ∈ d.map (·.1) := by
    intro k hk
    simp only [varOrder, List.mem_append, List.mem_filter] at hk
    rcases hk with ((h | h) | h) | h
    · split at h <;> simp_all
    · split at h <;> simp_all
    · split at h <;> simp_all
    · exact h.1
  have hvne : varOrder (d.map (·.1)) ≠ [] := by
    obtain ⟨e, d', rfl⟩ := List.exists_cons_of_ne_nil hne
    intro h0
    simp only [varOrder, List.append_eq_nil_iff, List.filter_eq_nil_iff] at h0
    obtain ⟨⟨⟨h1, h2⟩, h3⟩, h4⟩ := h0
    have h5 := h4 e.1 (by simp)
    simp only [decide_not, Bool.not_eq_true', decide_eq_false_iff_not, not_not] at h5
    rcases h5 with h | h | h
    · rw [if_pos (by simp [← h])] at h1; cases h1
    · rw [if_pos (by simp [← h])] at h2; cases h2
    · rw [if_pos (by simp [← h])] at h3; cases h3
  obtain ⟨k, ks, hks⟩ := List.exists_cons_of_ne_nil hvne
  have hstep : csvStep repr texts (labelHeaders .element ++ varOrder (d.map (·.1))) o = .error .valueError := by
    unfold csvStep
    rw [ht, hl]
    simp only [List.zipIdx_cons, List.mapM_cons]
    have hrow : csvRow repr (labelHeaders .element ++ varOrder (d.map (·.1))) o.data 0 (texts l) =
        .error .valueError := by
      unfold csvRow
      have hfil : (labelHeaders .element ++ varOrder (d.map (·.1))).filter (fun k => !isElem k) =
          varOrder (d.map (·.1)) := by
        have h1 : (labelHeaders .element).filter (fun k => !isElem k) = [] := by decide
        rw [List.filter_append, h1, List.nil_append, List.filter_eq_self]
        intro k hk'
        simp [(hk k (hv k hk')).1]
      have hval : ∃ vs, (varOrder (d.map (·.1))).mapM (csvValue o.data 0) = .ok vs := by
        classical
        refine ⟨_, mapM_ok (g := fun k => if h : ∃ x, csvValue o.data 0 k = .ok x then Classical.choose h
          else .num .nan) fun k hk' => ?_⟩
        obtain ⟨-, v, x, h1, h2⟩ := hk k (hv k hk')
        have hx : ∃ x, csvValue o.data 0 k = .ok x := ⟨.num x, by unfold csvValue; rw [h1, ok_bind, h2]; rfl⟩
        rw [dif_pos hx]
        exact Classical.choose_spec hx
      obtain ⟨vs, hvs⟩ := hval
      rw [hfil, hvs, ok_bind, hab, hks]
      have hke : isElem k = false := (hk k (hv k (by rw [hks]; simp))).1
      have he : isElem "ELEM".toList = true := by decide
      simp only [labelHeaders, List.cons_append, List.nil_append, List.map_cons, List.zip_cons_cons,
        List.mapM_cons, hke, he, csvItem]
      rfl
    rw [hrow]
    rfl
  rw [concatM, hstep]
  rfl

example : (⟨some (.fin false 0), [("A1100".toList, "A1101".toList)], [("FLOW".toList, [.fin false 1])]⟩ :
      Output (Str × Str) Flt).labels = ("A1100".toList, "A1101".toList) :: [] ∧
    ∀ k ∈ ["FLOW".toList], isElem k = false ∧ ∃ v x, dictGet [("FLOW".toList, [Flt.fin false 1])] k = .ok v ∧
      rowAt v 0 = .ok x := by
  refine ⟨rfl, fun k hk => ?_⟩
  obtain rfl := List.mem_singleton.1 hk
  exact ⟨by decide, [.fin false 1], .fin false 1, by decide +kernel, rfl⟩

theorem csvUnit_spec (h : Str) : UnitOf h (csvUnit h) := by
  by_cases hm : ∃ e ∈ csvUnits, e.1.toList = h
  · obtain ⟨e, he, rfl⟩ := hm
    left
    revert e
    decide +kernel
  · right
    have hf : csvUnits.find? (fun e => e.1.toList = h) = none := by
      rw [List.find?_eq_none]
      intro e he hd
      exact hm ⟨e, he, by simpa using hd⟩
    refine ⟨by rw [csvUnit, hf], fun e he s hs hh => hm ?_⟩
    subst hh
    revert e s
    decide +kernel

/-- C38. The first two lines of a CSV file: the labels, the coordinates that are
there and the other variables, then the unit of each. -/
theorem C38_header_and_units {L : Type} (repr : Flt → Str) (type : OutType) (texts : L → List Str)
    (outs : List (Output L Flt)) (hne : outs ≠ []) (lines : List Str)
    (hw : writeCsv repr type texts outs = .ok lines) :
    ∃ coords others units rest,
      coords = ["X".toList, "Y".toList, "Z".toList].filter
        (· ∈ (outs.getLast hne).data.map (·.1)) ∧
      others = ((outs.getLast hne).data.map (·.1)).filter
        (· ∉ ["X".toList, "Y".toList, "Z".toList]) ∧
      List.Forall₂ UnitOf (labelHeaders type ++ coords ++ others) units ∧
      lines = (joinWith ',' ((labelHeaders type ++ coords ++ others).map quoted) ++ ['\n']) ::
        (joinWith ',' (units.map quoted) ++ ['\n']) :: rest := by
  unfold writeCsv at hw
  rw [List.getLast?_eq_getLast_of_ne_nil hne] at hw
  simp only at hw
  obtain ⟨steps, -, hw⟩ := bind_eq_ok.1 hw
  cases hw
  have e : labelHeaders type ++ varOrder ((outs.getLast hne).data.map (·.1)) =
      labelHeaders type ++ ["X".toList, "Y".toList, "Z".toList].filter
        (· ∈ (outs.getLast hne).data.map (·.1)) ++ ((outs.getLast hne).data.map (·.1)).filter
        (· ∉ ["X".toList, "Y".toList, "Z".toList]) := by
    rw [List.append_assoc]
    congr 1
    unfold varOrder
    congr 1
    · simp only [List.filter_cons, List.filter_nil, decide_eq_true_eq]
      split <;> split <;> split <;> rfl
    · refine List.filter_congr fun k _ => ?_
      simp
  rw [e]
  refine ⟨_, _, _, steps, rfl, rfl, ?_, rfl⟩
  rw [List.forall₂_map_right_iff, List.forall₂_same]
  exact fun h _ => csvUnit_spec h

example : ∃ lines, writeCsv (fun _ => []) .element (fun l : Str => [l]) csvSample = .ok lines :=
  have ⟨lines, _, h, _⟩ := C38_csv_round_trip_partial (fun _ => []) .element (fun l : Str => [l])
    _ _ csvSample (by simp [csvSample]) (by decide) csvSampleOk
  ⟨lines, h⟩

end Verif.Props
