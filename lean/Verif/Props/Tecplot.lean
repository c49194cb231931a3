import Verif.Lemmas.Tecplot
import Verif.Lemmas.Layout
import Verif.Props.Records
import Verif.Props.Petrasim

/-!
# Tecplot output files (C37, C57)
-/

namespace Verif.Props
open Verif.Py Verif.Model Verif.Spec

/-- What the Tecplot writer writes. -/
theorem writeTecplot_eq (ks : List Str) (outs : List (Output Str Flt)) (hne : outs ≠ [])
    (h : TecOk ks outs) : ∃ vars, vars = varOrder ((outs.getLast hne).data.map (·.1)) ∧ vars.Perm ks ∧
      writeTecplot outs = .ok (tecVarLine vars :: outs.flatMap (tecLines vars)) := by
  obtain ⟨hX, hY, hnd, hvar, hsteps⟩ := h
  obtain ⟨-, hp, -⟩ := hsteps _ (List.getLast_mem hne)
  have hvp : (varOrder ((outs.getLast hne).data.map (·.1))).Perm ks :=
    (varOrder_perm (hp.nodup_iff.2 hnd)).trans hp
  refine ⟨_, rfl, hvp, ?_⟩
  unfold writeTecplot tecHeaders
  rw [List.getLast?_eq_getLast_of_ne_nil hne]
  simp only
  rw [if_pos ⟨hp.symm.subset hX, hp.symm.subset hY⟩, ok_bind,
    concatM_ok (g := tecLines (varOrder ((outs.getLast hne).data.map (·.1))))]
  · rfl
  · intro o ho
    obtain ⟨h1, h2, h3, h4⟩ := hsteps o ho
    exact tecStep_eq h1 (h2.nodup_iff.2 hnd) h3 (hvp.symm.subset hX)
      fun k hk => h2.symm.subset (hvp.subset hk)

/-- The lines after the first one are read in a loop. -/
theorem readTecplot_vars {vars : List Str} (hv : ∀ k ∈ vars, TecName k) (hX : "X".toList ∈ vars)
    (hY : "Y".toList ∈ vars) (ls : List Str) :
    readTecplot (tecVarLine vars :: ls) none =
      tecLoop vars (ls.length + 1) none (strip (upper (ls.headD []))) ls.tail := by
  unfold readTecplot tecStart
  rw [strip_tecVarLine hv, if_pos]
  · rw [ok_bind]
    simp only
    rw [readVariables_tecVarLine hv hX hY, ok_bind]
    cases tecLoop vars (ls.length + 1) none (strip (upper (ls.headD []))) ls.tail <;> rfl
  · rw [startsWith, List.isPrefixOf_iff_prefix]
    unfold upper
    rw [List.map_append]
    refine List.IsPrefix.trans ?_ (List.prefix_append _ _)
    decide

/-- The numbers of a table fit their columns. -/
theorem tecOk_cells {ks vars : List Str} (hvp : vars.Perm ks) {outs : List (Output Str Flt)}
    (h : TecOk ks outs) : ∀ o' ∈ outs, o'.time.isSome = true ∧
      ∀ (i : ℕ), i < o'.labels.length → ∀ k ∈ vars, TecNum (cellOf o'.data i k) := by
  obtain ⟨-, -, hnd, -, hsteps⟩ := h
  intro o' ho'
  obtain ⟨h1, h2, h3, h4, h5⟩ := hsteps o' ho'
  refine ⟨h1, fun i hi k hk => ?_⟩
  obtain ⟨⟨k', v⟩, hm, rfl⟩ := List.mem_map.1 (h2.symm.subset (hvp.subset hk))
  have hl := h3 _ hm
  simp only at hl
  unfold cellOf
  rw [varOf_of_mem (h2.nodup_iff.2 hnd) hm, List.getElem?_eq_getElem (by omega)]
  exact h5 _ hm _ (List.getElem_mem _)

theorem length_le_flatMap (vars : List Str) (l : List (Output Str Flt)) :
    l.length ≤ (l.flatMap (tecLines vars)).length := by
  induction l with
  | nil => simp
  | cons a l ih =>
    rw [List.flatMap_cons, List.length_append, List.length_cons]
    unfold tecLines at ih ⊢
    simp only [List.length_cons]
    omega

/-- What is read of the lines of some outputs. -/
theorem readTecplot_lines (ks vars : List Str) (hvp : vars.Perm ks) (outs : List (Output Str Flt))
    (hne : outs ≠ []) (h : TecOk ks outs) :
    ∃ rs, readTecplot (tecVarLine vars :: outs.flatMap (tecLines vars)) none = .ok rs ∧
      List.Forall₂ (fun o r => r.time = o.time.map (quant 7) ∧
        r.data.Perm (o.data.map fun e => (e.1, e.2.map (quant 12)))) outs rs ∧
      ∀ r ∈ rs, r.data.map (·.1) = vars := by
  obtain ⟨hX, hY, hnd, hvar, hsteps⟩ := h
  have hv : ∀ k ∈ vars, TecName k := fun k hk => hvar k (hvp.subset hk)
  refine ⟨outs.map (tecRead vars), ?_, ?_, ?_⟩
  · rw [readTecplot_vars hv (hvp.symm.subset hX) (hvp.symm.subset hY)]
    · obtain ⟨o, outs, rfl⟩ := List.exists_cons_of_ne_nil hne
      have e : (o :: outs).flatMap (tecLines vars) =
          (tecLines vars o).headD [] :: ((tecLines vars o).tail ++ outs.flatMap (tecLines vars)) := by
        rw [List.flatMap_cons]; rfl
      rw [e]
      simp only [List.headD_cons, List.tail_cons]
      rw [tecLoop_eq]
      · exact tecOk_cells hvp ⟨hX, hY, hnd, hvar, hsteps⟩
      · rw [List.length_cons, List.length_append]
        have := length_le_flatMap vars outs
        omega
  · rw [List.forall₂_map_right_iff, List.forall₂_same]
    intro o ho
    obtain ⟨h1, h2, h3, h4, h5⟩ := hsteps o ho
    exact ⟨rfl, columnsOf_stepRead _ vars o (List.length_pos_of_ne_nil h4) (h2.nodup_iff.2 hnd) h3
      (hvp.trans h2.symm)⟩
  · rw [List.forall_mem_map]
    intro o ho
    obtain ⟨h1, h2, h3, h4, h5⟩ := hsteps o ho
    exact columnsOf_keys _ vars o (List.length_pos_of_ne_nil h4) (h2.nodup_iff.2 hnd) h3
      (hvp.trans h2.symm)

/-- C57. Outputs with the same variables, among them `X` and `Y`, written in the
Tecplot format, are read back in the same order: times with eight digits, values
with thirteen.
Missing: longer names, numbers that fill their columns and outputs without rows, see
the violations below. -/
theorem C57_round_trip_partial (ks : List Str) (outs : List (Output Str Flt)) (hne : outs ≠ [])
    (h : TecOk ks outs) :
    ∃ lines rs, writeTecplot outs = .ok lines ∧ readTecplot lines none = .ok rs ∧
      List.Forall₂ (fun o r => r.time = o.time.map (quant 7) ∧
        r.data.Perm (o.data.map fun e => (e.1, e.2.map (quant 12)))) outs rs := by
  obtain ⟨vars, -, hvp, hw⟩ := writeTecplot_eq ks outs hne h
  obtain ⟨rs, h1, h2, -⟩ := readTecplot_lines ks vars hvp outs hne h
  exact ⟨_, rs, hw, h1, h2⟩

/-- Outputs at two times with the coordinates of two cells. -/
def tecSample : List (Output Str Flt) :=
  [⟨some (.fin false 0), ["A1100".toList, "A1101".toList],
    [("X".toList, [.fin true (1 / 2), .fin false 1]), ("PRES".toList, [.fin false 100000, .nan]),
     ("Y".toList, [.fin false 2, .inf true])]⟩,
   ⟨some (.fin false 86400), ["A1100".toList],
    [("PRES".toList, [.fin false (1 / 3)]), ("Y".toList, [.fin false 2]),
     ("X".toList, [.fin true (1 / 2)])]⟩]

theorem tecSample_ok : TecOk ["X".toList, "Y".toList, "PRES".toList] tecSample := by
  refine ⟨by decide, by decide, by decide, by decide, ?_⟩
  unfold Full
  simp only [tecSample, List.mem_cons, List.not_mem_nil, or_false, forall_eq_or_imp, forall_eq,
    List.map_cons, List.map_nil, List.length_cons, List.length_nil]
  decide +kernel

example : tecSample ≠ [] ∧ TecOk ["X".toList, "Y".toList, "PRES".toList] tecSample :=
  ⟨by simp [tecSample], tecSample_ok⟩

/-- C57. The condition of `C57_round_trip_partial` on a number, for all exponents a floating
point number can have: it is not negative or has, after rounding to thirteen digits,
an exponent between -99 and 99. -/
theorem C57_number_iff (neg : Bool) (mag : ℚ≥0)
    (h : mag = 0 ∨ (roundSig 12 mag).2.natAbs ≤ 999) :
    TecNum (.fin neg mag) ↔ neg = false ∨ mag = 0 ∨ (roundSig 12 mag).2.natAbs ≤ 99 := by
  unfold TecNum
  by_cases hm : mag = 0
  · subst hm
    cases neg <;> simp [fmtE, signStr, expStr_length, mantStr_length (show 12 ≠ 0 by decide), numDigits]
  · have h' := h.resolve_left hm
    have hd : numDigits (roundSig 12 mag).2.natAbs ≤ 3 := by
      have : (roundSig 12 mag).2.natAbs < 10 ^ 3 := by omega
      have := Nat.log_lt_of_lt_pow' (by decide) this
      unfold numDigits
      omega
    simp only [fmtE, hm, if_false, List.length_append, expStr_length,
      mantStr_length (show 12 ≠ 0 by decide), false_or]
    rw [← numDigits_le_two]
    cases neg <;> simp [signStr] <;> omega

/-- C57. Without the coordinates `X` and `Y` nothing is written. -/
theorem C57_needs_coordinates (outs : List (Output Str Flt)) (hne : outs ≠ [])
    (h : "X".toList ∉ (outs.getLast hne).data.map (·.1) ∨
      "Y".toList ∉ (outs.getLast hne).data.map (·.1)) :
    writeTecplot outs = .error .valueError := by
  unfold writeTecplot tecHeaders
  rw [List.getLast?_eq_getLast_of_ne_nil hne]
  simp only
  rw [if_neg (by tauto)]
  rfl

example : ∃ hne : csvSample ≠ [], "Y".toList ∉ (csvSample.getLast hne).data.map (·.1) :=
  ⟨by simp [csvSample], by simp only [csvSample]; decide⟩

/-- C57. No file can be read with an order of the labels: it has no labels. -/
theorem C57_no_order (lines : List Str) (order : List Str) (rs : List TecOut) :
    readTecplot lines (some order) ≠ .ok rs := by
  intro h
  unfold readTecplot at h
  obtain ⟨_, _, h⟩ := bind_eq_ok.1 h
  obtain ⟨_, _, h⟩ := bind_eq_ok.1 h
  obtain ⟨_, _, h⟩ := bind_eq_ok.1 h
  cases h

/-- C57. A file in which no line starts with `VARIABLES` is searched for ever. -/
theorem C57_no_variables (lines : List Str) (order : Option (List Str))
    (h : ∀ l ∈ lines, ¬ "VARIABLES".toList <+: upper (strip l)) :
    readTecplot lines order = .error .diverges := by
  have : tecStart lines = .error .diverges := by
    induction lines with
    | nil => rfl
    | cons l ls ih =>
      rw [tecStart, if_neg, ih fun l' hl => h l' (List.mem_cons_of_mem _ hl)]
      rw [startsWith, List.isPrefixOf_iff_prefix]
      exact h l (by simp)
  unfold readTecplot
  rw [this]
  rfl

example : ∀ l ∈ ["TITLE = \"x\"\n".toList], ¬ "VARIABLES".toList <+: upper (strip l) := by decide

/-- C57 is violated by the code for a negative number with an exponent of three
digits: its text touches the one before and the file cannot be read. -/
theorem C57_glued_violated :
    (writeTecplot [⟨some (.fin false 1), ["A1100".toList],
      [("X".toList, [.fin false 1]), ("Y".toList, [.fin true (10 ^ 100)])]⟩] >>= fun lines =>
      readTecplot lines none >>= fun rs => .ok (rs.map fun r => r.data)) =
    (.error .valueError : Except PyErr (List (List (Str × List Flt)))) := by
  decide +kernel

/-- C57 is violated by the code for a name of eighteen characters: it is joined to
the one before, and the values of one variable are dropped. -/
theorem C57_name_violated :
    (writeTecplot [⟨some (.fin false 1), ["A1100".toList],
      [("X".toList, [.fin false 1]), ("Y".toList, [.fin false 2]),
       ("P".toList, [.fin false 3]), ("liquid_saturation_".toList, [.fin false 4])]⟩] >>= fun lines =>
      readTecplot lines none >>= fun rs => .ok (rs.map fun r => r.data)) =
    .ok [[("X".toList, [.fin false 1]), ("Y".toList, [.fin false 2]),
      ("Pliquid_saturation_".toList, [.fin false 3])]] := by
  decide +kernel

/-- C57 is violated by the code for an output without rows before another one: the
variables are lost. -/
theorem C57_empty_violated :
    (writeTecplot [⟨some (.fin false 1), [], [("X".toList, []), ("Y".toList, [])]⟩] >>= fun lines =>
      readTecplot lines none >>= fun rs => .ok (rs.map fun r => r.data)) =
    (.ok [[]] : Except PyErr (List (List (Str × List Flt)))) := by
  decide +kernel

/-- C37. A Tecplot file written by the package is recognised, whatever the names and
values in it are. -/
theorem C37_tecplot_header (outs : List (Output Str Flt)) (lines : List Str)
    (hw : writeTecplot outs = .ok lines) : outputType lines = .ok (.element, .tecplot) := by
  unfold writeTecplot at hw
  cases hl : outs.getLast? with
  | none => rw [hl] at hw; cases hw
  | some last =>
    rw [hl] at hw
    simp only at hw
    obtain ⟨headers, -, hw⟩ := bind_eq_ok.1 hw
    obtain ⟨steps, -, hw⟩ := bind_eq_ok.1 hw
    cases hw
    generalize hr : headers.flatMap (padLeft 18) ++ ['\n'] = r
    have hl1 : ∃ t, line1 ((padLeft 18 "VARIABLES       =".toList ++ headers.flatMap (padLeft 18) ++
        ['\n']) :: steps) = "VARIABLES       =".toList ++ t := by
      rw [List.append_assoc, hr]
      have e : padLeft 18 "VARIABLES       =".toList = blanks 1 ++ "VARIABLES       =".toList := by
        decide
      show ∃ t, strip (padLeft 18 "VARIABLES       =".toList ++ r) = _
      rw [e, List.append_assoc, strip_spaces_append (blanks_space 1)]
      unfold strip
      rw [lstrip_eq_self (by
        intro c hc
        have : c = 'V' := by simpa using hc.symm
        subst this; decide)]
      unfold rstrip
      rw [List.reverse_append, List.dropWhile_append]
      split
      · exact ⟨[], by decide⟩
      · rw [List.reverse_append]
        exact ⟨(r.reverse.dropWhile isSpace).reverse, by simp⟩
    obtain ⟨t, ht⟩ := hl1
    rw [C37_output_type, if_neg, if_neg, if_pos]
    · unfold HasEqual; rw [ht]; simp
    · unfold IsSave; rw [ht]
      rintro ⟨t, ht⟩
      have := congrArg List.head? ht
      simp at this
    · unfold IsTough; rw [ht]
      rintro (⟨h0, -⟩ | ⟨t, ht⟩)
      · simp at h0
      · have := congrArg List.head? ht
        simp at this

example : ∃ lines, writeTecplot tecSample = .ok lines := by
  obtain ⟨lines, -, h, -⟩ := C57_round_trip_partial ["X".toList, "Y".toList, "PRES".toList] tecSample
    (by simp [tecSample]) (by
      refine ⟨by decide, by decide, by decide, by decide, ?_⟩
      unfold Full
      simp only [tecSample, List.mem_cons, List.not_mem_nil, or_false, forall_eq_or_imp, forall_eq,
        List.map_cons, List.map_nil, List.length_cons, List.length_nil]
      decide +kernel)
  exact ⟨lines, h⟩

end Verif.Props
