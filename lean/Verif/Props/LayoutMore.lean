import Verif.Lemmas.LayoutMore
import Verif.Props.Hist
import Verif.Props.Layout
import Verif.Props.Selec

/-!
# Records of the selections, histories, diffusion coefficients and output variables (C101)

Which columns hold which quantity in the blocks that `Props/Layout.lean` leaves out.
-/

set_option linter.unusedSimpArgs false

namespace Verif.Props
open Verif.Py Verif.Model Verif.Spec

/-! ## SELEC -/

/-- C101. Records of SELEC: sixteen integers in columns of five characters, the
first one being the number of rows of floats (and the integer that was given if
there is no row), then one line for each row, in columns of ten characters. -/
theorem C101_selec (d : List (ℤ × Val)) (fl : Floats) (hd : IntsOk d) (hr : RowsFit (rowsOf fl))
    (lines : List Str) (hw : writeSelec (some d) fl = .ok lines) :
    ∃ h l rest, lines = h :: l :: rest ∧
      Layout l (series 0 (dCol 5)
        ((if rowsOf fl = [] then valueAt d 1 else .int (rowsOf fl).length) ::
          (List.range 15).map fun k : ℕ => valueAt d ((k : ℤ) + 2))) ∧
      List.Forall₂ (fun r l => Layout l (series 0 (eCol 10 3) r)) (rowsOf fl) rest := by
  unfold writeSelec block at hw
  simp only [bind_eq_ok, ok_bind] at hw
  obtain ⟨b, ⟨rows, hrows, l1, h1, l2, h2, e1⟩, e2⟩ := hw
  have hrr : rows = rowsOf fl := by
    match fl with
    | .absent | .none => simp [selecRows] at hrows
    | .row [] => simp only [selecRows] at hrows; injection hrows with h; exact h.symm
    | .row (a :: l) =>
      simp only [selecRows] at hrows
      split at hrows
      · injection hrows with h; exact h.symm
      · cases hrows
    | .rows l =>
      simp only [selecRows] at hrows
      split at hrows
      · injection hrows with h; exact h.symm
      · cases hrows
  subst hrr
  injection e1 with e1; subst e1
  injection e2 with e2
  refine ⟨headLine "SELEC", l1, l2, by rw [← e2]; simp, ?_, layout_rows (n := 8) hr.2 (mapM_eq_ok h2)⟩
  have hsucc : (List.range 16).map (fun k : ℕ => valueAt d ((k : ℤ) + 1)) =
      valueAt d 1 :: (List.range 15).map fun k : ℕ => valueAt d ((k : ℤ) + 2) := by
    rw [List.range_succ_eq_map, List.map_cons, List.map_map]
    refine congrArg₂ List.cons (by norm_num) (List.map_congr_left fun k _ => ?_)
    simp only [Function.comp, Nat.succ_eq_add_one, Nat.cast_add, Nat.cast_one]
    congr 1
  have hvals : sortedVals (if rowsOf fl = [] then updateDict (noOptions 16) d
      else dictSet (updateDict (noOptions 16) d) 1 (.int (rowsOf fl).length)) =
      (if rowsOf fl = [] then valueAt d 1 else .int (rowsOf fl).length) ::
        (List.range 15).map fun k : ℕ => valueAt d ((k : ℤ) + 2) := by
    split
    · rw [← hsucc]
      exact sortedVals_update 16 d hd.1 fun e he => ⟨(hd.2 e he).1, (hd.2 e he).2.1⟩
    · exact sortedVals_count d hd _
  rw [hvals] at h1
  refine layout_row (n := 16) (by simp) ?_ h1
  intro v hv
  apply fits_int5
  rcases List.mem_cons.1 hv with rfl | hv
  · split
    · exact int5_valueAt hd _
    · exact fits_count hr.1
  · obtain ⟨k, -, rfl⟩ := List.mem_map.1 hv
    exact int5_valueAt hd _

example : IntsOk [(2, .int 3), (16, .int (-7)), (4, .none)] ∧
    RowsFit (rowsOf (.rows [[.flt (.fin false 2), .none, .int 3], [.none]])) ∧
    (writeSelec (some [(2, .int 3), (16, .int (-7)), (4, .none)])
      (.rows [[.flt (.fin false 2), .none, .int 3], [.none]])).isOk = true := by
  decide +kernel

/-! ## FOFT, COFT, GOFT -/

/-- C101. Records of the histories: one line for each name, the name from the
first column on, in five columns (ten for connections), and a blank line at the
end. -/
theorem C101_histories : ∀ hist ∈ histories, ∀ (names : List Val) (lines : List Str),
    (∀ v ∈ names, Fits (sCol hist.2.1) v) → hist.2.2 names = .ok lines →
    ∃ h rest, lines = h :: (rest ++ [['\n']]) ∧
      List.Forall₂ (fun v l => Layout l [(0, sCol hist.2.1, v)]) names rest := by
  have key : ∀ (kw : String) (w : ℕ) (names : List Val) (lines : List Str),
      (∀ v ∈ names, Fits (sCol w) v) → writeOft kw [sCol w] names = .ok lines →
      ∃ h rest, lines = h :: (rest ++ [['\n']]) ∧
        List.Forall₂ (fun v l => Layout l [(0, sCol w, v)]) names rest := by
    intro kw w names lines hn hw
    unfold writeOft block at hw
    simp only [bind_eq_ok] at hw
    obtain ⟨b, hb, e⟩ := hw
    injection e with e
    refine ⟨headLine kw, b, by rw [← e]; simp, ?_⟩
    clear e
    induction names generalizing b with
    | nil =>
      have : b = [] := by
        have h0 : writeMulti [sCol w] [] = .ok [] := by
          unfold writeMulti
          rw [chunks_nil _ (by simp)]
          rfl
        rw [h0] at hb
        injection hb with hb
        exact hb.symm
      rw [this]; exact .nil
    | cons v vs ih =>
      unfold writeMulti at hb
      rw [chunks_cons _ (by simp) _ (by simp)] at hb
      simp only [List.mapM_cons, bind_eq_ok, List.length_singleton, List.take_succ_cons,
        List.take_zero, List.drop_succ_cons, List.drop_zero] at hb
      obtain ⟨l, hl, ls, hls, e⟩ := hb
      injection e with e; subst e
      refine .cons ?_ (ih (fun v hv => hn v (by simp [hv])) ls hls)
      exact layout_row (n := 1) (by simp) (by simpa using hn v (by simp)) hl
  intro hist hh names lines
  simp only [histories, List.mem_cons, List.not_mem_nil, or_false] at hh
  rcases hh with rfl | rfl | rfl
  · exact key "FOFT" 5 names lines
  · exact key "COFT" 10 names lines
  · exact key "GOFT" 5 names lines

example : ∀ hist ∈ histories, (∀ v ∈ [Val.str "A1112".toList, .str "b 3".toList],
    Fits (sCol hist.2.1) v) ∧ (hist.2.2 [.str "A1112".toList, .str "b 3".toList]).isOk = true := by
  decide +kernel

/-! ## DIFFU -/

/-- C101. Records of DIFFU: one line for each component, its coefficients in
columns of ten characters. -/
theorem C101_diffu (rows : List (List Val)) (hne : ∀ r ∈ rows, r ≠ [])
    (hr : ∀ r ∈ rows, r.length ≤ 8 ∧ ∀ v ∈ r, Fits (eCol 10 3) v) (lines : List Str)
    (hw : writeDiffu rows = .ok lines) :
    ∃ h rest, lines = h :: rest ∧
      List.Forall₂ (fun r l => Layout l (series 0 (eCol 10 3) r)) rows rest := by
  unfold writeDiffu block at hw
  simp only [bind_eq_ok] at hw
  obtain ⟨b, hb, e⟩ := hw
  injection e with e
  refine ⟨headLine "DIFFU", b, by rw [← e]; simp, ?_⟩
  refine layout_rows (n := 8) hr (concatM_one (f := writeMulti Fmt.diffu) ?_ hb)
  exact fun r h => writeMulti_one (f := Fmt.diffu) (hne r h) (hr r h).1

example : (∀ r ∈ [[.flt (.fin false (1 / 100000)), .none, .int 0], [Val.int 1]], r ≠ [] ∧
    r.length ≤ 8 ∧ ∀ v ∈ r, Fits (eCol 10 3) v) ∧
    (writeDiffu [[.flt (.fin false (1 / 100000)), .none, .int 0], [Val.int 1]]).isOk = true := by
  decide +kernel

/-- C101. More than eight coefficients for a component go on over the next line,
as in any table (`C55_tables`). -/
theorem C101_diffu_long (r : List Val) (hr : ∀ v ∈ r, Fits (eCol 10 3) v) (lines : List Str)
    (hw : writeDiffu [r] = .ok lines) (i : ℕ) (v : Val) (hi : r[i]? = some v) :
    ∃ h rest l, lines = h :: rest ∧ rest[i / 8]? = some l ∧
      Shows (eCol 10 3) (columns l (10 * (i % 8)) 10) v := by
  unfold writeDiffu block at hw
  simp only [bind_eq_ok, concatM] at hw
  obtain ⟨b, ⟨a, ha, b', hb', e'⟩, e⟩ := hw
  injection hb' with hb'; subst hb'
  injection e' with e'; subst e'
  injection e with e
  obtain ⟨l, h1, h2⟩ := C55_tables 8 (by decide) (eCol 10 3) r a hr ha i v hi
  exact ⟨headLine "DIFFU", a, l, by rw [← e]; simp, h1, h2⟩

example : (∀ v ∈ (List.range 20).map fun k : ℕ => Val.int k, Fits (eCol 10 3) v) ∧
    (writeDiffu [(List.range 20).map fun k : ℕ => Val.int k]).isOk = true ∧
    ((List.range 20).map fun k : ℕ => Val.int k)[13]? = some (.int 13) := by
  decide +kernel

/-! ## OUTPU -/

/-- The rows of options of a variable, and how many lines it takes: a variable
without a list has the one option, if any. -/
def optionRows : Args → List (List Val)
  | .one v => [[v]]
  | .list l => [l]
  | .rows l => l

/-- C101. Records of OUTPU: the format in upper case from the first column on,
if there is one; then the number of lines of the variables; then for each
variable and each of its options one line with the name in upper case in twenty
columns and the options in columns of five. -/
theorem C101_outpu (format : Str) (vars : List (Str × Args))
    (hf : format = [] ∨ FormatFits format) (hv : VarsFit vars) (hne : vars ≠ []) (lines : List Str)
    (hw : writeOutpu format vars = .ok lines) :
    ∃ h f n rest, lines = h :: (f ++ n :: rest) ∧
      List.Forall₂ (fun v l => Layout l [(0, sCol 20, v)])
        (if format = [] then [] else [.str (upper format)]) f ∧
      Layout n [(0, sCol 15, .str (natStr rest.length))] ∧
      List.Forall₂ (fun e l => Layout l ((0, sCol 20, .str (upper e.1)) :: series 20 (dCol 5) e.2))
        (vars.flatMap fun e => (optionRows e.2).map fun r => (e.1, r)) rest := by
  obtain ⟨hv1, hv2, hv3⟩ := hv
  have hparts : ∃ f n buf, lines = headLine "OUTPU" :: (f ++ n :: buf) ∧
      ((format = [] ∧ f = []) ∨
        (format ≠ [] ∧ ∃ l, f = [l] ∧ writeRecord Fmt.outpu1 [.str (upper format)] = .ok l)) ∧
      writeRecord Fmt.outpu2 [.str (natStr buf.length)] = .ok n ∧ concatM writeVar vars = .ok buf := by
    unfold writeOutpu block at hw
    by_cases h0 : format = []
    · simp only [if_pos h0, if_neg hne, bind_eq_ok, ok_bind] at hw
      obtain ⟨b, ⟨buf, hbuf, n, hn, e1⟩, e2⟩ := hw
      injection e1 with e1; subst e1
      injection e2 with e2
      exact ⟨[], n, buf, by rw [← e2]; simp, .inl ⟨h0, rfl⟩, hn, hbuf⟩
    · simp only [if_neg h0, if_neg hne, bind_eq_ok, ok_bind] at hw
      obtain ⟨b, ⟨l, hl, buf, hbuf, n, hn, e1⟩, e2⟩ := hw
      injection e1 with e1; subst e1
      injection e2 with e2
      exact ⟨[l], n, buf, by rw [← e2]; simp, .inr ⟨h0, l, rfl, hl⟩, hn, hbuf⟩
  obtain ⟨f, n, buf, e2, hf', hn, hbuf⟩ := hparts
  have hrest : ∀ (vars : List (Str × Args)) (buf : List Str),
      (∀ e ∈ vars, TextFits 20 e.1 ∧ ArgsOk e.2) → concatM writeVar vars = .ok buf →
      List.Forall₂ (fun e l => Layout l ((0, sCol 20, .str (upper e.1)) :: series 20 (dCol 5) e.2))
        (vars.flatMap fun e => (optionRows e.2).map fun r => (e.1, r)) buf := by
    intro vars
    induction vars with
    | nil =>
      intro buf _ h
      injection h with h
      rw [← h]; exact .nil
    | cons e vars ih =>
      intro buf hv h
      simp only [concatM, bind_eq_ok] at h
      obtain ⟨a, ha, c, hc, e'⟩ := h
      injection e' with e'; subst e'
      rw [List.flatMap_cons]
      refine List.rel_append ?_ (ih c (fun e he => hv e (by simp [he])) hc)
      obtain ⟨h1, h2⟩ := hv e (by simp)
      obtain ⟨g1, -, g3, -, -⟩ := rowsOfArgs_ok h2
      have g4 : rowsOfArgs e.2 = optionRows e.2 := by cases e.2 <;> rfl
      unfold writeVar at ha
      rw [g1, ok_bind, g4] at ha
      rw [g4] at g3
      have hfa := mapM_eq_ok ha
      rw [List.forall₂_map_left_iff]
      clear ha
      generalize optionRows e.2 = rows at hfa g3
      induction hfa with
      | nil => exact .nil
      | @cons r l rows ls h _ ih' =>
        refine .cons ?_ (ih' fun r hr => g3 r (by simp [hr]))
        have hr := g3 r (by simp)
        have := layout_record h (allFill_of_fit (allFit_var h1 hr))
        have e' : place 0 Fmt.outpu3 (.str (upper e.1) :: r) =
            (0, sCol 20, .str (upper e.1)) :: series 20 (dCol 5) r := by
          rw [← place_replicate 20 2 (dCol 5) r hr.1]; rfl
        rwa [e'] at this
  have hlen : buf.length < 10 ^ 15 := by
    have := (hrest vars buf hv2 hbuf).length_eq
    rw [List.length_flatMap] at this
    refine lt_of_le_of_lt (le_of_eq ?_) hv3
    rw [← this]
    congr 1
    apply List.map_congr_left
    intro e _
    rw [List.length_map]
    cases e.2 <;> rfl
  have hcount : Fits (sCol 15) (.str (natStr buf.length)) := by
    refine ⟨?_, strip_eq_self fun c hc => isSpace_of_isDigit (natStr_isDigit _ c hc)⟩
    show (natStr _).length ≤ 15
    rw [natStr, padDigits_length, numDigits]
    by_cases h0 : buf.length = 0
    · rw [h0]; decide
    · have := Nat.log_lt_of_lt_pow h0 hlen
      omega
  refine ⟨headLine "OUTPU", f, n, buf, e2, ?_, ?_, hrest vars buf hv2 hbuf⟩
  · rcases hf' with ⟨h0, rfl⟩ | ⟨h0, l, rfl, hl⟩
    · rw [if_pos h0]; exact .nil
    · rw [if_neg h0]
      have hu := textFits_upper (hf.resolve_left h0).1
      have hfit : Fits (sCol 20) (.str (upper format)) := ⟨hu.2.1, hu.2.2⟩
      exact .cons (layout_row (n := 1) (by simp) (by simpa using hfit) hl) .nil
  · exact layout_row (n := 1) (by simp) (by simpa using hcount) hn

example : FormatFits "csv".toList ∧ VarsFit [("pressure".toList, .one .none),
    ("fraction".toList, .list [.int 2, .int 1]),
    ("Flow".toList, .rows [[.int 1, .int 2], [.int 3]])] ∧
    (writeOutpu "csv".toList [("pressure".toList, .one .none),
      ("fraction".toList, .list [.int 2, .int 1]),
      ("Flow".toList, .rows [[.int 1, .int 2], [.int 3]])]).isOk = true := by
  decide +kernel

end Verif.Props
