import Verif.Lemmas.Hist

/-!
# Properties of TIMES, FOFT, COFT, GOFT, DIFFU and OUTPU (C19, C20, C22, C23)
-/

set_option linter.unusedSimpArgs false

namespace Verif.Props
open Verif.Py Verif.Model Verif.Spec

/-! ## C19: TIMES -/

/-- C19. A list of times of any length (up to 99999), or one time, comes back in
order and rounded, a single time as a scalar; the reader takes exactly the lines
of the block. -/
theorem C19_times_round_trip (t : SoL) (h : TimesFit t.toList) :
    ∃ body, writeTimes t = .ok (headLine "TIMES" :: body) ∧
      ∀ rest, readTimes (body ++ rest) = .ok (stepsBack t.toList, rest) := by
  set l := t.toList with hl
  have h1 : AllFit Fmt.times1 [.int l.length] := ⟨fits_int5 (fits_count h.1), trivial⟩
  have h2 : ∀ c ∈ chunks Fmt.times2.length l, AllFit Fmt.times2 c := by
    intro c hc
    obtain ⟨-, -, hm⟩ := mem_chunks _ (by decide) l c hc
    exact allFit_replicate 8 (eCol 10 4) c fun v hv => (h.2 v (hm v hv)).2
  refine ⟨lineOf Fmt.times1 [.int l.length] :: (chunks 8 l).map (lineOf Fmt.times2), ?_, ?_⟩
  · unfold writeTimes block
    simp only [← hl, writeRecord_eq h1, writeMulti_eq h2, ok_bind, Bool.false_eq_true, if_false,
      List.append_nil]
    rfl
  · intro rest
    have e0 : entry (storedAll Fmt.times1 [.int l.length]) 0 = .int l.length := rfl
    have ht := readTable_chunks 8 (w := 10) (p := 4) (by norm_num) (by decide) l h.2 [] l.length
      (by simp) rest
    have ht' : readTable Fmt.times2 l.length [] ((chunks 8 l).map (lineOf Fmt.times2) ++ rest) =
      .ok (l.map (num 4), rest) := ht
    simp only [readTimes, List.cons_append, next_cons, ok_bind, readRecord_lineOf (by decide) h1, e0,
      ht']
    unfold stepsBack
    rcases l with _ | ⟨a, _ | ⟨b, l⟩⟩
    · rfl
    · rfl
    · rw [if_neg (by simp; omega)]; rfl

/-- C19. The number of times and the order are those requested. -/
theorem C19_length_and_order (l : List Val) (i : ℕ) (hi : i < l.length) :
    (stepsBack l).toList.length = l.length ∧ (stepsBack l).toList[i]? = some (num 4 l[i]) := by
  have : (stepsBack l).toList = l.map (num 4) := by
    unfold stepsBack
    rcases l with _ | ⟨a, _ | ⟨b, l⟩⟩ <;> rfl
  rw [this]
  simp [hi]

example : TimesFit ((List.range 20).map fun k : ℕ => .flt (.fin false (k + 1))) := by decide +kernel

/-! ## C20: FOFT, COFT, GOFT -/

/-- The three history blocks: keyword and number of characters of a name. -/
def histories : List (String × ℕ × (List Val → Except PyErr (List Str))) :=
  [("FOFT", 5, writeFoft), ("COFT", 10, writeCoft), ("GOFT", 5, writeGoft)]

/-- Names, cut to the width of their column and without trailing blanks, come
back in order. -/
theorem history_core (kw : String) (w : ℕ) (names : List Str)
    (h : ∀ s ∈ names, rstrip (s.take w) ≠ []) :
    ∃ body, writeOft kw [sCol w] (names.map .str) = .ok (headLine kw :: body) ∧
      ∀ rest, readOft (body ++ rest) = .ok (names.map fun s => rstrip (s.take w), rest) := by
  let line (s : Str) : Str := recLine (padRight w (s.take w))
  have hline : ∀ s, writeRecord [sCol w] [.str s] = .ok (line s) := by
    intro s; simp [writeRecord, recText, toStr, line]
  refine ⟨names.map line ++ [['\n']], ?_, ?_⟩
  · unfold writeOft writeMulti block
    simp only [List.length_singleton, chunks_one, List.map_map]
    rw [mapM_map]
    simp only [Function.comp]
    rw [mapM_ok (g := line) (fun s _ => hline s)]
    rfl
  · intro rest
    have hr : ∀ s, rstrip (line s) = rstrip (s.take w) := fun s => rstrip_recLine w _
    have hw := whileTrue_items (step := oftStep) (fun s => [line s])
      (fun acc s => acc ++ [rstrip (s.take w)]) (fun s => rstrip (s.take w) ≠ [])
      (fun s _ => by simp)
      (fun acc s rest hs => by simp [oftStep, hr, hs])
      names h [] ['\n'] rest (fun s => by
        have : rstrip ['\n'] = [] := by decide
        simp [oftStep, this])
    have e1 : names.map line = names.flatMap fun s => [line s] := by
      clear hw
      induction names with
      | nil => rfl
      | cons a l ih => simp [ih (fun s hs => h s (by simp [hs]))]
    have e2 : ∀ (l : List Str) (acc : List Str),
        l.foldl (fun acc s => acc ++ [rstrip (s.take w)]) acc =
          acc ++ l.map fun s => rstrip (s.take w) := by
      intro l
      induction l with
      | nil => simp
      | cons a l ih => intro acc; simp [ih]
    rw [readOft, e1, List.append_assoc, List.singleton_append, hw, e2]
    simp

/-- C20. The code violates the round trip for names longer than the column of
their block: such a name never comes back. -/
theorem C20_violated : ∀ hist ∈ histories, ∀ s : Str, hist.2.1 < s.length →
    rstrip (s.take hist.2.1) ≠ [] →
    ∃ body, hist.2.2 [.str s] = .ok (headLine hist.1 :: body) ∧
      ∀ rest, ∃ s', s' ≠ s ∧ readOft (body ++ rest) = .ok ([s'], rest) := by
  intro hist hh s hs hne
  have key : ∀ (kw : String) (w : ℕ) (f : List Val → Except PyErr (List Str)),
      f [.str s] = writeOft kw [sCol w] [.str s] → w < s.length → rstrip (s.take w) ≠ [] →
      ∃ body, f [.str s] = .ok (headLine kw :: body) ∧
        ∀ rest, ∃ s', s' ≠ s ∧ readOft (body ++ rest) = .ok ([s'], rest) := by
    intro kw w f hf hw hne
    obtain ⟨body, h1, h2⟩ := history_core kw w [s] (by simpa using hne)
    refine ⟨body, by rw [hf]; exact h1, fun rest => ⟨rstrip (s.take w), ?_, h2 rest⟩⟩
    intro he
    have h3 : (rstrip (s.take w)).length ≤ (s.take w).length := by
      unfold rstrip
      simp only [List.length_reverse]
      exact (List.IsSuffix.length_le (List.dropWhile_suffix _)).trans (by simp)
    rw [he, List.length_take] at h3
    omega
  simp only [histories, List.mem_cons, List.not_mem_nil, or_false] at hh
  rcases hh with rfl | rfl | rfl
  · exact key "FOFT" 5 writeFoft rfl hs hne
  · exact key "COFT" 10 writeCoft rfl hs hne
  · exact key "GOFT" 5 writeGoft rfl hs hne

example : (5 : ℕ) < "AAA010".toList.length ∧ rstrip ("AAA010".toList.take 5) ≠ [] := by decide

/-- C20, partial: what is missing are names longer than five characters (ten for
connections). Names that fit come back exactly as requested, in order. -/
theorem C20_partial : ∀ hist ∈ histories, ∀ names : List Str,
    (∀ s ∈ names, s ≠ [] ∧ s.length ≤ hist.2.1 ∧ rstrip s = s) →
    ∃ body, hist.2.2 (names.map .str) = .ok (headLine hist.1 :: body) ∧
      ∀ rest, readOft (body ++ rest) = .ok (names, rest) := by
  intro hist hh names hn
  have key : ∀ (kw : String) (w : ℕ), (∀ s ∈ names, s ≠ [] ∧ s.length ≤ w ∧ rstrip s = s) →
      ∃ body, writeOft kw [sCol w] (names.map .str) = .ok (headLine kw :: body) ∧
        ∀ rest, readOft (body ++ rest) = .ok (names, rest) := by
    intro kw w hn
    have hs : ∀ s ∈ names, rstrip (s.take w) = s := fun s hm => by
      rw [List.take_of_length_le (hn s hm).2.1, (hn s hm).2.2]
    obtain ⟨body, h1, h2⟩ := history_core kw w names fun s hm => by
      rw [hs s hm]; exact (hn s hm).1
    refine ⟨body, h1, fun rest => ?_⟩
    rw [h2 rest]
    congr 2
    conv_rhs => rw [← List.map_id names]
    exact List.map_congr_left hs
  simp only [histories, List.mem_cons, List.not_mem_nil, or_false] at hh
  rcases hh with rfl | rfl | rfl
  · exact key "FOFT" 5 hn
  · exact key "COFT" 10 hn
  · exact key "GOFT" 5 hn

example : ∀ s ∈ ["A1101".toList, " B 2".toList], s ≠ [] ∧ s.length ≤ 5 ∧ rstrip s = s := by decide

/-! ## C22: DIFFU -/

/-- C22. A table of diffusion coefficients comes back row by row, rounded, and
the reader leaves exactly what follows, if the next line starts neither with a
number nor with blanks. -/
theorem C22_diffu_round_trip (rows : List (List Val)) (h : ∀ r ∈ rows, DiffuFits r) :
    ∃ body, writeDiffu rows = .ok (headLine "DIFFU" :: body) ∧
      ∀ nxt rest, ¬ NumberText (strip (nxt.take 10)) → strip (nxt.take 10) ≠ [] →
        readDiffu (body ++ nxt :: rest) =
          .ok (rows.map fun r => dropTrailing (r.map (num 3)), nxt :: rest) := by
  refine ⟨rows.map (lineOf Fmt.diffu), ?_, ?_⟩
  · have hw : concatM (writeMulti Fmt.diffu) rows = .ok (rows.flatMap fun r => [lineOf Fmt.diffu r]) := by
      apply concatM_ok
      intro r hr
      obtain ⟨h1, ⟨v, hv, -⟩, h3⟩ := h r hr
      have hne : r ≠ [] := by rintro rfl; simp at hv
      have hc : chunks 8 r = [r] := by
        rw [chunks_cons 8 (by norm_num) r hne, List.take_of_length_le h1,
          List.drop_eq_nil_of_le h1, chunks_nil 8 (by norm_num)]
      rw [writeMulti_eq]
      · show Except.ok ((chunks 8 r).map _) = _
        rw [hc]; rfl
      · show ∀ c ∈ chunks 8 r, _
        rw [hc]
        intro c hc
        rw [List.mem_singleton.1 hc]
        exact allFit_replicate 8 (eCol 10 3) r h3
    have e1 : ∀ l : List (List Val), (l.flatMap fun r => [lineOf Fmt.diffu r]) =
        l.map (lineOf Fmt.diffu) := by
      intro l; induction l with
      | nil => rfl
      | cons a l ih => simp [ih]
    unfold writeDiffu block
    rw [hw, e1, ok_bind]
    simp
  · intro nxt rest h1 h2
    have hstop : ∀ s, diffuStep s (nxt :: rest) = .ok (.stop s, nxt :: rest) := by
      intro s
      have hv : readRecord Fmt.diffu nxt = .error .valueError :=
        readRecord_nonNumber (w := 10) (p := 3) (t := "1234567".toList) (by decide) rfl h2 h1 rfl
      have hb : isBlank nxt = false := by
        rw [Bool.eq_false_iff]
        intro hb
        rw [isBlank_iff] at hb
        exact h2 ((strip_eq_nil_iff _).2 fun c hc => hb c (List.mem_of_mem_take hc))
      simp [diffuStep, hb, hv]
    have hl := loop_items (step := diffuStep) (fun r => [lineOf Fmt.diffu r])
      (fun s r => s ++ [dropTrailing (r.map (num 3))]) (fun _ l => ∀ r ∈ l, DiffuFits r)
      (fun s r l rest' hi => by
        obtain ⟨g1, g2, g3⟩ := hi r (by simp)
        have hb := isBlank_numbers g1 g3 g2
        have hr := readRow 8 (w := 10) (p := 3) (by decide) g1 g3
        refine ⟨?_, fun x hx => hi x (by simp [hx])⟩
        simp only [List.singleton_append, diffuStep, next_cons, ok_bind]
        rw [show Fmt.diffu = List.replicate 8 (eCol 10 3) from rfl, hb, hr]
        simp only [Bool.false_eq_true, if_false, pruneNones_eq, dropTrailing_append_none])
      rows [] h (nxt :: rest) 1 (rows.map fun r => dropTrailing (r.map (num 3)), nxt :: rest)
      (fun _ => by
        have e2 : ∀ (l : List (List Val)) (acc : List (List Val)),
            l.foldl (fun s r => s ++ [dropTrailing (r.map (num 3))]) acc =
              acc ++ l.map fun r => dropTrailing (r.map (num 3)) := by
          intro l
          induction l with
          | nil => simp
          | cons a l ih => intro acc; simp [ih]
        simp [loop, hstop, e2])
    have e1 : rows.map (lineOf Fmt.diffu) = rows.flatMap fun r => [lineOf Fmt.diffu r] := by
      clear hl h
      induction rows with
      | nil => rfl
      | cons a l ih => simp [ih]
    rw [readDiffu, e1]
    refine whileTrue_of_loop hl ?_
    rw [← e1]
    simp

/-- C22. Every block header ends the table. -/
theorem C22_headers : ∀ kw ∈ ["ROCKS", "RPCAP", "FLAC", "MULTI", "SOLVR", "START", "PARAM", "SELEC",
    "INDOM", "MOMOP", "TIMES", "FOFT", "COFT", "GOFT", "GENER", "DIFFU", "OUTPU", "ELEME", "COORD",
    "CONNE", "INCON", "NOVER", "ENDCY"],
    ¬ NumberText (strip ((headLine kw).take 10)) ∧ strip ((headLine kw).take 10) ≠ [] := by
  decide +kernel

example : ∀ r ∈ [[.flt (.fin false (1 / 100000)), .none, .int 0], [Val.int 1]], DiffuFits r := by
  decide +kernel

/-- C22. Outside these conditions rows are lost: a row of missing values ends the
table, so the row after it is taken for the next block. -/
theorem C22_missing_row_ends_table :
    ∃ body, writeDiffu [[.int 1], [.none], [.int 2]] = .ok (headLine "DIFFU" :: body) ∧
      readDiffu body = .ok ([[.flt (.fin false 1)]], body.drop 2) := by
  refine ⟨[lineOf Fmt.diffu [.int 1], lineOf Fmt.diffu [.none], lineOf Fmt.diffu [.int 2]], ?_⟩
  decide +kernel

/-! ## C23: OUTPU -/

/-- C23, partial (missing: an output without variables, see `C23_violated`). The
format comes back in upper case and each variable under its name in lower case
with its arguments, and the reader takes exactly the lines of the block. -/
theorem C23_outpu_round_trip_partial (format : Str) (vars : List (Str × Args))
    (hf : format = [] ∨ FormatFits format) (hv : VarsFit vars) (hne : vars ≠ []) :
    ∃ body, writeOutpu format vars = .ok (headLine "OUTPU" :: body) ∧
      ∀ rest, readOutpu (body ++ rest) =
        .ok (⟨if format = [] then none else some (upper format),
          some (vars.map fun e => (lower e.1, argsBack e.2))⟩, rest) := by
  obtain ⟨hv1, hv2, hv3⟩ := hv
  set buf := vars.flatMap varLines with hbuf
  have hlen : buf.length < 10 ^ 15 := by
    refine lt_of_le_of_lt (le_of_eq ?_) hv3
    rw [hbuf, List.length_flatMap]
    congr 1
    apply List.map_congr_left
    intro e he
    rw [varLines, List.length_map]
    exact (rowsOfArgs_ok (hv2 e he).2).2.2.2.1
  have hns : strip (natStr buf.length) = natStr buf.length :=
    strip_eq_self fun c hc => isSpace_of_isDigit (natStr_isDigit _ c hc)
  have hcount : Fits (sCol 15) (.str (natStr buf.length)) := by
    refine ⟨?_, hns⟩
    show (natStr _).length ≤ 15
    rw [natStr, padDigits_length, numDigits]
    by_cases h0 : buf.length = 0
    · rw [h0]; decide
    · have := Nat.log_lt_of_lt_pow h0 hlen
      omega
  have a2 : AllFit Fmt.outpu2 [.str (natStr buf.length)] := ⟨hcount, trivial⟩
  have l2 : strip (lineOf Fmt.outpu2 [.str (natStr buf.length)]) = natStr buf.length := by
    rw [lineOf_eq a2, strip_recLine]
    have : List.flatMap (fun p => fieldOf p.1 p.2) (Fmt.outpu2.zip [.str (natStr buf.length)]) =
        padRight 15 (natStr buf.length) := by
      simp [Fmt.outpu2, fieldOf, toStr, List.take_of_length_le hcount.1]
    rw [this, strip_padRight, hns]
  have hdig : strIsDigit (natStr buf.length) = true :=
    strIsDigit_of (natStr_ne_nil _) (natStr_isDigit _)
  have hwv : concatM writeVar vars = .ok buf :=
    concatM_ok fun e he => writeVar_eq (hv2 e he).1 (hv2 e he).2
  have hread : ∀ rest, outpuVars (digVal (natStr buf.length)) [] (buf ++ rest) =
      .ok (vars.map (fun e => (lower e.1, (rowsOfArgs e.2).map dropTrailing)), rest) := by
    intro rest
    rw [digVal_natStr]
    exact outpuVars_all vars hv2 [] (by simpa using hv1) rest
  have hback : (vars.map (fun e => (lower e.1, (rowsOfArgs e.2).map dropTrailing))).map
      (fun e => (e.1, argsOf e.2)) = vars.map fun e => (lower e.1, argsBack e.2) := by
    rw [List.map_map]
    apply List.map_congr_left
    intro e he
    simp only [Function.comp, (rowsOfArgs_ok (hv2 e he).2).2.2.2.2]
  by_cases h0 : format = []
  · refine ⟨lineOf Fmt.outpu2 [.str (natStr buf.length)] :: buf, ?_, ?_⟩
    · unfold writeOutpu block
      simp only [h0, if_true, ok_bind, hne, if_false, hwv, writeRecord_eq a2, List.nil_append,
        Bool.false_eq_true, List.append_nil]
    · intro rest
      have hf : readFormat (lineOf Fmt.outpu2 [.str (natStr buf.length)] :: (buf ++ rest)) =
          .ok (none, natStr buf.length, buf ++ rest) := by
        simp [readFormat, l2, hdig]
      rw [List.cons_append, readOutpu, hf, ok_bind]
      simp only [hdig, if_true, hread, ok_bind, hback, h0]
  · have hF := hf.resolve_left h0
    have hu := textFits_upper hF.1
    have a1 : AllFit Fmt.outpu1 [.str (upper format)] := ⟨⟨hu.2.1, hu.2.2⟩, trivial⟩
    have l1 : strip (lineOf Fmt.outpu1 [.str (upper format)]) = upper format := by
      rw [lineOf_eq a1, strip_recLine]
      have : List.flatMap (fun p => fieldOf p.1 p.2) (Fmt.outpu1.zip [.str (upper format)]) =
          padRight 20 (upper format) := by
        simp [Fmt.outpu1, fieldOf, toStr, List.take_of_length_le hu.2.1]
      rw [this, strip_padRight, hu.2.2]
    refine ⟨lineOf Fmt.outpu1 [.str (upper format)] ::
      lineOf Fmt.outpu2 [.str (natStr buf.length)] :: buf, ?_, ?_⟩
    · unfold writeOutpu block
      simp only [h0, if_true, ok_bind, hne, if_false, hwv, writeRecord_eq a2, writeRecord_eq a1,
        List.singleton_append, Bool.false_eq_true, List.append_nil]
    · intro rest
      have hf : readFormat (lineOf Fmt.outpu1 [.str (upper format)] ::
          lineOf Fmt.outpu2 [.str (natStr buf.length)] :: (buf ++ rest)) =
          .ok (some (upper format), natStr buf.length, buf ++ rest) := by
        simp [readFormat, l1, l2, hu.1, strIsDigit_upper, hF.2]
      rw [List.cons_append, List.cons_append, readOutpu, hf, ok_bind]
      simp only [hdig, if_true, hread, ok_bind, hback, h0, if_false]

example : FormatFits "csv".toList ∧ VarsFit [("pressure".toList, .one .none),
    ("fraction".toList, .list [.int 2, .int 1]), ("Flow".toList, .rows [[.int 1, .int 2], [.int 3]])] := by
  decide +kernel

/-- C23. The code violates the rest of the property: if only a format is given,
the reader takes the line that follows the block, for instance the header of the
next block; and if nothing is given it takes that header for the format. -/
theorem C23_violated (format : Str) (hf : FormatFits format) :
    (∃ line, writeOutpu format [] = .ok [headLine "OUTPU", line] ∧
      ∀ rest, readOutpu (line :: headLine "ELEME" :: rest) = .ok (⟨some (upper format), none⟩, rest)) ∧
    (writeOutpu [] [] = .ok [headLine "OUTPU"] ∧
      ∀ nxt rest, readOutpu (headLine "ELEME" :: nxt :: rest) =
        .ok (⟨some (strip (headLine "ELEME")), none⟩, rest) ∨ strIsDigit (strip nxt) = true) := by
  have hu := textFits_upper hf.1
  have a1 : AllFit Fmt.outpu1 [.str (upper format)] := ⟨⟨hu.2.1, hu.2.2⟩, trivial⟩
  have l1 : strip (lineOf Fmt.outpu1 [.str (upper format)]) = upper format := by
    rw [lineOf_eq a1, strip_recLine]
    have : List.flatMap (fun p => fieldOf p.1 p.2) (Fmt.outpu1.zip [.str (upper format)]) =
        padRight 20 (upper format) := by
      simp [Fmt.outpu1, fieldOf, toStr, List.take_of_length_le hu.2.1]
    rw [this, strip_padRight, hu.2.2]
  have hd : strIsDigit (strip (headLine "ELEME")) = false := by decide
  have hb : strip (headLine "ELEME") ≠ [] := by decide
  have h0 := hf.1.1
  refine ⟨⟨lineOf Fmt.outpu1 [.str (upper format)], ?_, ?_⟩, rfl, ?_⟩
  · unfold writeOutpu block
    simp only [h0, if_false, if_true, ok_bind, writeRecord_eq a1]
    rfl
  · intro rest
    simp [readOutpu, readFormat, l1, hu.1, strIsDigit_upper, hf.2, hd]
  · intro nxt rest
    by_cases h : strIsDigit (strip nxt) = true
    · exact Or.inr h
    · left
      simp [readOutpu, readFormat, hd, hb, h]

example : FormatFits "tecplot".toList := by decide

end Verif.Props
