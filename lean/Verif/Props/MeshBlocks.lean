import Verif.Lemmas.Incon

/-!
# Properties of the ELEME, COORD, CONNE and INCON blocks (C24-C27)
-/

set_option linter.unusedSimpArgs false

namespace Verif.Props
open Verif.Py Verif.Model Verif.Spec

/-! ## C24: ELEME -/

/-- C24, partial (missing: elements without material or with a name made of
digits only, see `C24_violated`). The elements come back under their labels, in
the order of the order list if there is one, with their sequence numbers,
material, volume, area, permeability modifier and centre, for label lengths 5 to
9, given or detectable from the first record; the reader takes exactly the lines
of the block. -/
theorem C24_eleme_round_trip_partial (L : ℕ) (given : Option ℕ) (order : Option (List Val))
    (elems : List (Val × Elem)) (hl : LabelsFit L (elems.map (·.1)))
    (ho : OrderOk order (elems.map (·.1))) (hf : ∀ e ∈ elems, ElemFits L e.2)
    (hd : given = some L ∨ given = none ∧ ∀ e ∈ (rowsFor order elems).head?,
      Detectable L e.1 (seqText (elemWidths L).1 e.2.nseq)) :
    ∃ body, writeEleme order elems = .ok (headLine "ELEME" :: body) ∧
      ∀ rest, readEleme given (body ++ rest) =
        .ok (((rowsFor order elems).map fun e => (e.1, elemBack e.2),
          (rowsFor order elems).map (·.1)), rest) := by
  have hL : 5 ≤ L ∧ L ≤ 9 := ⟨hl.1, hl.2.1⟩
  obtain ⟨h1, h2, h3, h4⟩ := rowsFor_spec hl.2.2.1 ho
  have hk : ∀ e ∈ rowsFor order elems, NameFits L e.1 := fun e he =>
    hl.2.2.2.1 e.1 (List.mem_map_of_mem (h2 e he))
  have hfr : ∀ e ∈ rowsFor order elems, ElemFits L e.2 := fun e he => hf e (h2 e he)
  refine ⟨(rowsFor order elems).map (fun e => lineOf (elemFmt L) (elemVals e.1 e.2)) ++ [['\n']],
    ?_, ?_⟩
  · have hw : concatM (fun k => dictGet elems k >>= fun e => writeElem (elemFmt L) k e)
        (rowOrder order elems) =
        .ok ((rowsFor order elems).map fun e => lineOf (elemFmt L) (elemVals e.1 e.2)) := by
      rw [← h1]
      have := concat_rows elems (fun k e => writeElem (elemFmt L) k e)
        (fun e => [lineOf (elemFmt L) (elemVals e.1 e.2)]) _ h3 fun e he => writeElem_eq (hk e he) (hfr e he)
      rwa [← List.map_eq_flatMap] at this
    unfold writeEleme block
    simp only [maxLen_eq hl, (formatFor_eleme hL).1, ok_bind, hw, if_true]
    rfl
  · intro rest
    rw [List.append_assoc]
    refine read_rows (step := elemeStep) (table := Fmt.eleme) (L := L)
      (fun e => lineOf (elemFmt L) (elemVals e.1 e.2)) elemBack (rowsFor order elems) h4 ?_ ?_ ?_ rest
    · intro e he
      rcases hd with rfl | ⟨rfl, hd⟩
      · exact labelLength_given hL.1 _
      · have hm := List.mem_of_mem_head? he
        exact detect_elem hL (hk e hm) (hfr e hm) (hd e he)
    · exact fun e he s rest => elemeStep_line hL (hk e he) (hfr e he) s rest
    · intro fm s rest
      simp [elemeStep, isBlank_newline]

/-- An element with material `SAND`. -/
def sandElem (nseq : Val) (v x : ℚ≥0) : Elem where
  nseq := nseq
  nadd := .none
  material := .str "SAND".toList
  volume := .flt (.fin false v)
  area := .none
  permMod := .none
  center := .list [.flt (.fin false x), .flt (.fin false 0), .flt (.fin true 25)]

/-- An element with material number 12. -/
def numElem : Elem where
  nseq := .int 3
  nadd := .int 2
  material := .int 12
  volume := .int 100
  area := .flt (.fin false (1 / 3))
  permMod := .none
  center := .list [.none, .int 4, .int 5]

example : let es := [(Val.str "AAA12345".toList, sandElem .none 1000 50),
      (.str "AAA12346".toList, numElem), (.str "AAA12347".toList, sandElem (.int 7) 20 3)]
    LabelsFit 8 (es.map (·.1)) ∧
      OrderOk (some [.str "AAA12347".toList, .str "AAA12345".toList]) (es.map (·.1)) ∧
      (∀ e ∈ es, ElemFits 8 e.2) ∧
      (∀ e ∈ (rowsFor (some [.str "AAA12347".toList, .str "AAA12345".toList]) es).head?,
        Detectable 8 e.1 (seqText (elemWidths 8).1 e.2.nseq)) := by
  decide +kernel

/-- The header of the next block, used as what follows a block. -/
def nextBlock : List Str := [headLine "CONNE"]

/-- C24. The code violates the round trip for an element without material, which
is written but cannot be read (`AttributeError`), and for a material name made of
digits, which comes back as an integer; an element without centre cannot be
written (`TypeError`). -/
theorem C24_violated :
    (∃ e body, e.material = .str [] ∧ writeEleme none [(.str "AAA11".toList, e)] =
        .ok (headLine "ELEME" :: body) ∧
      readEleme none (body ++ nextBlock) = .error .attributeError) ∧
    (∃ e body, e.material = .str "12".toList ∧ writeEleme none [(.str "AAA11".toList, e)] =
        .ok (headLine "ELEME" :: body) ∧
      ∃ e', readEleme none (body ++ nextBlock) =
        .ok (([(.str "AAA11".toList, e')], [.str "AAA11".toList]), nextBlock) ∧
        e'.material = .int 12) ∧
    (∀ e, centerOf e.center = [] → ∀ order k lines, dictGet [(k, e)] k = .ok e →
      order = none → writeEleme order [(k, e)] ≠ .ok lines) := by
  refine ⟨?_, ?_, ?_⟩
  · let e : Elem := { sandElem .none 1 2 with material := .str [] }
    refine ⟨e, [lineOf (elemFmt 5) (elemVals (.str "AAA11".toList) e), ['\n']], rfl, ?_⟩
    decide +kernel
  · let e : Elem := { sandElem .none 1 2 with material := .str "12".toList }
    refine ⟨e, [lineOf (elemFmt 5) (elemVals (.str "AAA11".toList) e), ['\n']], rfl, ?_,
      { elemBack e with material := .int 12 }, ?_⟩
    · decide +kernel
    · decide +kernel
  · rintro e he order k lines - rfl hw
    unfold writeEleme block at hw
    have hd : dictGet [(k, e)] k = .ok e := by simp [dictGet]
    simp only [rowOrder, List.map_cons, List.map_nil, concatM, hd, ok_bind] at hw
    have hbad : ∀ fmt, ∃ x, writeElem fmt k e = .error x := by
      intro fmt
      unfold writeElem
      cases hc : e.center with
      | absent => exact ⟨.typeError, rfl⟩
      | null => exact ⟨.typeError, rfl⟩
      | list l =>
        rw [hc] at he
        have : l = [] := he
        subst this
        exact ⟨.indexError, rfl⟩
    cases hm : maxLen [k] with
    | error x => rw [hm] at hw; cases hw
    | ok n =>
      rw [hm, ok_bind] at hw
      cases hff : formatFor Fmt.eleme n with
      | error x => rw [hff] at hw; cases hw
      | ok fmt =>
        obtain ⟨x, hx⟩ := hbad fmt
        rw [hff, ok_bind, hx] at hw
        cases hw

/-! ## C25: COORD -/

/-- C25. The centres written to COORD are read back in the order in which the
elements are written; given the elements read from ELEME with their order list,
every element receives its own centre (with fourteen digits instead of the four
of ELEME) and nothing else changes; the reader takes exactly the lines of the
block. -/
theorem C25_coord_round_trip (order : Option (List Val)) (elems : List (Val × Elem))
    (hn : (elems.map (·.1)).Nodup) (ho : OrderOk order (elems.map (·.1)))
    (hf : ∀ e ∈ elems, CenterFits e.2.center) :
    ∃ body cs, writeCoord order elems = .ok (headLine "COORD" :: body) ∧
      (∀ rest, readCoord (body ++ rest) = .ok (cs, rest)) ∧
      cs = (rowsFor order elems).map (fun e => (centerOf e.2.center).map (num 13)) ∧
      ∀ f : Val × Elem → Elem,
        setCenters ((rowsFor order elems).map fun e => (e.1, f e))
          (((rowsFor order elems).map (·.1)).zip cs) =
        .ok ((rowsFor order elems).map fun e =>
          (e.1, { f e with center := .list ((centerOf e.2.center).map (num 13)) })) := by
  obtain ⟨h1, h2, h3, h4⟩ := rowsFor_spec hn ho
  have hfr : ∀ e ∈ rowsFor order elems, CenterFits e.2.center := fun e he => hf e (h2 e he)
  refine ⟨(rowsFor order elems).map (fun e => lineOf Fmt.coord (centerOf e.2.center)) ++ [['\n']],
    _, ?_, ?_, rfl, ?_⟩
  · have hw : concatM (fun k => dictGet elems k >>= fun e => writeCenter e.center)
        (rowOrder order elems) =
        .ok ((rowsFor order elems).map fun e => lineOf Fmt.coord (centerOf e.2.center)) := by
      rw [← h1]
      have := concat_rows elems (fun _ e => writeCenter e.center)
        (fun e => [lineOf Fmt.coord (centerOf e.2.center)]) _ h3 fun e he => writeCenter_eq (hfr e he)
      rwa [← List.map_eq_flatMap] at this
    unfold writeCoord block
    simp only [hw, ok_bind, if_true]
    rfl
  · intro rest
    rw [List.append_assoc, List.map_eq_flatMap]
    have := whileTrue_items (step := coordStep) (fun e : Val × Elem =>
      [lineOf Fmt.coord (centerOf e.2.center)])
      (fun s e => s ++ [(centerOf e.2.center).map (num 13)])
      (fun e => CenterFits e.2.center) (by simp) (fun s e rest he => coordStep_line he s rest)
      (rowsFor order elems) hfr [] ['\n'] rest (fun s => by simp [coordStep, isBlank_newline])
    have hfold : ∀ (l : List (Val × Elem)) (s : List (List Val)),
        l.foldl (fun s e => s ++ [(centerOf e.2.center).map (num 13)]) s =
          s ++ l.map fun e => (centerOf e.2.center).map (num 13) := by
      intro l
      induction l with
      | nil => simp
      | cons e l ih => intro s; simp [ih]
    rw [readCoord, List.singleton_append, this, hfold]
    simp
  · intro f
    have := setCenters_eq f (fun e => (centerOf e.center).map (num 13)) (rowsFor order elems) []
      (by simpa using h4)
    simp only [List.map_nil, List.nil_append] at this
    rw [← this, List.zip_map']

example : let es := [(Val.str "AAA12345".toList, sandElem .none 1000 50),
      (.str "AAA12346".toList, numElem), (.str "AAA12347".toList, sandElem (.int 7) 20 3)]
    (es.map (·.1)).Nodup ∧
      OrderOk (some [.str "AAA12347".toList, .str "AAA12345".toList]) (es.map (·.1)) ∧
      (∀ e ∈ es, CenterFits e.2.center) := by
  decide +kernel

/-- C25, a limit of what the file can hold: a centre without any component is a
blank record, which ends the block, so that the centres after it are lost. -/
theorem C25_missing_centre_ends_block : ∃ (es : List (Val × Elem)) (body : List Str),
    writeCoord none es = .ok (headLine "COORD" :: body) ∧ es.length = 2 ∧
      ∃ rest, readCoord (body ++ nextBlock) = .ok ([], rest) ∧ rest ≠ nextBlock := by
  let e1 := (Val.str "AAA11".toList,
    { sandElem .none 1 2 with center := .list [.none, .none, .none] })
  let e2 := (Val.str "AAA12".toList, sandElem .none 1 2)
  refine ⟨[e1, e2], [lineOf Fmt.coord (centerOf e1.2.center),
    lineOf Fmt.coord (centerOf e2.2.center), ['\n']], ?_, rfl,
    lineOf Fmt.coord (centerOf e2.2.center) :: ['\n'] :: nextBlock, ?_⟩
  · decide +kernel
  · decide +kernel

/-! ## C26: CONNE -/

/-- C26. The connections come back under their names, in the order of the order
list if there is one, with sequence numbers, direction, distances, area, angle
and emittance factor, for label lengths 5 to 9, given or detectable; the reader
takes exactly the lines of the block. A missing pair of sequence numbers comes
back as a pair of missing numbers. -/
theorem C26_conne_round_trip (L : ℕ) (given : Option ℕ) (order : Option (List Val))
    (conns : List (Val × Conn)) (hl : ConnNamesFit L (conns.map (·.1)))
    (ho : OrderOk order (conns.map (·.1))) (hf : ∀ e ∈ conns, ConnFits L e.2)
    (hd : given = some L ∨ given = none ∧ ∀ e ∈ (rowsFor order conns).head?,
      DetectablePair L e.1 ∧ L < (textOf e.1).length) :
    ∃ body, writeConne order conns = .ok (headLine "CONNE" :: body) ∧
      ∀ rest, readConne given (body ++ rest) =
        .ok (((rowsFor order conns).map fun e => (e.1, connBack e.2),
          (rowsFor order conns).map (·.1)), rest) := by
  obtain ⟨hL1, hL2, hnd, hnames, hlong⟩ := hl
  have hL : 5 ≤ L ∧ L ≤ 9 := ⟨hL1, hL2⟩
  obtain ⟨h1, h2, h3, h4⟩ := rowsFor_spec hnd ho
  have hk : ∀ e ∈ rowsFor order conns, NameFits (2 * L) e.1 ∧
      (textOf e.1).take 3 ≠ ['+', '+', '+'] := fun e he =>
    hnames e.1 (List.mem_map_of_mem (h2 e he))
  have hfr : ∀ e ∈ rowsFor order conns, ConnFits L e.2 := fun e he => hf e (h2 e he)
  have hmax : maxLen (conns.map (·.1)) = .ok (2 * L) :=
    maxLen_eq' (fun k hk => (hnames k hk).1)
      (fun k hk => (keyLen_of_nameFits (hnames k hk).1).2) hlong
  refine ⟨(rowsFor order conns).map (fun e => lineOf (connFmt L) (connVals e.1 e.2)) ++ [['\n']],
    ?_, ?_⟩
  · have hw : concatM (fun k => dictGet conns k >>= fun e => writeConn (connFmt L) k e)
        (rowOrder order conns) =
        .ok ((rowsFor order conns).map fun e => lineOf (connFmt L) (connVals e.1 e.2)) := by
      rw [← h1]
      have := concat_rows conns (fun k e => writeConn (connFmt L) k e)
        (fun e => [lineOf (connFmt L) (connVals e.1 e.2)]) _ h3 fun e he => writeConn_eq (hk e he).1 (hfr e he)
      rwa [← List.map_eq_flatMap] at this
    unfold writeConne block
    simp only [hmax, ok_bind, show 2 * L / 2 = L by omega, formatFor_conne hL, hw, if_true]
    rfl
  · intro rest
    rw [List.append_assoc]
    refine read_rows (step := conneStep) (table := Fmt.conne) (L := L)
      (fun e => lineOf (connFmt L) (connVals e.1 e.2)) connBack (rowsFor order conns) h4 ?_ ?_ ?_ rest
    · intro e he
      rcases hd with rfl | ⟨rfl, hd⟩
      · exact labelLength_given hL.1 _
      · have hm := List.mem_of_mem_head? he
        exact detect_conn hL (hk e hm).1 (hfr e hm) (hd e he).1 (hd e he).2
    · exact fun e he s rest => conneStep_line hL (hk e he).1 (hk e he).2 (hfr e he) s rest
    · intro fm s rest
      simp [conneStep, stopsRows, isBlank_newline]

/-- A connection. -/
def plainConn (d : ℤ) (a : ℚ≥0) : Conn where
  nseq := .int 2
  nadd := none
  direction := .int d
  distances := some [.flt (.fin false (1 / 2)), .int 1]
  area := .flt (.fin false a)
  angle := .flt (.fin true 1)
  emittance := .none

/-- A connection with sequence increments. -/
def seqConn : Conn where
  nseq := .none
  nadd := some [.int 1, .int 2]
  direction := .int 3
  distances := some [.int 1, .int 1]
  area := .int 5
  angle := .none
  emittance := .flt (.fin false (2 / 3))

example : let cs := [(Val.str "AAA123AAA124".toList, plainConn 1 3),
      (.str "AAA124AAA125".toList, seqConn)]
    ConnNamesFit 6 (cs.map (·.1)) ∧ OrderOk none (cs.map (·.1)) ∧ (∀ e ∈ cs, ConnFits 6 e.2) ∧
      (∀ e ∈ (rowsFor none cs).head?, DetectablePair 6 e.1 ∧ 6 < (textOf e.1).length) := by
  decide +kernel

/-! ## C27: INCON -/

/-- C27, partial (missing: entries with more than four values after entries with
at most four and entries whose values after the fourth are all missing, where the
code fails, see `C27_violated`). The initial conditions come back under their
labels, in the order of the order list if there is one, with porosity, user
fields and up to eight values, without missing values at the end, for label
lengths 5 to 9, given or detectable; the reader takes exactly the lines of the
block. -/
theorem C27_incon_round_trip_partial (L : ℕ) (given : Option ℕ) (order : Option (List Val))
    (ics : List (Val × Incon)) (hl : LabelsFit L (ics.map (·.1)))
    (hlab : ∀ e ∈ ics, InconLabel e.1) (ho : OrderOk order (ics.map (·.1)))
    (hf : ∀ e ∈ ics, InconFits e.2) (hlong : LongEntriesFirst (rowsFor order ics))
    (hd : given = some L ∨ given = none ∧ ∀ e ∈ (rowsFor order ics).head?, Detectable L e.1 []) :
    ∃ body, writeIncon order ics = .ok (headLine "INCON" :: body) ∧
      ∀ rest, readIncon given (body ++ rest) =
        .ok (((rowsFor order ics).map fun e => (e.1, inconBack e.2),
          (rowsFor order ics).map (·.1)), rest) := by
  have hL : 5 ≤ L ∧ L ≤ 9 := ⟨hl.1, hl.2.1⟩
  obtain ⟨h1, h2, h3, h4⟩ := rowsFor_spec hl.2.2.1 ho
  have hk : ∀ e ∈ rowsFor order ics, NameFits L e.1 ∧ InconLabel e.1 ∧ InconFits e.2 :=
    fun e he => ⟨hl.2.2.2.1 e.1 (List.mem_map_of_mem (h2 e he)), hlab e (h2 e he), hf e (h2 e he)⟩
  refine ⟨(rowsFor order ics).flatMap (inconLines L) ++ [['\n']], ?_, ?_⟩
  · have hw : concatM (fun k => dictGet ics k >>= fun e => writeInconRow (inconFmt L) k e)
        (rowOrder order ics) = .ok ((rowsFor order ics).flatMap (inconLines L)) := by
      rw [← h1]
      exact concat_rows ics (fun k e => writeInconRow (inconFmt L) k e) (inconLines L) _ h3
        fun e he => writeInconRow_eq (hk e he).1 (hk e he).2.2
    unfold writeIncon block
    simp only [maxLen_eq hl, (formatFor_incon hL).1, ok_bind, hw, if_true]
    rfl
  · intro rest
    obtain ⟨two, hloop⟩ := loop_incon hL (rowsFor order ics) ([], []) true (stop := ['\n']) (by decide) rest hk hlong (by simp)
    have hw := whileTrue_of_loop hloop (by
      have := length_le_flatMap (inconLines L) (rowsFor order ics)
        (fun e _ => by simp [inconLines])
      simp only [List.length_append, List.length_cons]
      omega)
    rw [foldl_addRow inconBack _ _ (by simpa using h4)] at hw
    rw [List.append_assoc, List.singleton_append]
    cases hr : rowsFor order ics with
    | nil => simp [readIncon, whileTrue, loop, inconStep, stopsRows, isBlank_newline]
    | cons e l =>
      rw [hr] at hw hd hk
      have hll : labelLength given (lineOf (inconFmt L) (inconVals e.1 e.2)) = L := by
        rcases hd with rfl | ⟨rfl, hd⟩
        · exact labelLength_given hL.1 _
        · exact detect_incon hL (hk e (by simp)).1 (hk e (by simp)).2.2 (hd e (by simp))
      have hnx : ∃ t, (e :: l).flatMap (inconLines L) ++ ['\n'] :: rest =
          lineOf (inconFmt L) (inconVals e.1 e.2) :: t := by
        simp [inconLines]
      obtain ⟨t, ht⟩ := hnx
      have hnx : next ((e :: l).flatMap (inconLines L) ++ ['\n'] :: rest) =
          .ok (lineOf (inconFmt L) (inconVals e.1 e.2), t) := by rw [ht]; rfl
      unfold readIncon
      rw [hnx, ok_bind]
      simp only [hll, hw, ok_bind, List.nil_append]

/-- An entry with one value. -/
def shortIncon : Incon where
  porosity := .flt (.fin false (1 / 4))
  userx := some [.none, .int 3]
  values := some [.int 101325, .none]

/-- An entry with five values. -/
def longIncon : Incon where
  porosity := .none
  userx := some [.none, .none, .none, .none, .none]
  values := some [.int 1, .int 2, .int 3, .none, .flt (.fin false (1 / 3))]

example : let cs := [(Val.str "AAA12".toList, shortIncon), (.str "AAA13".toList, longIncon),
      (.str "AAA14".toList, { shortIncon with porosity := .none })]
    let o := some [Val.str "AAA13".toList, .str "AAA14".toList, .str "AAA12".toList]
    LabelsFit 5 (cs.map (·.1)) ∧ (∀ e ∈ cs, InconLabel e.1) ∧ OrderOk o (cs.map (·.1)) ∧
      (∀ e ∈ cs, InconFits e.2) ∧ LongEntriesFirst (rowsFor o cs) ∧
      (∀ e ∈ (rowsFor o cs).head?, Detectable 5 e.1 []) := by
  decide +kernel

/-- The header of the block after INCON. -/
def nextStart : List Str := [headLine "START"]

/-- C27. The code violates the round trip without the condition on the order: an
entry with five values after an entry with two is misread, its fifth value being
taken for the next element, which ends in a `ValueError`; and
an entry whose values after the fourth are missing ends the block early: the
entry after it is lost without an error. -/
theorem C27_violated :
    (∃ ics body, LabelsFit 5 (ics.map (·.1)) ∧ (∀ e ∈ ics, InconLabel e.1 ∧ InconFits e.2) ∧
      writeIncon none ics = .ok (headLine "INCON" :: body) ∧
      readIncon none (body ++ nextStart) = .error .valueError) ∧
    (∃ e1 e2 : Val × Incon, ∃ body, LabelsFit 5 [e1.1, e2.1] ∧ InconLabel e1.1 ∧ InconLabel e2.1 ∧
      writeIncon none [e1, e2] = .ok (headLine "INCON" :: body) ∧
      ∃ t rest, readIncon none (body ++ nextStart) = .ok (([(e1.1, t)], [e1.1]), rest) ∧
        rest ≠ nextStart) := by
  constructor
  · refine ⟨[(.str "AAA12".toList, shortIncon), (.str "AAA13".toList, longIncon)],
      inconLines 5 (.str "AAA12".toList, shortIncon) ++
        inconLines 5 (.str "AAA13".toList, longIncon) ++ [['\n']], ?_⟩
    decide +kernel
  · let gap : Incon := ⟨.none, some [], some [.int 1, .int 2, .int 3, .int 4, .none]⟩
    refine ⟨(.str "AAA12".toList, gap), (.str "AAA13".toList, shortIncon),
      inconLines 5 (.str "AAA12".toList, gap) ++
        inconLines 5 (.str "AAA13".toList, shortIncon) ++ [['\n']], ?_⟩
    refine ⟨by decide +kernel, by decide +kernel, by decide +kernel, by decide +kernel,
      ⟨.none, none, some ([.int 1, .int 2, .int 3, .int 4].map (num 13))⟩,
      inconLines 5 (.str "AAA13".toList, shortIncon) ++ ['\n'] :: nextStart, ?_⟩
    decide +kernel

end Verif.Props
