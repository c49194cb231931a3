import Verif.Lemmas.Refuse

/-!
# What the input file writer refuses (C85)
-/

namespace Verif.Props
open Verif.Py Verif.Model Verif.Spec

/-! ## Records -/

/-- C85. A record is refused just if one of its values cannot be written in its column, with
the exception of the first such value. -/
theorem C85_record (ts : List Tok) (vs : List Val) (e : PyErr) :
    writeRecord ts vs = .error e ↔ ((ts.zip vs).findSome? fun p => refusal p.1.kind p.2) = some e :=
  writeRecord_error ts vs e

example : writeRecord Fmt.rocks1 [.str "ROCK1".toList, .int 1, .flt (.fin false 2600)] ≠ .error .valueError ∧
    writeRecord Fmt.rocks1 [.int 1, .int 1, .flt (.fin false 2600)] = .error .valueError := by decide +kernel

/-! ## Labels -/

/-- C85. Blocks of rows without any row, or with a label that is no text, are refused. -/
theorem C85_labels (order : Option (List Val)) (elems : List (Val × Elem)) (conns : List (Val × Conn)) (ics : List (Val × Incon)) :
    writeEleme order [] = .error .valueError ∧ writeConne order [] = .error .valueError ∧
      writeIncon order [] = .error .valueError ∧ writeGener [] = .error .valueError ∧
      ((∃ k ∈ elems.map (·.1), NoText k) → writeEleme order elems = .error .typeError) ∧
      ((∃ k ∈ conns.map (·.1), NoText k) → writeConne order conns = .error .typeError) ∧
      ((∃ k ∈ ics.map (·.1), NoText k) → writeIncon order ics = .error .typeError) := by
  refine ⟨rfl, rfl, rfl, rfl, fun h => ?_, fun h => ?_, fun h => ?_⟩
  · unfold writeEleme
    rw [maxLen_noText h]
    rfl
  · unfold writeConne
    rw [maxLen_noText h]
    rfl
  · unfold writeIncon
    rw [maxLen_noText h]
    rfl

/-- C85. Labels of fewer than five or more than nine characters are refused; for connections
half of the length of the longest label counts. -/
theorem C85_label_length (order : Option (List Val)) (elems : List (Val × Elem)) (conns : List (Val × Conn))
    (ics : List (Val × Incon)) (gens : List (Val × Gen)) (n : ℕ) (hn : ¬ (5 ≤ n ∧ n ≤ 9)) :
    (Longest n (elems.map (·.1)) → writeEleme order elems = .error .keyError) ∧
      (∀ m, m / 2 = n → Longest m (conns.map (·.1)) → writeConne order conns = .error .keyError) ∧
      (Longest n (ics.map (·.1)) → writeIncon order ics = .error .keyError) ∧
      ((∀ g ∈ gens, ∃ c, g.2 = .single c) → Longest n (gens.map (·.1)) → writeGener gens = .error .keyError) := by
  obtain ⟨h1, h2, h3, h4⟩ := tables_none hn
  refine ⟨fun h => ?_, fun m hm h => ?_, fun h => ?_, fun hs h => ?_⟩
  · unfold writeEleme
    rw [maxLen_longest h, ok_bind, formatFor_none h1]
    rfl
  · unfold writeConne
    rw [maxLen_longest h, ok_bind, hm, formatFor_none h2]
    rfl
  · unfold writeIncon
    rw [maxLen_longest h, ok_bind, formatFor_none h3]
    rfl
  · obtain ⟨cs, hcs⟩ := splitGens_singles hs
    unfold writeGener
    rw [hcs, ok_bind, maxLen_longest h, ok_bind, formatFor_none h4]
    rfl

example : Longest 4 [.str "A111".toList, .str "B1".toList] ∧ Longest 11 [.str "A1111B12345".toList] := by
  refine ⟨⟨⟨"A111".toList, by simp, rfl⟩, ?_⟩, ⟨⟨"A1111B12345".toList, by simp, rfl⟩, ?_⟩⟩
  · intro k hk
    simp only [List.mem_cons, List.not_mem_nil, or_false] at hk
    rcases hk with rfl | rfl <;> exact ⟨_, rfl, by decide⟩
  · intro k hk
    simp only [List.mem_cons, List.not_mem_nil, or_false] at hk
    rcases hk with rfl
    exact ⟨_, rfl, by decide⟩

/-! ## Rows -/

/-- C85. A row named in the order that does not exist is refused, if the rows before it are written. -/
theorem C85_missing_row (order : Option (List Val)) (k : Val) (a b : List Val) (elems : List (Val × Elem))
    (conns : List (Val × Conn)) (ics : List (Val × Incon)) (text : List Str) (ho : order = some (a ++ k :: b)) :
    (k ∉ elems.map (·.1) → writeEleme (some a) elems = .ok text → writeEleme order elems = .error .keyError) ∧
      (k ∉ elems.map (·.1) → writeCoord (some a) elems = .ok text → writeCoord order elems = .error .keyError) ∧
      (k ∉ conns.map (·.1) → writeConne (some a) conns = .ok text → writeConne order conns = .error .keyError) ∧
      (k ∉ ics.map (·.1) → writeIncon (some a) ics = .ok text → writeIncon order ics = .error .keyError) := by
  subst ho
  refine ⟨fun h ha => ?_, fun h ha => ?_, fun h ha => ?_, fun h ha => ?_⟩
  · rw [writeEleme_rows] at ha ⊢
    exact rows_error ha fun t _ => by rw [dictGet_missing h]; rfl
  · rw [writeCoord_rows] at ha ⊢
    exact rows_error (f := fun _ k => dictGet elems k >>= fun e => writeCenter e.center) ha
      fun t _ => by rw [dictGet_missing h]; rfl
  · rw [writeConne_rows] at ha ⊢
    exact rows_error ha fun t _ => by rw [dictGet_missing h]; rfl
  · rw [writeIncon_rows] at ha ⊢
    exact rows_error ha fun t _ => by rw [dictGet_missing h]; rfl

example : let e : Elem := ⟨.none, .none, .str "ROCK1".toList, .none, .none, .none, .list [.none, .none, .none]⟩
    writeEleme (some [.str "A1111".toList]) [(.str "A1111".toList, e)] ≠ .error .keyError ∧
      writeEleme (some [.str "A1111".toList, .str "A1112".toList]) [(.str "A1111".toList, e)] = .error .keyError ∧
      writeEleme none [(.int 3, e)] = .error .typeError := by
  decide +kernel

/-- C24, C85. A material given as truth value is written as the number 1 or 0. -/
theorem C24_bool_material (fmt : List Tok) (k : Val) (e : Elem) (b : Bool) :
    writeElem fmt k { e with material := .bool b } = writeElem fmt k { e with material := .int (if b then 1 else 0) } := by
  cases b <;> rfl

example : writeElem ((Fmt.eleme 5).getD []) (.str "A1111".toList) ⟨.none, .none, .bool true, .none, .none, .none, .list [.none, .none, .none]⟩ =
    .ok ["A1111              1                                                            \n".toList] := by decide +kernel

/-- C85. An element without centre, or with a centre of fewer than three coordinates, is
refused, if the rows before it are written. -/
theorem C85_eleme (order : Option (List Val)) (elems : List (Val × Elem)) (k : Val) (e : Elem) (a b : List Val) (text : List Str)
    (ho : order.getD (elems.map (·.1)) = a ++ k :: b) (he : elems.lookup k = some e) (ha : writeEleme (some a) elems = .ok text) :
    (e.center = .absent ∨ e.center = .null → writeEleme order elems = .error .typeError) ∧
      ∀ l, e.center = .list l → l.length < 3 → writeEleme order elems = .error .indexError := by
  rw [writeEleme_rows] at ha ⊢
  rw [ho]
  constructor
  · intro h
    refine rows_error ha fun t ht => ?_
    rw [dictGet_of_lookup he, ok_bind]
    unfold writeElem
    rcases h with h | h <;> rw [h] <;> rfl
  · intro l h hl
    refine rows_error ha fun t ht => ?_
    rw [dictGet_of_lookup he, ok_bind]
    unfold writeElem
    rw [h]
    rcases l with _ | ⟨x, _ | ⟨y, _ | ⟨z, l⟩⟩⟩
    · rfl
    · rfl
    · rfl
    · simp at hl
      omega

example : let e : Elem := ⟨.none, .none, .str "ROCK1".toList, .int 1, .none, .none, .list [.int 1, .int 2, .int 3]⟩
    let elems : List (Val × Elem) := [(.str "A1111".toList, e), (.str "A1112".toList, { e with center := .null })]
    (Option.getD (none : Option (List Val)) (elems.map (·.1)) = [.str "A1111".toList] ++ .str "A1112".toList :: []) ∧
      (writeEleme (some [.str "A1111".toList]) elems).isOk = true ∧ writeEleme none elems = .error .typeError := by
  decide +kernel

/-- C85. In COORD an element without centre is refused, if the rows before it are written. -/
theorem C85_coord (order : Option (List Val)) (elems : List (Val × Elem)) (k : Val) (e : Elem) (a b : List Val) (text : List Str)
    (ho : order.getD (elems.map (·.1)) = a ++ k :: b) (he : elems.lookup k = some e) (ha : writeCoord (some a) elems = .ok text) :
    (e.center = .absent → writeCoord order elems = .error .keyError) ∧
      (e.center = .null → writeCoord order elems = .error .typeError) := by
  rw [writeCoord_rows] at ha ⊢
  rw [ho]
  have key : ∀ x, writeCenter e.center = .error x → block "COORD" true ((Except.ok [] : Except PyErr (List Tok)) >>= fun _ =>
      concatM (fun k => dictGet elems k >>= fun e => writeCenter e.center) (a ++ k :: b)) = .error x := by
    intro x hx
    refine rows_error (f := fun _ k => dictGet elems k >>= fun e => writeCenter e.center) ha fun t _ => ?_
    rw [dictGet_of_lookup he, ok_bind, hx]
  exact ⟨fun h => key _ (by rw [h]; rfl), fun h => key _ (by rw [h]; rfl)⟩

example : let e : Elem := ⟨.none, .none, .str "ROCK1".toList, .int 1, .none, .none, .list [.int 1, .int 2, .int 3]⟩
    let elems : List (Val × Elem) := [(.str "A1111".toList, e), (.str "A1112".toList, { e with center := .absent })]
    (writeCoord (some [.str "A1111".toList]) elems).isOk = true ∧ writeCoord none elems = .error .keyError := by
  decide +kernel

/-- C85. A connection without distances, or with lists of fewer than two numbers, is refused,
if the rows before it are written. -/
theorem C85_conne (order : Option (List Val)) (conns : List (Val × Conn)) (k : Val) (c : Conn) (a b : List Val) (text : List Str)
    (ho : order.getD (conns.map (·.1)) = a ++ k :: b) (hc : conns.lookup k = some c) (ha : writeConne (some a) conns = .ok text) :
    (∀ l, c.nadd = some l → l.length < 2 → writeConne order conns = .error .indexError) ∧
      ((∀ l, c.nadd = some l → 2 ≤ l.length) →
        (c.distances = none → writeConne order conns = .error .typeError) ∧
        ∀ l, c.distances = some l → l.length < 2 → writeConne order conns = .error .indexError) := by
  rw [writeConne_rows] at ha ⊢
  rw [ho]
  have key : ∀ x, (∀ t, writeConn t k c = .error x) → _ = Except.error x := fun x hx =>
    rows_error (b := b) (k := k) ha fun t _ => by rw [dictGet_of_lookup hc, ok_bind, hx t]
  have short : ∀ l : List Val, l.length < 2 → (index l 0 >>= fun _ => index l 1) = .error .indexError := by
    intro l hl
    rcases l with _ | ⟨x, _ | ⟨y, l⟩⟩
    · rfl
    · rfl
    · simp at hl
      omega
  refine ⟨fun l h hl => key _ fun t => ?_, fun hn => ?_⟩
  · unfold writeConn
    rw [h]
    rcases l with _ | ⟨x, _ | ⟨y, l⟩⟩
    · rfl
    · rfl
    · simp at hl
      omega
  · obtain ⟨n1, n2, h1, h2⟩ : ∃ n1 n2, naddAt c.nadd 0 = .ok n1 ∧ naddAt c.nadd 1 = .ok n2 := by
      cases hd : c.nadd with
      | none => exact ⟨_, _, rfl, rfl⟩
      | some l =>
        have := hn l hd
        rcases l with _ | ⟨x, _ | ⟨y, l⟩⟩
        · simp at this
        · simp at this
        · exact ⟨x, y, rfl, rfl⟩
    refine ⟨fun h => key _ fun t => ?_, fun l h hl => key _ fun t => ?_⟩
    · unfold writeConn
      rw [h1, ok_bind, h2, ok_bind, h]
      rfl
    · unfold writeConn
      rw [h1, ok_bind, h2, ok_bind, h]
      rcases l with _ | ⟨x, _ | ⟨y, l⟩⟩
      · rfl
      · rfl
      · simp at hl
        omega

example : let c : Conn := ⟨.none, none, .int 1, some [.int 1, .int 2], .int 1, .none, .none⟩
    let conns : List (Val × Conn) := [(.str "A1111A1112".toList, c), (.str "A1112A1113".toList, { c with distances := some [.int 1] })]
    (writeConne (some [.str "A1111A1112".toList]) conns).isOk = true ∧ writeConne none conns = .error .indexError := by
  decide +kernel

/-- C85. Initial conditions whose values or USERX values are `None` are refused, if the rows
before them are written. -/
theorem C85_incon (order : Option (List Val)) (ics : List (Val × Incon)) (k : Val) (c : Incon) (a b : List Val) (text : List Str)
    (ho : order.getD (ics.map (·.1)) = a ++ k :: b) (hc : ics.lookup k = some c) (ha : writeIncon (some a) ics = .ok text)
    (hn : c.userx = none ∨ c.values = none) : writeIncon order ics = .error .typeError := by
  rw [writeIncon_rows] at ha ⊢
  rw [ho]
  refine rows_error ha fun t ht => ?_
  rw [dictGet_of_lookup hc, ok_bind]
  unfold writeInconRow
  cases hu : c.userx with
  | none => rfl
  | some u =>
    have hv : c.values = none := by
      rcases hn with hn | hn
      · rw [hu] at hn
        cases hn
      · exact hn
    obtain ⟨l, hl⟩ := incon_first hc ht u
    rw [hv]
    show (writeRecord t _ >>= _) = _
    rw [hl]
    rfl

example : let c : Incon := ⟨.none, some [.none], some [.int 1]⟩
    let ics : List (Val × Incon) := [(.str "A1111".toList, c), (.str "A1112".toList, { c with userx := none })]
    (writeIncon (some [.str "A1111".toList]) ics).isOk = true ∧ writeIncon none ics = .error .typeError := by
  decide +kernel

/-! ## Rocks, options, output -/

/-- C85. A list of permeabilities that has not three entries is refused. -/
theorem C85_rocks (k : Val) (r : Rock) (rocks : List (Val × Rock)) (l : List Val) (hp : r.permeability = .many l)
    (hl : l.length ≠ 3) : writeRocks none ((k, r) :: rocks) = .error .typeError := by
  have : permList r.permeability = .error .typeError := by
    rw [hp]
    rcases l with _ | ⟨x, _ | ⟨y, _ | ⟨z, _ | ⟨u, l⟩⟩⟩⟩ <;> first | rfl | exact absurd rfl hl
  unfold writeRocks
  refine block_error ?_
  show concatM _ (k :: rocks.map (·.1)) = _
  rw [concatM, dictGet_of_lookup (v := r) (by simp), ok_bind, writeRock, this]
  rfl

example : writeRocks none [(.str "ROCK1".toList, { Rock.empty with permeability := .many [.int 1, .int 2] })] = .error .typeError := by
  decide +kernel

/-- C85. Selections without integers or floats, and rows of more than eight floats, are refused. -/
theorem C85_selec (d : List (ℤ × Val)) (f : Floats) (l : List Val) (rows : List (List Val)) :
    writeSelec none f = .error .keyError ∧ writeSelec (some d) .absent = .error .keyError ∧
      writeSelec (some d) .none = .error .typeError ∧ (8 < l.length → writeSelec (some d) (.row l) = .error .valueError) ∧
      ((∃ r ∈ rows, 8 < r.length) → writeSelec (some d) (.rows rows) = .error .valueError) := by
  refine ⟨rfl, rfl, rfl, fun h => ?_, fun h => ?_⟩
  · have : selecRows (.row l) = .error .valueError := by
      cases l with
      | nil => simp at h
      | cons x l => rw [selecRows.eq_4 _ (by simp), if_neg (by omega)]
    unfold writeSelec
    rw [this]
    rfl
  · have : selecRows (.rows rows) = .error .valueError := by
      obtain ⟨r, hr, h8⟩ := h
      rw [selecRows.eq_5, if_neg]
      rw [List.all_eq_true]
      intro hall
      have := hall r hr
      simp at this
      omega
    unfold writeSelec
    rw [this]
    rfl

example : 8 < (List.replicate 9 (Val.int 1)).length ∧ ∃ r ∈ [[Val.int 1], List.replicate 9 (Val.int 1)], 8 < r.length := by decide

/-- C85. An output variable with an empty list of options is refused, if the variables before
it are written. -/
theorem C85_outpu (format v : Str) (x : Args) (a b : List (Str × Args)) (text : List Str) (ha : writeOutpu format a = .ok text)
    (hx : x = .list [] ∨ x = .rows []) : writeOutpu format (a ++ (v, x) :: b) = .error .indexError := by
  have hv : writeVar (v, x) = .error .indexError := by
    rcases hx with rfl | rfl <;> rfl
  obtain ⟨y, hy⟩ := block_ok_inv ha
  dsimp only at hy
  have hz : ∃ z, concatM writeVar a = .ok z := by
    by_cases h : a = []
    · rw [h]
      exact ⟨[], rfl⟩
    · simp only [if_neg h] at hy
      split at hy
      · obtain ⟨_, -, hy⟩ := bind_eq_ok.1 hy
        obtain ⟨z, hz, -⟩ := bind_eq_ok.1 hy
        exact ⟨z, hz⟩
      · obtain ⟨_, -, hy⟩ := bind_eq_ok.1 hy
        obtain ⟨_, -, hy⟩ := bind_eq_ok.1 hy
        obtain ⟨z, hz, -⟩ := bind_eq_ok.1 hy
        exact ⟨z, hz⟩
  obtain ⟨z, hz⟩ := hz
  have hcat := concatM_error_at (b := b) hz hv
  unfold writeOutpu
  refine block_error ?_
  dsimp only
  simp only [if_neg (show ¬ a ++ (v, x) :: b = [] by simp), hcat]
  split at hy
  · rename_i h
    rw [if_pos h]
    rfl
  · rename_i h
    obtain ⟨w, hw, -⟩ := bind_eq_ok.1 hy
    rw [if_neg h, hw]
    rfl

example : (writeOutpu "CSV".toList [("pressure".toList, .one .none)]).isOk = true ∧
    writeOutpu "CSV".toList [("pressure".toList, .one .none), ("flow".toList, .list [])] = .error .indexError := by
  decide +kernel

/-! ## Generators -/

/-- C85. A generator without type is refused, and one with a list of types whose other
entries are not lists of the same length. -/
theorem C85_gener (a b : List (Val × Gen)) (k : Val) (m : MultiGen) (e : PyErr) (ha : ∀ g ∈ a, ∃ c, g.2 = .single c) :
    writeGener (a ++ (k, .noType) :: b) = .error .typeError ∧
      ([entryRefusal m.types.length m.name, entryRefusal m.types.length m.nseq, entryRefusal m.types.length m.nadd,
        entryRefusal m.types.length m.nads, entryRefusal m.types.length m.times, entryRefusal m.types.length m.rates,
        entryRefusal m.types.length m.enthalpy, entryRefusal m.types.length m.thickness].findSome? id = some e →
        writeGener (a ++ (k, .multi m) :: b) = .error e) := by
  obtain ⟨cs, hcs⟩ := splitGens_singles ha
  have key : ∀ g x, genComps g = .error x → writeGener (a ++ (k, g) :: b) = .error x := by
    intro g x h
    unfold writeGener
    refine block_error ?_
    have : splitGens (a ++ (k, g) :: b) = .error x := concatM_error_at hcs (by rw [h]; rfl)
    rw [this]
    rfl
  refine ⟨key _ _ rfl, fun h => key _ _ ?_⟩
  unfold genComps
  refine seq_error (check_refusal _ _) h fun h => ?_
  refine seq_error (check_refusal _ _) h fun h => ?_
  refine seq_error (check_refusal _ _) h fun h => ?_
  refine seq_error (check_refusal _ _) h fun h => ?_
  refine seq_error (check_refusal _ _) h fun h => ?_
  refine seq_error (check_refusal _ _) h fun h => ?_
  refine seq_error (check_refusal _ _) h fun h => ?_
  refine seq_error (check_refusal _ _) h fun h => ?_
  cases h

example : let m : MultiGen := ⟨.none, .none, .none, .none, [.str "COM1".toList, .str "COM2".toList], .none, .list [.one (.int 1)], .none, .none⟩
    entryRefusal m.types.length m.rates = some .valueError ∧
      writeGener [(.str "A1111".toList, .multi m)] = .error .valueError := by decide +kernel

/-- C85. Rates and enthalpies that do not go with the times are refused. -/
theorem C85_gener_table (gens : List (Val × Gen)) (k : Val) (c : Comp) (n : ℕ) (e : PyErr) (hs : ∀ g ∈ gens, ∃ c, g.2 = .single c)
    (hl : Longest n (k :: gens.map (·.1))) (hn : 5 ≤ n ∧ n ≤ 9)
    (he : (tableRefusal c.times c.rates <|> tableRefusal c.times c.enthalpy) = some e) :
    writeGener ((k, .single c) :: gens) = .error e := by
  obtain ⟨cs, hcs⟩ := splitGens_singles hs
  have hsp : splitGens ((k, .single c) :: gens) = .ok ((k, c) :: cs) := by
    unfold splitGens at hcs ⊢
    rw [concatM, hcs]
    rfl
  obtain ⟨fmt, hf⟩ : ∃ fmt, Fmt.gener n = some fmt := by
    obtain ⟨h1, h2⟩ := hn
    interval_cases n <;> exact ⟨_, rfl⟩
  unfold writeGener
  refine block_error ?_
  rw [hsp, ok_bind, List.map_cons, maxLen_longest hl, ok_bind, formatFor, hf]
  show concatM (writeComp fmt) _ = _
  rw [concatM, writeComp, ltab_refusal he]
  rfl

example : tableRefusal (.many [.int 1, .int 2]) (.one (.int 3)) = some .typeError ∧
    tableRefusal (.many [.int 1, .int 2]) (.many [.int 3]) = some .valueError ∧
    tableRefusal (.many [.int 1]) (.many [.int 3]) = some .valueError ∧
    tableRefusal (.one .none) (.many [.int 3]) = some .valueError := by decide

end Verif.Props
