import Verif.Lemmas.Indom
import Verif.Lemmas.Order

/-!
# Properties of the SELEC and INDOM blocks (C16, C17)
-/

set_option linter.unusedSimpArgs false

namespace Verif.Props
open Verif.Py Verif.Model Verif.Spec

/-! ## C16: SELEC -/

/-- Reading the two kinds of records of SELEC. -/
theorem selec_core (f : ℕ → Val) (hf : ∀ k, Int5 (f k)) (rows : List (List Val))
    (hr : ∀ r ∈ rows, r.length ≤ 8 ∧ ∀ v ∈ r, Fits (eCol 10 3) v) (i : ℤ) (hi : f 0 = .int i)
    (hn : rangeLen i = rows.length) (rest : List Str) :
    readSelec (lineOf Fmt.selec1 ((List.range 16).map f) ::
      (rows.map (lineOf Fmt.selec2) ++ rest)) =
      (let ints := ((List.range 16).map fun k : ℕ => ((k : ℤ) + 1, f k)).filter (·.2 ≠ .none)
       let back := rows.map fun r => dropTrailing (r.map (num 3))
       if i = 1 then match back with
         | r :: _ => .ok (⟨ints, some (.row r)⟩, rest)
         | [] => .error .indexError
       else if i = 0 then .ok (⟨ints, none⟩, rest)
       else .ok (⟨ints, some (.rows back)⟩, rest)) := by
  obtain ⟨-, h1⟩ := selec1_line (vs := (List.range 16).map f) (by simp)
    (by intro v hv; obtain ⟨k, -, rfl⟩ := List.mem_map.1 hv; exact hf k)
  have he : entry ((List.range 16).map f) 0 = .int i := by rw [← hi]; rfl
  have hrow : ∀ r ∈ rows, ∀ rest', readSelecRow (lineOf Fmt.selec2 r :: rest') =
        .ok (dropTrailing (r.map (num 3)), rest') := by
    intro r hrm rest'
    have := readRow 8 (w := 10) (p := 3) (by decide) (hr r hrm).1 (hr r hrm).2
    have h2 : readRecord Fmt.selec2 (lineOf Fmt.selec2 r) =
        .ok (r.map (num 3) ++ List.replicate (8 - r.length) .none) := this
    simp only [readSelecRow, next_cons, ok_bind, h2, pruneNones_eq, dropTrailing_append_none]
  have ht := times_lines (lineOf Fmt.selec2) (fun r => dropTrailing (r.map (num 3))) rows hrow rest
  unfold readSelec
  simp only [next_cons, ok_bind, h1, he, hn, ht, zipIdx_range, pruneDict]
  rfl

/-- C16. With at least one row of floats, the selection comes back: the integers
that were set, the first one being the number of rows whatever it was before, and
the rows rounded, a single row as a plain list; the reader takes exactly the
lines of the block. -/
theorem C16_selec_round_trip (d : List (ℤ × Val)) (fl : Floats) (hd : IntsOk d)
    (hne : rowsOf fl ≠ []) (hr : RowsFit (rowsOf fl)) :
    ∃ body, writeSelec (some d) fl = .ok (headLine "SELEC" :: body) ∧
      ∀ rest, readSelec (body ++ rest) =
        .ok (⟨setEntries 16 ((1, .int (rowsOf fl).length) :: d.filter (·.1 ≠ 1)),
          some (floatsBack (rowsOf fl))⟩, rest) := by
  set rows := rowsOf fl with hrows
  set d' : List (ℤ × Val) := (1, .int rows.length) :: d.filter (·.1 ≠ 1) with hd'
  have hf : ∀ j, Int5 (valueAt d' j) := by
    intro j
    rw [hd', valueAt_filter]
    split
    · exact fits_count hr.1
    · exact int5_valueAt hd j
  have hkeys : (updateDict (noOptions 16) d).map (·.1) =
      (List.range 16).map fun k : ℕ => (k : ℤ) + 1 := by
    rw [updateDict_keys, noOptions_keys]
    intro e he
    rw [noOptions_keys, List.mem_map]
    have := hd.2 e he
    exact ⟨(e.1 - 1).toNat, by simp; omega, by omega⟩
  have hvals : sortedVals (dictSet (updateDict (noOptions 16) d) 1 (.int rows.length)) =
      (List.range 16).map fun k : ℕ => valueAt d' ((k : ℤ) + 1) := by
    rw [sortedVals_of_keys 16]
    · apply List.map_congr_left
      intro k _
      rw [hd', valueAt_filter]
      unfold valueAt
      rw [lookup_dictSet]
      split
      · rfl
      · rw [lookup_updateDict _ _ hd.1]
        cases hl : d.lookup ((k : ℤ) + 1) with
        | none => simpa using lookup_noOptions 16 ((k : ℤ) + 1)
        | some v => rfl
    · rw [dictSet_keys, hkeys]
      rw [hkeys]
      simp only [List.mem_map, List.mem_range]
      exact ⟨0, by norm_num, by norm_num⟩
  refine ⟨lineOf Fmt.selec1 ((List.range 16).map fun k : ℕ => valueAt d' ((k : ℤ) + 1)) ::
    rows.map (lineOf Fmt.selec2), ?_, ?_⟩
  · have h1 := (selec1_line (vs := (List.range 16).map fun k : ℕ => valueAt d' ((k : ℤ) + 1))
      (by simp) (by intro v hv; obtain ⟨k, -, rfl⟩ := List.mem_map.1 hv; exact hf _)).1
    have h2 : rows.mapM (writeRecord Fmt.selec2) = .ok (rows.map (lineOf Fmt.selec2)) :=
      mapM_ok fun r hrm => writeRecord_eq (allFit_replicate 8 (eCol 10 3) r (hr.2 r hrm).2)
    have h3 : selecRows fl = .ok rows := by
      rw [hrows] at hr hne ⊢
      match fl with
      | .absent | .none | .row [] => exact absurd rfl hne
      | .row (a :: l) =>
        have := (hr.2 (a :: l) (by simp [rowsOf])).1
        simp only [selecRows, rowsOf, this, if_true]
      | .rows l =>
        have : l.all (·.length ≤ 8) = true := by
          rw [List.all_eq_true]; intro r h
          exact decide_eq_true (hr.2 r h).1
        simp only [selecRows, rowsOf, this, if_true]
    unfold writeSelec block
    simp only [ok_bind, h3, if_neg hne, hvals, writeRecord_eq h1, h2, Bool.false_eq_true, if_false,
      List.append_nil]
  · intro rest
    have hi : (fun k : ℕ => valueAt d' ((k : ℤ) + 1)) 0 = .int rows.length := by
      show valueAt d' ((0 : ℕ) + 1 : ℤ) = _
      rw [hd', valueAt_filter]; rfl
    have := selec_core (fun k : ℕ => valueAt d' ((k : ℤ) + 1)) (fun k => hf _) rows hr.2 rows.length
      hi (by simp [rangeLen]) rest
    rw [List.cons_append, this]
    have hlen : rows.length ≠ 0 := by simpa using hne
    unfold setEntries floatsBack
    cases h : rows with
    | nil => exact absurd h hne
    | cons r rs =>
      cases rs with
      | nil => simp
      | cons r' rs =>
        have h1 : ¬ ((List.length (r :: r' :: rs) : ℤ) = 1) := by simp; omega
        have h0 : ¬ ((List.length (r :: r' :: rs) : ℤ) = 0) := by simp; omega
        simp only [h1, h0, if_false, List.map_cons]

example : IntsOk [(2, .int 3), (16, .int (-7)), (4, .none)] ∧
    rowsOf (.rows [[.flt (.fin false 2), .none, .int 3], [.none]]) ≠ [] ∧
    RowsFit (rowsOf (.rows [[.flt (.fin false 2), .none, .int 3], [.none]])) := by
  decide +kernel

/-- Writing a selection without floats. -/
theorem selec_noRows (d : List (ℤ × Val)) (hd : IntsOk d) :
    writeSelec (some d) (.row []) = .ok [headLine "SELEC",
      lineOf Fmt.selec1 ((List.range 16).map fun k : ℕ => valueAt d ((k : ℤ) + 1))] := by
  have hv : sortedVals (updateDict (noOptions 16) d) =
      (List.range 16).map fun k : ℕ => valueAt d ((k : ℤ) + 1) :=
    sortedVals_update 16 d hd.1 fun e he => ⟨(hd.2 e he).1, (hd.2 e he).2.1⟩
  obtain ⟨h1, -⟩ := selec1_line (vs := (List.range 16).map fun k : ℕ => valueAt d ((k : ℤ) + 1))
    (by simp) (by intro v hv; obtain ⟨k, -, rfl⟩ := List.mem_map.1 hv; exact int5_valueAt hd _)
  unfold writeSelec block
  simp only [ok_bind, selecRows, if_true, hv, writeRecord_eq h1, List.mapM_nil]
  rfl

/-- C16. The code violates the round trip of a selection without floats: if the
first integer is not set the block is written but cannot be read, and if it is
set to a positive number the reader takes as many lines of the next block. -/
theorem C16_violated :
    (∀ d, IntsOk d → valueAt d 1 = .none →
      ∃ line, writeSelec (some d) (.row []) = .ok [headLine "SELEC", line] ∧
        ∀ rest, readSelec (line :: rest) = .error .keyError) ∧
    (∃ d body, IntsOk d ∧ writeSelec (some d) (.row []) = .ok (headLine "SELEC" :: body) ∧
      readSelec (body ++ ["GENER\n".toList]) = .error .valueError) := by
  constructor
  · intro d hd h0
    obtain ⟨-, h2⟩ := selec1_line (vs := (List.range 16).map fun k : ℕ => valueAt d ((k : ℤ) + 1))
      (by simp) (by intro v hv; obtain ⟨k, -, rfl⟩ := List.mem_map.1 hv; exact int5_valueAt hd _)
    refine ⟨_, selec_noRows d hd, ?_⟩
    · intro rest
      have he : entry ((List.range 16).map fun k : ℕ => valueAt d ((k : ℤ) + 1)) 0 = .none := by
        rw [← h0]; rfl
      unfold readSelec
      simp only [next_cons, ok_bind, h2, he, rangeLen, Int.toNat_zero, times, if_true]
  · refine ⟨[(1, .int 2)], _, by decide +kernel, selec_noRows _ (by decide +kernel), ?_⟩
    decide +kernel

/-- C16, partial: what is missing is a selection without floats whose first
integer is not zero. If it is zero the integers come back and no floats do. -/
theorem C16_partial (d : List (ℤ × Val)) (hd : IntsOk d) (h0 : valueAt d 1 = .int 0) :
    ∃ line, writeSelec (some d) (.row []) = .ok [headLine "SELEC", line] ∧
      ∀ rest, readSelec (line :: rest) = .ok (⟨setEntries 16 d, none⟩, rest) := by
  refine ⟨_, selec_noRows d hd, ?_⟩
  · intro rest
    have := selec_core (fun k : ℕ => valueAt d ((k : ℤ) + 1)) (fun k => int5_valueAt hd _) [] (by simp)
      0 (by simpa using h0) rfl rest
    simpa [setEntries] using this

example : IntsOk [(1, .int 0), (5, .int 12345)] ∧ valueAt [(1, .int 0), (5, .int 12345)] 1 = .int 0 := by
  decide +kernel

/-! ## C17: INDOM -/

/-- C17, partial (missing: rocks with at most four values before rocks with more,
where the code fails, see `C17_violated`). The initial conditions of the rocks
come back under the rock names, in the rock order, rounded and without missing
values at the end; rocks without a value are left out; the reader takes exactly
the lines of the block. -/
theorem C17_indom_round_trip_partial (order : Option (List Val)) (rocks : List (Val × Option (List Val)))
    (hn : (rocks.map (·.1)).Nodup) (ho : OrderOk order (rocks.map (·.1)))
    (hfit : ∀ e ∈ indomRows rocks, IndomFits e)
    (hlong : LongFirst (indomRows (inOrder rocks (orderOf order (rocks.map (·.1)))))) :
    ∃ (body : List Str) (l : List (Val × Option (List Val))),
      Arranges l rocks (orderOf order (rocks.map (·.1))) ∧
      writeIndom order rocks = .ok (headLine "INDOM" :: body) ∧
      ∀ rest, readIndom (body ++ rest) =
        .ok ((indomRows l).map fun e => (e.1, initBack e.2), rest) := by
  obtain ⟨l, hl, hget⟩ := exists_arranged rocks hn ho
  have hmem : ∀ e ∈ indomRows l, IndomFits e := by
    intro e he
    apply hfit
    unfold indomRows at he ⊢
    rw [List.mem_filterMap] at he ⊢
    obtain ⟨x, hx, h⟩ := he
    exact ⟨x, hl.1.mem_iff.1 hx, h⟩
  refine ⟨(indomRows l).flatMap indomLines ++ [['\n']], l, hl, ?_, ?_⟩
  · have hw : ∀ l' : List (Val × Option (List Val)), (∀ e ∈ l', e ∈ l) →
        concatM (fun k => dictGet rocks k >>= fun ic => writeIndomRock k ic) (l'.map (·.1)) =
          .ok ((indomRows l').flatMap indomLines) := by
      intro l'
      induction l' with
      | nil => intro _; rfl
      | cons e l' ih =>
        intro hm
        have hone : writeIndomRock e.1 e.2 = .ok ((indomRows [e]).flatMap indomLines) := by
          obtain ⟨k, ic⟩ := e
          cases ic with
          | none => rfl
          | some ic =>
            by_cases hany : ic.any (· ≠ .none) = true
            · have hf : IndomFits (k, ic) := hmem (k, ic) (by
                unfold indomRows
                rw [List.mem_filterMap]
                exact ⟨(k, some ic), hm _ (by simp), by simp only [Option.bind_some, hany, if_true]⟩)
              have := writeIndomRock_eq hf hany
              simp only at this
              rw [this]
              simp only [indomRows, List.filterMap_cons, Option.bind_some, hany, if_true,
                List.filterMap_nil, List.flatMap_cons, List.flatMap_nil, List.append_nil]
            · simp only [writeIndomRock, indomRows, List.filterMap_cons, Option.bind_some, hany,
                if_false, List.filterMap_nil, List.flatMap_nil, Bool.false_eq_true]
        have hcons : indomRows (e :: l') = indomRows [e] ++ indomRows l' := by
          unfold indomRows
          rw [← List.filterMap_append]; rfl
        simp only [List.map_cons, concatM, hget e (hm e (by simp)), ok_bind, hone,
          ih (fun x hx => hm x (by simp [hx])), hcons, List.flatMap_append]
    unfold writeIndom block
    rw [rockOrder_eq, ← hl.2, hw l (fun _ h => h)]
    rfl
  · intro rest
    have hnd : ((indomRows l).map (·.1)).Nodup := by
      have h1 : (l.map (·.1)).Nodup := by rw [hl.2]; exact orderOf_nodup ho hn
      refine List.Sublist.nodup ?_ h1
      unfold indomRows
      clear hlong hmem hget hl h1
      induction l with
      | nil => simp
      | cons e l ih =>
        obtain ⟨k, ic⟩ := e
        rw [List.filterMap_cons]
        cases h : (ic.bind fun ic => if ic.any (· ≠ .none) then some (k, ic) else none) with
        | none => exact ih.cons _
        | some b =>
          have : b.1 = k := by
            cases ic with
            | none => cases h
            | some ic =>
              simp only [Option.bind_some] at h
              split at h
              · cases h; rfl
              · cases h
          simp only [List.map_cons, this]
          exact ih.cons₂ _
    obtain ⟨two, h⟩ := loop_indom (indomRows l) [] true rest hmem (inOrder_eq hn hl ▸ hlong) (by simp)
      (by simpa using hnd)
    have h' := whileTrue_of_loop h (by
      have := length_le_flatMap indomLines (indomRows l) (fun x _ => by simp [indomLines])
      simp only [List.length_append, List.length_cons]
      omega)
    simp only [readIndom, List.append_assoc, List.singleton_append, h', ok_bind, List.nil_append]

example : let rocks : List (Val × Option (List Val)) :=
      [(.str "SAND".toList, some [.flt (.fin false 100000), .none, .none, .int 3, .int 20]),
       (.str "CLAY".toList, none), (.str "ROCK1".toList, some [.none, .flt (.fin true (1 / 3))])]
    let order := some [.str "CLAY".toList, .str "SAND".toList]
    (rocks.map (·.1)).Nodup ∧ OrderOk order (rocks.map (·.1)) ∧
      (∀ e ∈ indomRows rocks, IndomFits e) ∧
      LongFirst (indomRows (inOrder rocks (orderOf order (rocks.map (·.1))))) := by
  decide +kernel

/-- C17. The code violates the round trip without the condition on the order: for
a rock with one value followed by a rock with five values the reader takes the
fifth value for a rock name and runs past the end of the block. Nor can a rock be
read whose name looks like a number: its line is taken for values of the rock
before it. -/
theorem C17_violated :
    (∃ rocks body, (∀ e ∈ indomRows rocks, IndomFits e) ∧ (rocks.map (·.1)).Nodup ∧
      writeIndom none rocks = .ok (headLine "INDOM" :: body) ∧
      readIndom (body ++ [headLine "START"]) = .error .stopIteration) ∧
    (∃ (rocks : List (Val × Option (List Val))) (body : List Str),
      (∀ e ∈ rocks, NameFits 5 e.1) ∧ (rocks.map (·.1)).Nodup ∧
      writeIndom none rocks = .ok (headLine "INDOM" :: body) ∧
      readIndom (body ++ [headLine "START"]) ≠
        .ok ((indomRows rocks).map fun e => (e.1, initBack e.2), [headLine "START"])) := by
  constructor
  · refine ⟨[(.str "SAND".toList, some [.int 1]),
      (.str "CLAY".toList, some [.int 1, .int 2, .int 3, .int 4, .int 5])],
      indomLines (.str "SAND".toList, [.int 1]) ++
      indomLines (.str "CLAY".toList, [.int 1, .int 2, .int 3, .int 4, .int 5]) ++ [['\n']], ?_⟩
    decide +kernel
  · refine ⟨[(.str "SAND".toList, some [.int 1]), (.str "1e5".toList, some [.int 7])],
      indomLines (.str "SAND".toList, [.int 1]) ++
      indomLines (.str "1e5".toList, [.int 7]) ++ [['\n']], ?_⟩
    decide +kernel

end Verif.Props
