import Verif.Lemmas.Cells
import Verif.Lemmas.Gener
import Verif.Lemmas.Indom

/-! Helper lemmas: ELEME, COORD and CONNE. -/

set_option linter.unusedSimpArgs false

namespace Verif.Model
open Verif.Py Verif.Spec

theorem cell_e {w p : ℕ} {v : Val} (h : Fits (eCol w p) v) : Cell (eCol w p) v (num p v) := by
  rw [← stored_e w p v]; exact cell_of_fits h

theorem cell_d {w : ℕ} {v : Val} (h : Fits (dCol w) v) : Cell (dCol w) v (stored (dCol 5) v) := by
  rw [stored_d 5 w v]; exact cell_of_fits h

theorem getD_lt {l : List Val} {i : ℕ} (h : i < l.length) : l.getD i .none = l[i] := by
  simp [List.getD, List.getElem?_eq_getElem h]

theorem getD_mem' {l : List Val} {i : ℕ} (h : i < l.length) : l.getD i .none ∈ l := by
  rw [getD_lt h]; exact List.getElem_mem _

/-! ### ELEME -/

/-- The format of an element. -/
def elemFmt (L : ℕ) : List Tok :=
  [sCol L, dCol (elemWidths L).1, dCol (elemWidths L).2, sCol 5, eCol 10 4, eCol 10 4, eCol 10 4,
    eCol 10 3, eCol 10 3, eCol 10 3]

theorem formatFor_eleme {L : ℕ} (h : 5 ≤ L ∧ L ≤ 9) :
    formatFor Fmt.eleme L = .ok (elemFmt L) ∧ 0 < (elemWidths L).1 := by
  obtain ⟨h1, h2⟩ := h
  interval_cases L <;> exact ⟨rfl, by decide⟩

/-- The values of a written element. -/
def elemVals (k : Val) (e : Elem) : List Val :=
  [k, e.nseq, e.nadd, materialText e.material, e.volume, e.area, e.permMod,
    (centerOf e.center).getD 0 .none, (centerOf e.center).getD 1 .none,
    (centerOf e.center).getD 2 .none]

/-- The text that is read for a material. -/
def matStored : Val → Val
  | .int i => .str (intStr i)
  | v => v

theorem intStr_length_le {i : ℤ} (h0 : 0 ≤ i) (h : i < 10 ^ 5) : (intStr i).length ≤ 5 := by
  have e : intStr i = natStr i.natAbs := by simp [intStr, not_lt.2 h0]
  rw [e, natStr, padDigits_length, numDigits]
  have hn : i.natAbs < 10 ^ 5 := by omega
  by_cases hz : i.natAbs = 0
  · rw [hz]; decide
  · have := Nat.log_lt_of_lt_pow hz hn
    omega

theorem cell_material {m : Val} (h : MaterialFits m) :
    Cell (sCol 5) (materialText m) (matStored m) := by
  cases m with
  | int i =>
    obtain ⟨h0, h1⟩ := h
    have hl := intStr_length_le h0 h1
    have hp : (padLeft 5 (intStr i)).length = 5 := by rw [padLeft_length]; omega
    refine ⟨padLeft 5 (intStr i), ?_, hp, ?_⟩
    · simp only [materialText, toStr]
      rw [List.take_of_length_le (by rw [hp])]
      simp [padRight, hp, blanks]
    · rw [readField]
      simp only [matStored, reduceCtorEq, if_false]
      rw [strip_intStr, if_neg (intStr_ne_nil i)]
  | str s => exact fits_name' h.1
  | none => exact h.elim
  | bool _ => exact h.elim
  | flt _ => exact h.elim

theorem readMaterial_eq {m : Val} (h : MaterialFits m) : readMaterial (matStored m) = .ok m := by
  cases m with
  | int i =>
    obtain ⟨h0, h1⟩ := h
    have e : intStr i = natStr i.natAbs := by simp [intStr, not_lt.2 h0]
    have hs : strip (intStr i) = intStr i :=
      strip_eq_self fun c hc => isSpace_of_isNumChar (intStr_numChar i c hc)
    have hd : (intStr i).all isDigit = true := by
      rw [e, List.all_eq_true]; exact natStr_isDigit _
    simp only [matStored, readMaterial, hs, hd, if_true, pyInt_intStr]
  | str s =>
    obtain ⟨⟨-, -, hs⟩, c, hc, hd⟩ := h
    have : s.all isDigit = false := by
      rw [List.all_eq_false]; exact ⟨c, hc, by simp [hd]⟩
    simp [matStored, readMaterial, hs, this]
  | none => exact h.elim
  | bool _ => exact h.elim
  | flt _ => exact h.elim

/-- What is read of an element's record. -/
def elemData (k : Val) (e : Elem) : List Val :=
  [k, stored (dCol 5) e.nseq, stored (dCol 5) e.nadd, matStored e.material, num 4 e.volume,
    num 4 e.area, num 4 e.permMod, num 3 ((centerOf e.center).getD 0 .none),
    num 3 ((centerOf e.center).getD 1 .none), num 3 ((centerOf e.center).getD 2 .none)]

theorem length_three {l : List Val} (h : l.length = 3) :
    l = [l.getD 0 .none, l.getD 1 .none, l.getD 2 .none] := by
  match l, h with
  | [a, b, c], _ => rfl

theorem cells_elem {L : ℕ} {k : Val} {e : Elem} (hk : NameFits L k) (h : ElemFits L e) :
    Cells (elemFmt L) (elemVals k e) (elemData k e) := by
  obtain ⟨h1, h2, h3, h4, h5, h6⟩ := h
  have hc := length_three h5
  have hm : ∀ i < 3, Fits (eCol 10 3) ((centerOf e.center).getD i .none) := by
    intro i hi
    exact h6 _ (getD_mem' (by omega))
  exact ⟨fits_name' hk, cell_d h1, cell_d h2, cell_material h3, cell_e (h4 _ (by simp)),
    cell_e (h4 _ (by simp)), cell_e (h4 _ (by simp)), cell_e (hm 0 (by omega)),
    cell_e (hm 1 (by omega)), cell_e (hm 2 (by omega)), trivial⟩

theorem writeElem_eq {L : ℕ} {k : Val} {e : Elem} (hk : NameFits L k) (h : ElemFits L e) :
    writeElem (elemFmt L) k e = .ok [lineOf (elemFmt L) (elemVals k e)] := by
  have hw := (cells_line (cells_elem hk h)).1
  obtain ⟨-, -, -, -, h5, -⟩ := h
  cases hc : e.center with
  | absent => rw [hc] at h5; simp [centerOf] at h5
  | null => rw [hc] at h5; simp [centerOf] at h5
  | list l =>
    rw [hc] at h5
    have h5 : l.length = 3 := h5
    have e3 := length_three h5
    have a : ∀ i < 3, Center.at (.list l) i = .ok (l.getD i .none) := by
      intro i hi
      simp [Center.at, index, List.getElem?_eq_getElem (show i < l.length by omega),
        getD_lt (show i < l.length by omega)]
    unfold writeElem
    rw [hc, a 0 (by omega), a 1 (by omega), a 2 (by omega)]
    simp only [ok_bind]
    have hv : elemVals k e = [k, e.nseq, e.nadd, materialText e.material, e.volume, e.area, e.permMod,
        l.getD 0 .none, l.getD 1 .none, l.getD 2 .none] := by simp [elemVals, hc, centerOf]
    rw [← hv, hw]
    rfl

theorem elemOf_data {L : ℕ} {k : Val} {e : Elem} (h : ElemFits L e) :
    elemOf (elemData k e) = .ok (elemBack e) := by
  have hm := readMaterial_eq h.2.2.1
  have hc := length_three h.2.2.2.2.1
  unfold elemOf
  show (readMaterial (matStored e.material) >>= _) = _
  rw [hm, ok_bind]
  unfold elemBack
  rw [hc]
  rfl

theorem elemeStep_line {L : ℕ} {k : Val} {e : Elem} (hL : 5 ≤ L ∧ L ≤ 9) (hk : NameFits L k)
    (h : ElemFits L e) (s : Table Elem) (rest : List Str) :
    elemeStep (formatFor Fmt.eleme L) s (lineOf (elemFmt L) (elemVals k e) :: rest) =
      .ok (.more (addRow s k (elemBack e)), rest) := by
  have hc := cells_elem hk h
  have hb : isBlank (lineOf (elemFmt L) (elemVals k e)) = false :=
    isBlank_cells hc (name_ne hk) (by simp)
  unfold elemeStep
  simp only [next_cons, ok_bind, hb, Bool.false_eq_true, if_false, (formatFor_eleme hL).1,
    (cells_line hc).2.2, elemOf_data h]
  rfl

theorem fieldOf_seq {w : ℕ} {v : Val} (h : Fits (dCol w) v) (hw : 0 < w) (c : Char)
    (hc : c ∈ (fieldOf (dCol w) v).head?) : c ∈ (seqText w v).head? ∨ c = ' ' := by
  have hb : ∀ n, 0 < n → c ∈ (blanks n).head? → c = ' ' := by
    intro n hn hc
    obtain ⟨m, rfl⟩ : ∃ m, n = m + 1 := ⟨n - 1, by omega⟩
    simpa [blanks, List.replicate_succ, eq_comm] using hc
  cases v with
  | none => exact Or.inr (hb w hw (by simpa [fieldOf, toStr] using hc))
  | str s =>
    have hs : s = [] := h
    subst hs
    exact Or.inr (hb w hw (by simpa [fieldOf, toStr, padLeft] using hc))
  | bool b =>
    have h6 : (if b then (1 : ℤ) else 0).natAbs < 10 ^ 6 := by cases b <;> norm_num
    left
    simpa only [seqText, fieldOf, toStr, fmtG_int h6] using hc
  | int i =>
    left
    simpa only [seqText, fieldOf, toStr, fmtG_int h.2] using hc
  | flt x => exact h.elim

theorem detect_elem {L : ℕ} {k : Val} {e : Elem} (hL : 5 ≤ L ∧ L ≤ 9) (hk : NameFits L k)
    (h : ElemFits L e) (hd : Detectable L k (seqText (elemWidths L).1 e.nseq)) :
    labelLength none (lineOf (elemFmt L) (elemVals k e)) = L := by
  refine detect_cells hL (cells_elem hk h) (formatFor_eleme hL).2 ?_
  cases k with
  | str s =>
    refine ⟨hd.1, hd.2.1, fun c hc => ?_⟩
    rcases fieldOf_seq h.1 (formatFor_eleme hL).2 c hc with hc | rfl
    · exact hd.2.2 c hc
    · decide
  | none => exact hd.elim
  | bool _ => exact hd.elim
  | int _ => exact hd.elim
  | flt _ => exact hd.elim

/-! ### COORD -/

theorem coordStep_line {c : Center} (h : CenterFits c) (s : List (List Val)) (rest : List Str) :
    coordStep s (lineOf Fmt.coord (centerOf c) :: rest) =
      .ok (.more (s ++ [(centerOf c).map (num 13)]), rest) := by
  obtain ⟨h1, h2, h3⟩ := h
  have hb : isBlank (lineOf Fmt.coord (centerOf c)) = false :=
    isBlank_numbers (n := 3) (by omega) h2 h3
  have hr : readRecord Fmt.coord (lineOf Fmt.coord (centerOf c)) =
      .ok ((centerOf c).map (num 13) ++ List.replicate (3 - (centerOf c).length) .none) :=
    readRow 3 (by decide) (by omega) h2
  unfold coordStep
  simp only [next_cons, ok_bind, hb, Bool.false_eq_true, if_false, hr, h1]
  simp

theorem writeCenter_eq {c : Center} (h : CenterFits c) :
    writeCenter c = .ok [lineOf Fmt.coord (centerOf c)] := by
  obtain ⟨h1, h2, -⟩ := h
  cases c with
  | absent => simp [centerOf] at h1
  | null => simp [centerOf] at h1
  | list l =>
    simp only [centerOf] at h2 ⊢
    have : AllFit Fmt.coord l := allFit_replicate 3 (eCol 20 13) l h2
    simp [writeCenter, writeRecord_eq this]

/-! ### CONNE -/

theorem startsWith_false {s : Str} (h : s.take 3 ≠ ['+', '+', '+']) : startsPlus s = false := by
  rw [← Bool.not_eq_true]
  intro hs
  unfold startsPlus startsWith at hs
  rw [List.isPrefixOf_iff_prefix, List.prefix_iff_eq_take] at hs
  exact h hs.symm

/-- The format of a connection. -/
def connFmt (L : ℕ) : List Tok :=
  [sCol (2 * L), dCol (connWidths L).1, dCol (connWidths L).2, dCol (connWidths L).2, dCol 5,
    eCol 10 4, eCol 10 4, eCol 10 4, eCol 10 3, eCol 10 3]

theorem formatFor_conne {L : ℕ} (h : 5 ≤ L ∧ L ≤ 9) :
    formatFor Fmt.conne L = .ok (connFmt L) := by
  obtain ⟨h1, h2⟩ := h
  interval_cases L <;> rfl

/-- The values of a written connection. -/
def connVals (k : Val) (c : Conn) : List Val :=
  [k, c.nseq, (pairOf c.nadd).getD 0 .none, (pairOf c.nadd).getD 1 .none, c.direction,
    (pairOf c.distances).getD 0 .none, (pairOf c.distances).getD 1 .none, c.area, c.angle,
    c.emittance]

/-- What is read of a connection's record. -/
def connData (k : Val) (c : Conn) : List Val :=
  [k, stored (dCol 5) c.nseq, stored (dCol 5) ((pairOf c.nadd).getD 0 .none),
    stored (dCol 5) ((pairOf c.nadd).getD 1 .none), stored (dCol 5) c.direction,
    num 4 ((pairOf c.distances).getD 0 .none), num 4 ((pairOf c.distances).getD 1 .none),
    num 4 c.area, num 3 c.angle, num 3 c.emittance]

theorem length_two {l : List Val} (h : l.length = 2) : l = [l.getD 0 .none, l.getD 1 .none] := by
  match l, h with
  | [a, b], _ => rfl

theorem cells_conn {L : ℕ} {k : Val} {c : Conn} (hk : NameFits (2 * L) k) (h : ConnFits L c) :
    Cells (connFmt L) (connVals k c) (connData k c) := by
  obtain ⟨h1, h2, h3, h4, -, h6, h7, h8⟩ := h
  exact ⟨fits_name' hk, cell_d h1, cell_d (h3 _ (getD_mem' (by omega))),
    cell_d (h3 _ (getD_mem' (by omega))), cell_d h4,
    cell_e (h7 _ (List.mem_cons_of_mem _ (getD_mem' (by omega)))),
    cell_e (h7 _ (List.mem_cons_of_mem _ (getD_mem' (by omega)))), cell_e (h7 _ (by simp)),
    cell_e (h8 _ (by simp)), cell_e (h8 _ (by simp)), trivial⟩

theorem writeConn_eq {L : ℕ} {k : Val} {c : Conn} (hk : NameFits (2 * L) k) (h : ConnFits L c) :
    writeConn (connFmt L) k c = .ok [lineOf (connFmt L) (connVals k c)] := by
  have hw := (cells_line (cells_conn hk h)).1
  obtain ⟨-, h2, -, -, h5, h6, -⟩ := h
  have hn : ∀ i < 2, naddAt c.nadd i = .ok ((pairOf c.nadd).getD i .none) := by
    intro i hi
    cases hc : c.nadd with
    | none => interval_cases i <;> rfl
    | some l =>
      rw [hc] at h2
      have h2 : l.length = 2 := h2
      simp [naddAt, pairOf, index, List.getElem?_eq_getElem (show i < l.length by omega)]
  have hd : ∀ i < 2, distAt c.distances i = .ok ((pairOf c.distances).getD i .none) := by
    intro i hi
    cases hc : c.distances with
    | none => exact absurd hc h5
    | some l =>
      rw [hc] at h6
      have h6 : l.length = 2 := h6
      simp [distAt, pairOf, index, List.getElem?_eq_getElem (show i < l.length by omega)]
  unfold writeConn
  rw [hn 0 (by omega), hn 1 (by omega), hd 0 (by omega), hd 1 (by omega)]
  simp only [ok_bind]
  show (writeRecord (connFmt L) (connVals k c) >>= _) = _
  rw [hw]
  rfl

theorem connOf_data {L : ℕ} {k : Val} {c : Conn} (h : ConnFits L c) :
    connOf (connData k c) = connBack c := by
  have h2 := length_two h.2.1
  have h6 := length_two h.2.2.2.2.2.1
  unfold connBack
  rw [h2, h6]
  rfl

/-- A record that starts with a text starts with its characters. -/
theorem take_line {L n : ℕ} {s : Str} {ts : List Tok} {vs : List Val} (hn : n ≤ s.length)
    (hs : s.length ≤ L) (h : lineOf (sCol L :: ts) (.str s :: vs) =
      recLine (textRow (sCol L :: ts) (.str s :: vs))) :
    (lineOf (sCol L :: ts) (.str s :: vs)).take n = s.take n := by
  have hk : fieldOf (sCol L) (.str s) = s ++ blanks (L - s.length) := by
    simp [fieldOf, toStr, padRight, List.take_of_length_le hs]
  rw [h]
  simp only [recLine, padRight, textRow, List.zip_cons_cons, List.flatMap_cons, hk, List.append_assoc]
  rw [List.take_append_of_le_length hn]

/-- The first three characters of a record with a name. -/
theorem startsPlus_line {L : ℕ} {k : Val} {ts : List Tok} {vs : List Val} (hL : 3 ≤ L)
    (hk : NameFits L k) (hp : (textOf k).take 3 ≠ ['+', '+', '+'])
    (h : lineOf (sCol L :: ts) (k :: vs) = recLine (textRow (sCol L :: ts) (k :: vs))) : startsPlus (lineOf (sCol L :: ts) (k :: vs)) = false := by
  apply startsWith_false
  cases k with
  | str s =>
    have hs : s.length ≤ L := hk.2.1
    by_cases h3 : 3 ≤ s.length
    · rw [take_line h3 hs h]; exact hp
    · have hk' : fieldOf (sCol L) (.str s) = s ++ blanks (L - s.length) := by
        simp [fieldOf, toStr, padRight, List.take_of_length_le hs]
      rw [h]
      simp only [recLine, padRight, textRow, List.zip_cons_cons, List.flatMap_cons, hk',
        List.append_assoc]
      intro he
      rw [List.take_append] at he
      obtain ⟨m, hm⟩ : ∃ m, L - s.length = m + 1 := ⟨L - s.length - 1, by omega⟩
      obtain ⟨j, hj⟩ : ∃ j, 3 - s.length = j + 1 := ⟨2 - s.length, by omega⟩
      rw [hm, hj] at he
      have : ' ' ∈ ['+', '+', '+'] := by
        rw [← he]
        simp [blanks, List.replicate_succ]
      revert this; decide
  | none => exact hk.elim
  | bool _ => exact hk.elim
  | int _ => exact hk.elim
  | flt _ => exact hk.elim

theorem conneStep_line {L : ℕ} {k : Val} {c : Conn} (hL : 5 ≤ L ∧ L ≤ 9) (hk : NameFits (2 * L) k)
    (hp : (textOf k).take 3 ≠ ['+', '+', '+']) (h : ConnFits L c) (s : Table Conn)
    (rest : List Str) :
    conneStep (formatFor Fmt.conne L) s (lineOf (connFmt L) (connVals k c) :: rest) =
      .ok (.more (addRow s k (connBack c)), rest) := by
  have hc := cells_conn hk h
  have hb : isBlank (lineOf (connFmt L) (connVals k c)) = false :=
    isBlank_cells hc (name_ne hk) (by simp)
  have hpl : startsPlus (lineOf (connFmt L) (connVals k c)) = false :=
    startsPlus_line (by omega) hk hp (cells_line hc).2.1
  unfold conneStep
  simp only [next_cons, ok_bind, stopsRows, hb, hpl, Bool.or_self, Bool.false_eq_true, if_false,
    formatFor_conne hL, (cells_line hc).2.2, connOf_data h]
  rfl

theorem detect_conn {L : ℕ} {k : Val} {c : Conn} (hL : 5 ≤ L ∧ L ≤ 9) (hk : NameFits (2 * L) k)
    (h : ConnFits L c) (hd : DetectablePair L k) (h2 : L < (textOf k).length) :
    labelLength none (lineOf (connFmt L) (connVals k c)) = L := by
  cases k with
  | str s =>
    obtain ⟨d1, d2, d3⟩ := hd
    have hs : s.length ≤ 2 * L := hk.2.1
    have hk' : fieldOf (sCol (2 * L)) (.str s) = s ++ blanks (2 * L - s.length) := by
      simp [fieldOf, toStr, padRight, List.take_of_length_le hs]
    show getLabelLength _ = L
    rw [(cells_line (cells_conn hk h)).2.1]
    simp only [recLine, padRight, textRow, connFmt, connVals, List.zip_cons_cons, List.flatMap_cons,
      hk', List.append_assoc]
    rw [← List.take_append_drop L s, List.append_assoc]
    refine detect_text hL d1 d2 ?_
    intro x hx
    simp only [textOf] at h2 d3
    cases hdr : s.drop L with
    | nil => have := congrArg List.length hdr; simp at this; omega
    | cons y ys =>
      rw [hdr] at hx d3
      exact d3 x (by simpa using hx)
  | none => exact hk.elim
  | bool _ => exact hk.elim
  | int _ => exact hk.elim
  | flt _ => exact hk.elim

/-- Giving every row its own centre. -/
theorem setCenters_eq (f : Val × Elem → Elem) (c : Elem → List Val) (rows done : List (Val × Elem))
    (hn : ((done ++ rows).map (·.1)).Nodup) :
    setCenters (done.map (fun e : Val × Elem => (e.1, { f e with center := .list (c e.2) })) ++
        rows.map fun e : Val × Elem => (e.1, f e)) (rows.map fun e => (e.1, c e.2)) =
      .ok ((done ++ rows).map fun e : Val × Elem => (e.1, { f e with center := .list (c e.2) })) := by
  induction rows generalizing done with
  | nil => simp [setCenters]
  | cons e rows ih =>
    have hk : e.1 ∉ done.map (·.1) := by
      intro hm
      rw [List.map_append] at hn
      have := List.disjoint_of_nodup_append hn hm
      simp at this
    have hset : ∀ v, dictSet (done.map (fun e : Val × Elem => (e.1, { f e with center := .list (c e.2) })) ++
        (e.1, f e) :: rows.map fun e : Val × Elem => (e.1, f e)) e.1 v =
        done.map (fun e : Val × Elem => (e.1, { f e with center := .list (c e.2) })) ++
          (e.1, v) :: rows.map fun e : Val × Elem => (e.1, f e) := by
      intro v
      clear ih hn
      induction done with
      | nil => simp [dictSet]
      | cons d done ih =>
        simp only [List.map_cons, List.mem_cons, not_or] at hk
        simp [dictSet, Ne.symm hk.1, ih hk.2]
    have hget : dictGet (done.map (fun e : Val × Elem => (e.1, { f e with center := .list (c e.2) })) ++
        (e.1, f e) :: rows.map fun e : Val × Elem => (e.1, f e)) e.1 = .ok (f e) := by
      clear ih hn hset
      unfold dictGet
      have : (done.map (fun e : Val × Elem => (e.1, { f e with center := .list (c e.2) })) ++
        (e.1, f e) :: rows.map fun e : Val × Elem => (e.1, f e)).lookup e.1 = some (f e) := by
        induction done with
        | nil => simp
        | cons d done ih =>
          simp only [List.map_cons, List.mem_cons, not_or] at hk
          have hb : (e.1 == d.1) = false := by simpa using hk.1
          simp [List.lookup_cons, hb, ih hk.2]
      rw [this]
    simp only [List.map_cons, setCenters, hget, ok_bind, hset]
    have := ih (done ++ [e]) (by simpa using hn)
    simpa using this

end Verif.Model
