import Verif.Spec.MeshBlocks
import Verif.Lemmas.Labels
import Verif.Lemmas.Order

/-! Helper lemmas: records with cells that are not stored as given; tables of
rows. -/

set_option linter.unusedSimpArgs false

namespace Verif.Model
open Verif.Py Verif.Spec

/-- `v` written in column `t` fills it and is read as `b`. -/
def Cell (t : Tok) (v b : Val) : Prop :=
  ∃ a, toStr t v = .ok a ∧ a.length = t.w ∧ readField t a = .ok b

/-- The cells of a full record. -/
def Cells : List Tok → List Val → List Val → Prop
  | [], [], [] => True
  | t :: ts, v :: vs, b :: bs => Cell t v b ∧ Cells ts vs bs
  | _, _, _ => False

theorem cell_of_fits {t : Tok} {v : Val} (h : Fits t v) : Cell t v (stored t v) := toStr_field t v h

/-- The text of a record. -/
def textRow (ts : List Tok) (vs : List Val) : Str := (ts.zip vs).flatMap fun p => fieldOf p.1 p.2

theorem cell_field {t : Tok} {v b : Val} (h : Cell t v b) :
    toStr t v = .ok (fieldOf t v) ∧ (fieldOf t v).length = t.w ∧ readField t (fieldOf t v) = .ok b := by
  obtain ⟨a, h1, h2, h3⟩ := h
  have : fieldOf t v = a := by simp [fieldOf, h1]
  rw [this]; exact ⟨h1, h2, h3⟩

theorem cells_text {ts : List Tok} {vs bs : List Val} (h : Cells ts vs bs) :
    recText ts vs = .ok (textRow ts vs) ∧ (textRow ts vs).length = width ts ∧
      ∀ a r, readFrom (a ++ (textRow ts vs ++ r)) a.length ts = .ok bs := by
  induction ts generalizing vs bs with
  | nil =>
    cases vs <;> cases bs <;> simp_all [Cells, recText, textRow, width, readFrom]
  | cons t ts ih =>
    cases vs with
    | nil => simp [Cells] at h
    | cons v vs =>
      cases bs with
      | nil => simp [Cells] at h
      | cons b bs =>
        obtain ⟨h1, h2⟩ := h
        obtain ⟨c1, c2, c3⟩ := cell_field h1
        obtain ⟨i1, i2, i3⟩ := ih h2
        have e : textRow (t :: ts) (v :: vs) = fieldOf t v ++ textRow ts vs := by
          simp [textRow]
        refine ⟨by simp [recText, c1, i1, e], by simp [e, c2, i2, width], ?_⟩
        intro a r
        rw [e, readFrom, List.append_assoc, slice_mid _ _ _ rfl c2.symm, c3]
        have := i3 (a ++ fieldOf t v) r
        rw [List.append_assoc, List.length_append, c2] at this
        rw [this]; rfl

theorem cells_line {ts : List Tok} {vs bs : List Val} (h : Cells ts vs bs) :
    writeRecord ts vs = .ok (lineOf ts vs) ∧ lineOf ts vs = recLine (textRow ts vs) ∧
      readRecord ts (lineOf ts vs) = .ok bs := by
  obtain ⟨h1, h2, h3⟩ := cells_text h
  have hw : writeRecord ts vs = .ok (recLine (textRow ts vs)) := by simp [writeRecord, h1]
  have hl : lineOf ts vs = recLine (textRow ts vs) := by simp [lineOf, hw]
  refine ⟨by rw [hl, hw], hl, ?_⟩
  rw [hl]
  have := h3 [] (blanks (80 - (textRow ts vs).length) ++ ['\n'])
  simpa [readRecord, recLine, padRight] using this

theorem cell_ne {t : Tok} {v b : Val} (h : Cell t v b) (hb : b ≠ .none) (hS : t.kind ≠ .S) :
    ∃ c ∈ fieldOf t v, isSpace c = false := by
  obtain ⟨-, -, h3⟩ := cell_field h
  by_contra hc
  have : ∀ c ∈ fieldOf t v, isSpace c = true := by
    intro c hm
    by_contra hx
    exact hc ⟨c, hm, by simpa using hx⟩
  rw [readField, if_neg hS, (strip_eq_nil_iff _).2 this] at h3
  simp at h3
  exact hb h3.symm

/-- A record whose first cell is a text is not blank. -/
theorem isBlank_cells {t : Tok} {ts : List Tok} {v b : Val} {vs bs : List Val}
    (h : Cells (t :: ts) (v :: vs) (b :: bs)) (hb : b ≠ .none) (hS : t.kind ≠ .S) :
    isBlank (lineOf (t :: ts) (v :: vs)) = false := by
  rw [isBlank_eq_false_iff, (cells_line h).2.1]
  obtain ⟨c, hc, hs⟩ := cell_ne h.1 hb hS
  exact ⟨c, by simp [recLine, padRight, textRow, hc], hs⟩

theorem detect_text {L : ℕ} {s nxt : Str} (hL : 5 ≤ L ∧ L ≤ 9) (h1 : s.length = L)
    (h2 : ∀ c ∈ s.drop 5, isDigit c = true) (h3 : ∀ c ∈ nxt.head?, isDigit c = false) :
    getLabelLength ((s ++ nxt).take 9) = L := by
  have := Props.C07_label_length_detected (s.take 5) (s.drop 5) nxt (by simp; omega) (by simp; omega)
    h2 h3
  rw [List.take_append_drop] at this
  rw [this, h1]

/-- The label length is detected from the first record of cells. -/
theorem detect_cells {L : ℕ} {k v : Val} {t : Tok} {ts : List Tok} {vs bs : List Val}
    (hL : 5 ≤ L ∧ L ≤ 9) (h : Cells (sCol L :: t :: ts) (k :: v :: vs) bs) (ht : 0 < t.w)
    (hd : Detectable L k (fieldOf t v)) :
    getLabelLength ((lineOf (sCol L :: t :: ts) (k :: v :: vs)).take 9) = L := by
  rw [(cells_line h).2.1]
  cases bs with
  | nil => simp [Cells] at h
  | cons b bs =>
    cases bs with
    | nil => simp [Cells] at h
    | cons b' bs =>
      obtain ⟨-, hc, -⟩ := h
      obtain ⟨-, hlen, -⟩ := cell_field hc
      cases k with
      | str s =>
        obtain ⟨h1, h2, h3⟩ := hd
        have hk : fieldOf (sCol L) (.str s) = s := by
          simp [fieldOf, toStr, padRight, h1, blanks]
        have e : recLine (textRow (sCol L :: t :: ts) (.str s :: v :: vs)) =
            s ++ (fieldOf t v ++ (textRow ts vs ++
              (blanks (80 - (textRow (sCol L :: t :: ts) (.str s :: v :: vs)).length) ++ ['\n']))) := by
          simp [recLine, padRight, textRow, hk, List.append_assoc]
        rw [e]
        refine detect_text hL h1 h2 ?_
        intro c hc
        cases hf : fieldOf t v with
        | nil => rw [hf] at hlen; simp at hlen; omega
        | cons x xs =>
          rw [hf] at hc h3
          exact h3 c (by simpa using hc)
      | none => exact hd.elim
      | bool _ => exact hd.elim
      | int _ => exact hd.elim
      | flt _ => exact hd.elim

/-! ### rows -/

theorem rowsFor_spec {β : Type} {d : List (Val × β)} (hd : (d.map (·.1)).Nodup)
    {order : Option (List Val)} (ho : OrderOk order (d.map (·.1))) :
    (rowsFor order d).map (·.1) = rowOrder order d ∧ (∀ e ∈ rowsFor order d, e ∈ d) ∧
      (∀ e ∈ rowsFor order d, dictGet d e.1 = .ok e.2) ∧ ((rowsFor order d).map (·.1)).Nodup := by
  cases order with
  | none => exact ⟨rfl, fun _ h => h, fun e he => dictGet_mem hd he, hd⟩
  | some o =>
    obtain ⟨l, h1, h2, h3⟩ := exists_rows d hd o (ho o rfl).2
    have hl : inOrder d o = l := by
      unfold inOrder
      rw [← h1, List.filterMap_map]
      have : ∀ e ∈ l, ((fun k => (d.lookup k).map fun v => (k, v)) ∘ fun x => x.1) e = some e := by
        intro e he
        have := h3 e he
        unfold dictGet at this
        simp only [Function.comp]
        cases hl : d.lookup e.1 with
        | none => rw [hl] at this; cases this
        | some v => rw [hl] at this; cases this; rfl
      rw [List.filterMap_congr this, List.filterMap_some]
    have hr : rowsFor (some o) d = l := hl
    rw [hr]
    exact ⟨h1, h2, h3, by rw [h1]; exact (ho o rfl).1⟩

theorem foldl_addRow {β γ : Type} (f : β → γ) (xs : List (Val × β)) (s : Table γ)
    (h : (s.1.map (·.1) ++ xs.map (·.1)).Nodup) :
    xs.foldl (fun s x => addRow s x.1 (f x.2)) s =
      (s.1 ++ xs.map (fun x => (x.1, f x.2)), s.2 ++ xs.map (·.1)) := by
  induction xs generalizing s with
  | nil => simp
  | cons x xs ih =>
    have hx : x.1 ∉ s.1.map (·.1) := by
      intro hm
      have := List.disjoint_of_nodup_append h hm
      simp at this
    rw [List.foldl_cons, ih]
    · simp [addRow, dictSet_of_notMem _ _ _ hx]
    · simpa [addRow, dictSet_of_notMem _ _ _ hx] using h

theorem labelLength_given {L : ℕ} (h : 5 ≤ L) (line : Str) : labelLength (some L) line = L := by
  obtain ⟨n, rfl⟩ : ∃ n, L = n + 1 := ⟨L - 1, by omega⟩
  rfl

theorem fits_name' {L : ℕ} {k : Val} (h : NameFits L k) : Cell (sCol L) k k := by
  have := cell_of_fits (t := sCol L) (v := k) (fits_name h)
  rwa [stored_name h] at this

theorem name_ne {L : ℕ} {k : Val} (h : NameFits L k) : k ≠ .none := by
  rintro rfl; exact h

/-- Reading a table: the first line is looked at for the label length, then each
row is one item. -/
theorem read_rows {β : Type} {step : Except PyErr (List Tok) → Table β → List Str →
      Except PyErr (Turn (Table β) × List Str)} {table : ℕ → Option (List Tok)} {L : ℕ}
    {given : Option ℕ} {α : Type} (w : Val × α → Str) (f : α → β) (xs : List (Val × α))
    (hn : (xs.map (·.1)).Nodup)
    (hlab : ∀ x ∈ xs.head?, labelLength given (w x) = L)
    (hstep : ∀ x ∈ xs, ∀ s rest, step (formatFor table L) s (w x :: rest) =
      .ok (.more (addRow s x.1 (f x.2)), rest))
    (hstop : ∀ fm s rest, step fm s (['\n'] :: rest) = .ok (.stop s, rest)) (rest : List Str) :
    (do let (line, _) ← next (xs.map w ++ ['\n'] :: rest)
        whileTrue (step (formatFor table (labelLength given line))) ([], [])
          (xs.map w ++ ['\n'] :: rest)) =
      .ok ((xs.map fun x => (x.1, f x.2), xs.map (·.1)), rest) := by
  have hflat : xs.map w = xs.flatMap fun x => [w x] := List.map_eq_flatMap
  cases xs with
  | nil => simp [whileTrue, loop, hstop]
  | cons x xs =>
    have hnx : next ((x :: xs).map w ++ ['\n'] :: rest) = .ok (w x, xs.map w ++ ['\n'] :: rest) := rfl
    rw [hnx, ok_bind]
    simp only [hlab x (by simp)]
    rw [hflat]
    have := whileTrue_items (step := step (formatFor table L)) (fun x => [w x])
      (fun s x => addRow s x.1 (f x.2)) (fun y => y ∈ x :: xs) (by simp)
      (fun s y rest hy => hstep y hy s rest) (x :: xs) (fun _ h => h) ([], []) ['\n'] rest
      (fun s => hstop _ s rest)
    rw [this, foldl_addRow f _ _ (by simpa using hn)]
    simp

/-- Writing the rows of a table one after the other. -/
theorem concat_rows {α : Type} (d : List (Val × α)) (w : Val → α → Except PyErr (List Str))
    (ls : Val × α → List Str) (rows : List (Val × α)) (h3 : ∀ e ∈ rows, dictGet d e.1 = .ok e.2)
    (hw : ∀ e ∈ rows, w e.1 e.2 = .ok (ls e)) :
    concatM (fun k => dictGet d k >>= fun e => w k e) (rows.map (·.1)) =
      .ok (rows.flatMap ls) := by
  induction rows with
  | nil => rfl
  | cons e l ih =>
    simp only [List.map_cons, concatM, h3 e (by simp), ok_bind, hw e (by simp),
      ih (fun x hx => h3 x (by simp [hx])) (fun x hx => hw x (by simp [hx])), List.flatMap_cons]

end Verif.Model
