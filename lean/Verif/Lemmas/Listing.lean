import Verif.Spec.Listing
import Verif.Lemmas.Tecplot
import Verif.Lemmas.Cells
import Verif.Lemmas.Layout

/-!
# Lemmas about the main output files of TOUGH
-/

namespace Verif.Model
open Verif.Py Verif.Spec

/-! ### words -/

theorem words_spaced {l : List Spaced} (h : ∀ c ∈ l, Word c.text) {r : Str}
    (hr : ∀ c ∈ r, isSpace c = true) : words (spacedText l ++ r) = l.map (·.text) := by
  induction l with
  | nil => exact wordsFrom_spaces hr
  | cons c l ih =>
    obtain ⟨h1, h2⟩ := h c (by simp)
    have e : spacedText (c :: l) ++ r = blanks (c.gap + 1) ++ (c.text ++ (spacedText l ++ r)) := by
      simp [spacedText]
    rw [e, words_spaces_append (blanks_space _), words_token h1 h2, ih fun c hc => h c (by simp [hc])]
    · rfl
    · cases l with
      | nil =>
        cases r with
        | nil => simp [spacedText]
        | cons d r => simpa [spacedText] using hr d (by simp)
      | cons d l =>
        have : (spacedText (d :: l) ++ r).head? = some ' ' := by
          simp [spacedText, blanks, List.replicate_succ]
        rw [this]
        intro c hc
        cases hc
        decide

theorem rstrip_prefix' (s : Str) : rstrip s <+: s := by
  have h := List.dropWhile_suffix (l := s.reverse) isSpace
  have := List.reverse_prefix.2 h
  rwa [List.reverse_reverse] at this

theorem prefix_rstrip {w : Str} (h : Word w) (x : Str) : w <+: rstrip (w ++ x) := by
  obtain ⟨h1, h2⟩ := h
  have hp : rstrip (w ++ x) <+: w ++ x := rstrip_prefix' _
  refine List.prefix_of_prefix_length_le (List.prefix_append _ _) hp ?_
  by_contra hlt
  push Not at hlt
  obtain ⟨y, hy⟩ := List.prefix_of_prefix_length_le hp (List.prefix_append w x) hlt.le
  have hyn : y ≠ [] := by
    rintro rfl
    rw [List.append_nil] at hy
    rw [hy] at hlt
    exact lt_irrefl _ hlt
  obtain ⟨c, y', rfl⟩ := List.exists_cons_of_ne_nil hyn
  have hall : ∀ d ∈ (c :: y') ++ x, isSpace d = true := by
    have e : rstrip (w ++ x) ++ ((c :: y') ++ x) = w ++ x := by rw [← List.append_assoc, hy]
    have hs := List.takeWhile_append_dropWhile (p := isSpace) (l := (w ++ x).reverse)
    have h3 : (w ++ x) = rstrip (w ++ x) ++ ((w ++ x).reverse.takeWhile isSpace).reverse := by
      conv_lhs => rw [← List.reverse_reverse (w ++ x), ← hs, List.reverse_append]
      rfl
    have h4 : (c :: y') ++ x = ((w ++ x).reverse.takeWhile isSpace).reverse :=
      List.append_cancel_left (e.trans h3)
    intro d hd
    rw [h4, List.mem_reverse] at hd
    exact (List.all_takeWhile (p := isSpace) (l := (w ++ x).reverse) |> List.all_eq_true.1) d hd
  have := hall c (by simp)
  rw [h2 c (by rw [← hy]; simp)] at this
  cases this

/-! ### one row -/

theorem joinLabels_first {sep : Str} {ls : List Str} {s : Str} (h : ls.head? = some s) :
    ∃ r, joinLabels sep ls = s ++ r ∧ (ls.tail = [] → r = []) ∧ (ls.tail ≠ [] → r = sep ++ joinLabels sep ls.tail) := by
  match ls, h with
  | [s], rfl => exact ⟨[], by simp [joinLabels], by simp, by simp⟩
  | s :: t :: l, rfl => exact ⟨_, rfl, by simp, fun _ => rfl⟩

/-- The part of a row after the blanks. -/
def rowText' (r : ListingRow) : Str :=
  joinLabels r.sep r.labels ++ (spacedText (r.index :: r.cells) ++ (blanks r.trail ++ ['\n']))

theorem row_start {L m n : ℕ} {r : ListingRow} (h : RowFits L m n r) (hm : 0 < m) (hL : 5 ≤ L) :
    ∃ s x, r.labels.head? = some s ∧ TableLabel L s ∧ rowText' r = s ++ x ∧ x ≠ [] ∧
      ∀ c ∈ x.head?, isDigit c = false := by
  obtain ⟨-, h2, h3, h4, h5, h6, -⟩ := h
  obtain ⟨s, ls, hl⟩ : ∃ s ls, r.labels = s :: ls := by
    cases hl : r.labels with
    | nil => rw [hl] at h2; simp at h2; omega
    | cons s ls => exact ⟨s, ls, rfl⟩
  obtain ⟨x, hx, hx1, hx2⟩ := joinLabels_first (sep := r.sep) (ls := r.labels) (s := s) (by rw [hl]; rfl)
  refine ⟨s, x ++ (spacedText (r.index :: r.cells) ++ (blanks r.trail ++ ['\n'])), by rw [hl]; rfl,
    h3 s (by rw [hl]; simp), ?_, by simp, ?_⟩
  · unfold rowText'
    rw [hx, List.append_assoc]
  · by_cases ht : r.labels.tail = []
    · rw [hx1 ht]
      have : ∀ y, (spacedText (r.index :: r.cells) ++ y).head? = some ' ' := by
        simp [spacedText, blanks, List.replicate_succ]
      rw [List.nil_append, this]
      intro c hc
      cases hc
      decide
    · rw [hx2 ht]
      obtain ⟨a, b, hab⟩ : ∃ a b, r.sep = a :: b := by
        cases hs : r.sep with
        | nil => rw [hs] at h4; simp at h4
        | cons a b => exact ⟨a, b, rfl⟩
      rw [hab]
      intro c hc
      simp at hc
      subst hc
      exact h5 a (by rw [hab]; simp)

theorem line_eq (r : ListingRow) : r.line = blanks r.indent ++ rowText' r := rfl

theorem lstrip_row {L m n : ℕ} {r : ListingRow} (h : RowFits L m n r) (hm : 0 < m) (hL : 5 ≤ L) :
    lstrip r.line = rowText' r := by
  obtain ⟨s, x, -, ⟨h1, -, h3, -⟩, hx, -⟩ := row_start h hm hL
  rw [line_eq, lstrip_spaces_append (blanks_space _), lstrip_eq_self]
  rw [hx]
  cases s with
  | nil => simp at h1; omega
  | cons c s => simpa using h3

theorem isRow_row {L m n : ℕ} {r : ListingRow} (h : RowFits L m n r) (hm : 0 < m) (hL : 5 ≤ L) :
    isRow r.line = true := by
  obtain ⟨s, x, -, ⟨h1, -, h3, -, h4⟩, hx, -⟩ := row_start h hm hL
  have hi := h.1
  obtain ⟨c, s', rfl⟩ : ∃ c s', s = c :: s' := by
    cases s with
    | nil => simp at h1; omega
    | cons c s => exact ⟨c, s, rfl⟩
  have hc : isSpace c = false := h3 c (by simp)
  unfold isRow
  rw [Bool.and_eq_true]
  constructor
  · rw [decide_eq_true_eq, Ne, strip_eq_nil_iff]
    intro hall
    have : c ∈ r.line.take 10 := by
      rw [line_eq, hx, List.take_append, blanks, List.length_replicate]
      obtain ⟨k, hk⟩ : ∃ k, 10 - r.indent = k + 1 := ⟨9 - r.indent, by omega⟩
      rw [hk]
      simp
    rw [hall c this] at hc
    cases hc
  · rw [Bool.not_eq_true', ← Bool.not_eq_true, startsWith, List.isPrefixOf_iff_prefix]
    intro hp
    rw [line_eq, strip_spaces_append (blanks_space _)] at hp
    have hp' : "ELEM".toList <+: rowText' r := by
      refine hp.trans ?_
      have : strip (rowText' r) = rstrip (rowText' r) := by
        unfold strip
        rw [lstrip_eq_self]
        rw [hx]
        simpa using hc
      rw [this]
      exact rstrip_prefix' _
    rw [hx] at hp'
    apply h4
    refine List.prefix_of_prefix_length_le hp' (List.prefix_append _ _) ?_
    rw [h1]
    exact le_trans (by decide) hL

theorem not_end_row {L m n : ℕ} {r : ListingRow} (h : RowFits L m n r) (hm : 0 < m) (hL : 5 ≤ L) :
    startsWith (r.line.drop 1) "@@@@@".toList = false := by
  obtain ⟨s, x, -, ⟨h1, -, -, h4, -⟩, hx, -⟩ := row_start h hm hL
  rw [← Bool.not_eq_true, startsWith, List.isPrefixOf_iff_prefix]
  rintro ⟨t, ht⟩
  have hmem : ∀ c ∈ (r.line.drop 1).head?, c ≠ '@' := by
    intro c hc
    have h2 : c ∈ (r.line.drop 1).head? := hc
    rw [line_eq, hx] at h2
    obtain ⟨a, b, s', rfl⟩ : ∃ a b s', s = a :: b :: s' := by
      match s, h1 with
      | [], h1 => simp at h1; omega
      | [a], h1 => simp at h1; omega
      | a :: b :: s', _ => exact ⟨a, b, s', rfl⟩
    have ha : a ≠ '@' := fun h => h4 (by simp [h])
    have hb : b ≠ '@' := fun h => h4 (by simp [h])
    match hi : r.indent with
    | 0 =>
      rw [hi] at h2
      simp [blanks] at h2
      exact h2 ▸ hb
    | 1 =>
      rw [hi] at h2
      simp [blanks] at h2
      exact h2 ▸ ha
    | k + 2 =>
      rw [hi] at h2
      simp [blanks, List.replicate_succ] at h2
      subst h2
      decide
  rw [← ht] at hmem
  exact hmem '@' (by simp) rfl

theorem floatOrNan_eq : floatOrNan = cellNumber := rfl

theorem listRow_row {type : OutType} {L n : ℕ} {r : ListingRow}
    (h : RowFits L (labelHeaders type).length n r) (hL : 5 ≤ L) :
    listRow type L (rowText' r) = ⟨r.labels, (r.index :: r.cells).map fun c => cellNumber c.text⟩ := by
  obtain ⟨-, h2, h3, h4, -, h6, -⟩ := h
  have hw : words (spacedText (r.index :: r.cells) ++ (blanks r.trail ++ ['\n'])) =
      (r.index :: r.cells).map (·.text) := by
    refine words_spaced h6 ?_
    intro c hc
    rcases List.mem_append.1 hc with hc | hc
    · exact blanks_space _ c hc
    · simp at hc; subst hc; decide
  cases type with
  | element =>
    obtain ⟨s, hs⟩ : ∃ s, r.labels = [s] := List.length_eq_one_iff.1 h2
    have hl : s.length = L := (h3 s (by rw [hs]; simp)).1
    unfold listRow rowText'
    simp only [hs, joinLabels]
    rw [List.take_left' hl, List.drop_left' hl, hw, List.map_map, floatOrNan_eq]
    rfl
  | connection =>
    obtain ⟨s, t, hs⟩ : ∃ s t, r.labels = [s, t] := List.length_eq_two.1 h2
    have hl : s.length = L := (h3 s (by rw [hs]; simp)).1
    have ht : t.length = L := (h3 t (by rw [hs]; simp)).1
    unfold listRow rowText'
    simp only [hs, joinLabels]
    have e : (s ++ (r.sep ++ t)).length = 2 * L + 2 := by simp [hl, ht, h4]; omega
    have e2 : (s ++ r.sep).length = L + 2 := by simp [hl, h4]
    rw [List.take_left' e, List.drop_left' e, hw, List.map_map, floatOrNan_eq]
    rw [List.append_assoc, List.take_left' hl, ← List.append_assoc s, List.drop_left' e2]
    rfl

theorem firstLength_row {L m n : ℕ} {r : ListingRow} (h : RowFits L m n r) (hm : 0 < m) (hL : 5 ≤ L)
    (hL9 : L ≤ 9) : firstLength none (rowText' r) = .ok L := by
  obtain ⟨s, x, -, ⟨h1, h2, -⟩, hx, -, h5⟩ := row_start h hm hL
  unfold firstLength
  rw [hx]
  simp only
  congr 1
  exact detect_text ⟨hL, hL9⟩ h1 h2 h5

/-! ### the table -/

/-- A row as it is read. -/
def rowRead (r : ListingRow) : CsvRow :=
  ⟨r.labels, (r.index :: r.cells).map fun c => cellNumber c.text⟩

theorem rowsOf_cons (t : ListingRow ⊕ Str) (ts : List (ListingRow ⊕ Str)) :
    (t :: ts).filterMap Sum.getLeft? = (match t with
      | .inl r => [r]
      | .inr _ => []) ++ ts.filterMap Sum.getLeft? := by
  cases t <;> rfl

theorem not_isRow {l : Str} (h : BetweenRows l) : isRow l = false := by
  unfold isRow
  rcases h.1 with h | h
  · simp [h]
  · have : startsWith (strip l) "ELEM".toList = true := by
      rw [startsWith, List.isPrefixOf_iff_prefix]
      exact h
    rw [this]
    simp

theorem listRows_eq (type : OutType) (given : Option ℕ) (len : Option ℕ) (line : Str) (ls : List Str) :
    listRows type given len line ls = (do
      let (len, rows) ← (if isRow line then
          match len with
          | some n => .ok (some n, [listRow type n (lstrip line)])
          | none => do
            let n ← firstLength given (lstrip line)
            .ok (some n, [listRow type n (lstrip line)])
        else .ok (len, []) : Except PyErr (Option ℕ × List CsvRow))
      match ls with
      | [] => .error .stopIteration
      | l :: ls =>
        if startsWith (l.drop 1) "@@@@@".toList then .ok (len, rows, ls)
        else do
          let (len, rows', ls) ← listRows type given len l ls
          .ok (len, rows ++ rows', ls)) := by
  rw [listRows.eq_def]
  cases ls <;> rfl

theorem listRows_table {type : OutType} {L n : ℕ} (hL : 5 ≤ L) (hL9 : L ≤ 9) {last : Str}
    (hlast : "@@@@@".toList <+: last.drop 1) (after : List Str) :
    ∀ (ts : List (ListingRow ⊕ Str)) (t : ListingRow ⊕ Str) (len : Option ℕ),
      len = none ∨ len = some L →
      (∀ r, .inl r ∈ t :: ts → RowFits L (labelHeaders type).length n r) →
      (∀ l, .inr l ∈ t :: ts → BetweenRows l) →
      ∃ len', (len' = none ∨ len' = some L) ∧
        listRows type none len (tableLine t) (ts.map tableLine ++ last :: after) =
          .ok (len', ((t :: ts).filterMap Sum.getLeft?).map rowRead, after) := by
  have hm : 0 < (labelHeaders type).length := by cases type <;> decide
  have key : ∀ (t : ListingRow ⊕ Str) (len : Option ℕ), len = none ∨ len = some L →
      (∀ r, t = .inl r → RowFits L (labelHeaders type).length n r) → (∀ l, t = .inr l → BetweenRows l) →
      ∃ len', (len' = none ∨ len' = some L) ∧
        (if isRow (tableLine t) then
          match len with
          | some n => .ok (some n, [listRow type n (lstrip (tableLine t))])
          | none => do
            let n ← firstLength none (lstrip (tableLine t))
            .ok (some n, [listRow type n (lstrip (tableLine t))])
        else .ok (len, []) : Except PyErr (Option ℕ × List CsvRow)) =
        .ok (len', ([t].filterMap Sum.getLeft?).map rowRead) := by
    intro t len hlen h1 h2
    cases t with
    | inr l =>
      refine ⟨len, hlen, ?_⟩
      simp [tableLine, not_isRow (h2 l rfl)]
    | inl r =>
      have hr := h1 r rfl
      refine ⟨some L, .inr rfl, ?_⟩
      simp only [tableLine, isRow_row hr hm hL, if_true, lstrip_row hr hm hL]
      rcases hlen with rfl | rfl
      · simp only [firstLength_row hr hm hL hL9, ok_bind, listRow_row hr hL]
        rfl
      · simp only [listRow_row hr hL]
        rfl
  intro ts
  induction ts with
  | nil =>
    intro t len hlen h1 h2
    obtain ⟨len', hl, he⟩ := key t len hlen (fun r hr => h1 r (by simp [hr])) fun l hl => h2 l (by simp [hl])
    refine ⟨len', hl, ?_⟩
    rw [listRows_eq, he, ok_bind]
    simp only [List.map_nil, List.nil_append]
    have : startsWith (last.drop 1) "@@@@@".toList = true := by
      rw [startsWith, List.isPrefixOf_iff_prefix]
      exact hlast
    rw [if_pos this]
  | cons t' ts ih =>
    intro t len hlen h1 h2
    obtain ⟨len', hl, he⟩ := key t len hlen (fun r hr => h1 r (by simp [hr])) fun l hl => h2 l (by simp [hl])
    obtain ⟨len2, hl2, he2⟩ := ih t' len' hl (fun r hr => h1 r (List.mem_cons_of_mem _ hr))
      fun l hl => h2 l (List.mem_cons_of_mem _ hl)
    refine ⟨len2, hl2, ?_⟩
    rw [listRows_eq, he, ok_bind]
    simp only [List.map_cons, List.cons_append]
    have : startsWith ((tableLine t').drop 1) "@@@@@".toList = false := by
      cases ht : t' with
      | inl r => exact not_end_row (h1 r (by simp [ht])) hm hL
      | inr l =>
        rw [← Bool.not_eq_true, startsWith, List.isPrefixOf_iff_prefix]
        exact (h2 l (by simp [ht])).2
    rw [this, if_neg (by simp), he2, ok_bind]
    rw [← List.map_append, ← List.filterMap_append]
    rfl

theorem nextFilled_table {type : OutType} {L n : ℕ} (hL : 5 ≤ L) (rest : List Str) :
    ∀ (ts : List (ListingRow ⊕ Str)),
      (∀ r, .inl r ∈ ts → RowFits L (labelHeaders type).length n r) →
      ts.filterMap Sum.getLeft? ≠ [] →
      ∃ t ts', (t :: ts' : List (ListingRow ⊕ Str)) <:+ ts ∧
        nextFilled (ts.map tableLine ++ rest) = .ok (tableLine t, ts'.map tableLine ++ rest) ∧
        (t :: ts').filterMap Sum.getLeft? = ts.filterMap Sum.getLeft? := by
  have hm : 0 < (labelHeaders type).length := by cases type <;> decide
  intro ts
  induction ts with
  | nil => simp
  | cons t ts ih =>
    intro h1 h2
    by_cases hs : strip (tableLine t) = []
    · cases t with
      | inl r =>
        have := isRow_row (h1 r (by simp)) hm hL
        unfold isRow at this
        rw [Bool.and_eq_true, decide_eq_true_eq] at this
        refine absurd ?_ this.1
        rw [strip_eq_nil_iff] at hs ⊢
        exact fun c hc => hs c (List.mem_of_mem_take hc)
      | inr l =>
        obtain ⟨t, ts', ha, hb, hc⟩ := ih (fun r hr => h1 r (List.mem_cons_of_mem _ hr)) (by rwa [rowsOf_cons] at h2)
        refine ⟨t, ts', ha.trans (List.suffix_cons _ _), ?_, by rw [hc]; rfl⟩
        rw [List.map_cons, List.cons_append, nextFilled, if_neg (by simpa using hs), hb]
    · exact ⟨t, ts, List.suffix_refl _, by rw [List.map_cons, List.cons_append, nextFilled, if_pos hs], rfl⟩

/-! ### one time -/

/-- With a given number of characters the first row fails. -/
theorem listRows_given {type : OutType} {L n g : ℕ} (hL : 5 ≤ L) (last : Str) (after : List Str) :
    ∀ (ts : List (ListingRow ⊕ Str)) (t : ListingRow ⊕ Str),
      (∀ r, .inl r ∈ t :: ts → RowFits L (labelHeaders type).length n r) →
      (∀ l, .inr l ∈ t :: ts → BetweenRows l) → (t :: ts).filterMap Sum.getLeft? ≠ [] →
      listRows type (some (g + 1)) none (tableLine t) (ts.map tableLine ++ last :: after) =
        .error .unboundLocalError := by
  have hm : 0 < (labelHeaders type).length := by cases type <;> decide
  intro ts
  induction ts with
  | nil =>
    intro t h1 h2 h3
    cases t with
    | inr l => exact absurd rfl h3
    | inl r =>
      rw [listRows_eq, tableLine, if_pos (isRow_row (h1 r (by simp)) hm hL)]
      rfl
  | cons t' ts ih =>
    intro t h1 h2 h3
    cases t with
    | inr l =>
      have h0 := h2 l (by simp)
      rw [listRows_eq, tableLine, not_isRow h0, if_neg (by simp), ok_bind]
      simp only [List.map_cons, List.cons_append]
      have : startsWith ((tableLine t').drop 1) "@@@@@".toList = false := by
        cases ht : t' with
        | inl r => exact not_end_row (h1 r (by simp [ht])) hm hL
        | inr l =>
          rw [← Bool.not_eq_true, startsWith, List.isPrefixOf_iff_prefix]
          exact (h2 l (by simp [ht])).2
      rw [this, if_neg (by simp), ih t' (fun r hr => h1 r (List.mem_cons_of_mem _ hr))
        (fun l hl => h2 l (List.mem_cons_of_mem _ hl)) h3]
      rfl
    | inl r =>
      rw [listRows_eq, tableLine, if_pos (isRow_row (h1 r (by simp)) hm hL)]
      rfl

theorem findTable_eq {key : Str} {before : List Str} (h : ∀ l ∈ before, ¬ key <+: strip l) {head : Str}
    (hh : key <+: strip head) (rest : List Str) :
    findTable key (before ++ head :: rest) = .ok (strip head, rest) := by
  induction before with
  | nil =>
    rw [List.nil_append, findTable, if_pos]
    rw [startsWith, List.isPrefixOf_iff_prefix]
    exact hh
  | cons l b ih =>
    rw [List.cons_append, findTable, if_neg, ih fun l hl => h l (by simp [hl])]
    rw [startsWith, List.isPrefixOf_iff_prefix]
    exact h l (by simp)

theorem listStep_eq {type : OutType} {L n : ℕ} (hL : 5 ≤ L) (hL9 : L ≤ 9) (hn : 0 < n) {vars : List Str}
    {s : ListingStep} (h : StepFits (tableKey type) L (labelHeaders type).length n vars s)
    {len : Option ℕ} (hlen : len = none ∨ len = some L) (rest : List Str) :
    ∃ len' t, (len' = none ∨ len' = some L) ∧ pyFloat s.timeText = some t ∧
      listStep type none len (s.lines.tail ++ rest) =
        .ok (s.head :: (s.heads ++ s.vars).map (·.text), len', (t, s.rows.map rowRead), s.after ++ rest) := by
  obtain ⟨-, ht1, ht2, ht3, hb, hh1, hh2, hh3, hh4, hv, hr1, hr2, hbt, hlast, -⟩ := h
  obtain ⟨t, ht⟩ := Option.isSome_iff_exists.1 ht3
  have hr : ∀ r, .inl r ∈ s.table → RowFits L (labelHeaders type).length vars.length r := fun r hr =>
    hr1 r (List.mem_filterMap.2 ⟨_, hr, rfl⟩)
  obtain ⟨t0, ts, h1, h2, h3⟩ := nextFilled_table hL (s.last :: (s.after ++ rest)) s.table hr (by
    intro h
    unfold ListingStep.rows at hr2
    rw [h] at hr2
    simp at hr2
    omega)
  obtain ⟨len', hl, he⟩ := listRows_table hL hL9 hlast (s.after ++ rest) ts t0 len hlen
    (fun r h => hr r (h1.subset h)) fun l h => hbt l (h1.subset h)
  refine ⟨len', t, hl, ht, ?_⟩
  have e1 : words (strip (blanks s.timeGap ++ (s.timeText ++ s.timeRest))) =
      s.timeText :: words s.timeRest := by
    rw [words_strip, words_spaces_append (blanks_space _), words_token ht1.1 ht1.2 ht2]
  have e2 : strip (blanks s.headGap ++ (s.head ++ (spacedText (s.heads ++ s.vars) ++ ['\n']))) =
      rstrip (s.head ++ (spacedText (s.heads ++ s.vars) ++ ['\n'])) := by
    rw [strip_spaces_append (blanks_space _), strip, lstrip_eq_self]
    obtain ⟨h0, h1⟩ := hh1
    cases hs : s.head with
    | nil => exact absurd hs h0
    | cons c l => simpa using h1 c (by rw [hs]; simp)
  have e3 : words (strip (blanks s.headGap ++ (s.head ++ (spacedText (s.heads ++ s.vars) ++ ['\n'])))) =
      s.head :: (s.heads ++ s.vars).map (·.text) := by
    rw [words_strip, words_spaces_append (blanks_space _), words_token hh1.1 hh1.2,
      words_spaced hh4 (by simp; decide)]
    cases hl : s.heads ++ s.vars with
    | nil => simp [spacedText]; decide
    | cons c l =>
      simp [spacedText, blanks, List.replicate_succ]
      decide
  have e4 : s.head <+: strip (blanks s.headGap ++ (s.head ++ (spacedText (s.heads ++ s.vars) ++ ['\n']))) := by
    rw [e2]
    exact prefix_rstrip hh1 _
  have el : s.lines.tail ++ rest = (blanks s.timeGap ++ (s.timeText ++ s.timeRest)) ::
      (s.before ++ (blanks s.headGap ++ (s.head ++ (spacedText (s.heads ++ s.vars) ++ ['\n']))) ::
      (s.table.map tableLine ++ s.last :: (s.after ++ rest))) := by
    simp [ListingStep.lines]
  rw [el]
  unfold listStep listTime
  simp only [e1, rowAt, List.getElem?_cons_zero, toFloat, ht, ok_bind]
  rw [findTable_eq hb (hh2.trans e4), ok_bind]
  simp only
  rw [e3, h2, ok_bind]
  simp only
  rw [he, ok_bind, h3]
  rfl

theorem listStep_given {type : OutType} {L n g : ℕ} (hL : 5 ≤ L) (hn : 0 < n) {vars : List Str}
    {s : ListingStep} (h : StepFits (tableKey type) L (labelHeaders type).length n vars s) (rest : List Str) :
    listStep type (some (g + 1)) none (s.lines.tail ++ rest) = .error .unboundLocalError := by
  obtain ⟨-, ht1, ht2, ht3, hb, hh1, hh2, hh3, hh4, hv, hr1, hr2, hbt, hlast, -⟩ := h
  obtain ⟨t, ht⟩ := Option.isSome_iff_exists.1 ht3
  have hr : ∀ r, .inl r ∈ s.table → RowFits L (labelHeaders type).length vars.length r := fun r hr =>
    hr1 r (List.mem_filterMap.2 ⟨_, hr, rfl⟩)
  have h0 : s.table.filterMap Sum.getLeft? ≠ [] := by
    intro h
    unfold ListingStep.rows at hr2
    rw [h] at hr2
    simp at hr2
    omega
  obtain ⟨t0, ts, h1, h2, h3⟩ := nextFilled_table hL (s.last :: (s.after ++ rest)) s.table hr h0
  have he := listRows_given (g := g) hL s.last (s.after ++ rest) ts t0 (fun r h => hr r (h1.subset h))
    (fun l h => hbt l (h1.subset h)) (by rw [h3]; exact h0)
  have e1 : words (strip (blanks s.timeGap ++ (s.timeText ++ s.timeRest))) =
      s.timeText :: words s.timeRest := by
    rw [words_strip, words_spaces_append (blanks_space _), words_token ht1.1 ht1.2 ht2]
  have e2 : strip (blanks s.headGap ++ (s.head ++ (spacedText (s.heads ++ s.vars) ++ ['\n']))) =
      rstrip (s.head ++ (spacedText (s.heads ++ s.vars) ++ ['\n'])) := by
    rw [strip_spaces_append (blanks_space _), strip, lstrip_eq_self]
    obtain ⟨h0, h1⟩ := hh1
    cases hs : s.head with
    | nil => exact absurd hs h0
    | cons c l => simpa using h1 c (by rw [hs]; simp)
  have e4 : s.head <+: strip (blanks s.headGap ++ (s.head ++ (spacedText (s.heads ++ s.vars) ++ ['\n']))) := by
    rw [e2]
    exact prefix_rstrip hh1 _
  have el : s.lines.tail ++ rest = (blanks s.timeGap ++ (s.timeText ++ s.timeRest)) ::
      (s.before ++ (blanks s.headGap ++ (s.head ++ (spacedText (s.heads ++ s.vars) ++ ['\n']))) ::
      (s.table.map tableLine ++ s.last :: (s.after ++ rest))) := by
    simp [ListingStep.lines]
  rw [el]
  unfold listStep listTime
  simp only [e1, rowAt, List.getElem?_cons_zero, toFloat, ht, ok_bind]
  rw [findTable_eq hb (hh2.trans e4), ok_bind]
  simp only
  rw [h2, ok_bind]
  simp only
  rw [he]
  rfl

/-! ### the file -/

theorem not_total {l : Str} (h : ¬ "TOTAL TIME".toList <+: strip l) :
    ¬ startsWith (strip l) "TOTAL TIME".toList = true := by
  rwa [startsWith, List.isPrefixOf_iff_prefix]

theorem listLoop_skip {type : OutType} {given len : Option ℕ} {headers : Option (List Str)} {pre : List Str}
    (h : ∀ l ∈ pre, ¬ "TOTAL TIME".toList <+: strip l) (rest : List Str) {k : ℕ} :
    listLoop type given (k + pre.length) len headers (pre ++ rest) =
      listLoop type given k len headers rest := by
  induction pre with
  | nil => rfl
  | cons l pre ih =>
    rw [List.cons_append, List.length_cons, ← Nat.add_assoc, listLoop, if_neg (not_total (h l (by simp))),
      ih fun l hl => h l (by simp [hl])]

theorem listLoop_eq {type : OutType} {given : Option ℕ} {k : ℕ} {len : Option ℕ}
    {headers : Option (List Str)} {l : Str} (h : "TOTAL TIME".toList <+: strip l) (ls : List Str) :
    listLoop type given (k + 1) len headers (l :: ls) = (do
      let (headers, len, step, ls) ← listStep type given len ls
      let (headers, steps) ← listLoop type given k len (some headers) ls
      .ok (headers, step :: steps)) := by
  rw [listLoop, if_pos]
  rw [startsWith, List.isPrefixOf_iff_prefix]
  exact h

/-- The headers of a table. -/
def stepHeaders (s : ListingStep) : List Str := s.head :: (s.heads ++ s.vars).map (·.text)

theorem listLoop_given {type : OutType} {L n g : ℕ} (hL : 5 ≤ L) (hn : 0 < n) {vars : List Str}
    {s : ListingStep} (h : StepFits (tableKey type) L (labelHeaders type).length n vars s) (rest : List Str) (k : ℕ)
    (headers : Option (List Str)) :
    listLoop type (some (g + 1)) (k + 1) none headers (s.lines ++ rest) = .error .unboundLocalError := by
  have el : s.lines ++ rest = s.total :: (s.lines.tail ++ rest) := by simp [ListingStep.lines]
  rw [el, listLoop_eq h.1, listStep_given hL hn h rest]
  rfl

theorem listLoop_steps {type : OutType} {L : ℕ} (hL : 5 ≤ L) (hL9 : L ≤ 9) :
    ∀ (steps : List ListingStep) (k : ℕ) (len : Option ℕ) (headers : Option (List Str)),
      (∀ s ∈ steps, ∃ n vars, 0 < n ∧ StepFits (tableKey type) L (labelHeaders type).length n vars s) →
      (len = none ∨ len = some L) → (steps.flatMap (·.lines)).length ≤ k →
      ∃ res, List.Forall₂ (fun s (e : Flt × List CsvRow) => pyFloat s.timeText = some e.1 ∧
          e.2 = s.rows.map rowRead) steps res ∧
        listLoop type none k len headers (steps.flatMap (·.lines)) =
          .ok ((steps.getLast?.map stepHeaders).or headers, res) := by
  intro steps
  induction steps with
  | nil =>
    intro k len headers _ _ _
    refine ⟨[], .nil, ?_⟩
    cases k <;> rfl
  | cons s steps ih =>
    intro k len headers h hlen hk
    obtain ⟨n, vars, hn, hs⟩ := h s (by simp)
    obtain ⟨len', t, hl, ht, he⟩ := listStep_eq hL hL9 hn hs hlen (steps.flatMap (·.lines))
    have el : (s :: steps).flatMap (·.lines) = s.total :: (s.lines.tail ++ steps.flatMap (·.lines)) := by
      simp [ListingStep.lines]
    have hlenk : s.after.length + (steps.flatMap (·.lines)).length + 1 ≤ k := by
      rw [el, List.length_cons, List.length_append] at hk
      have : s.after.length ≤ s.lines.tail.length := by
        simp [ListingStep.lines]
        omega
      omega
    obtain ⟨k', rfl⟩ : ∃ k', k = k' + s.after.length + 1 := ⟨k - s.after.length - 1, by omega⟩
    obtain ⟨res, hres, her⟩ := ih k' len' (some (stepHeaders s)) (fun s hs => h s (by simp [hs])) hl (by omega)
    refine ⟨(t, s.rows.map rowRead) :: res, .cons ⟨ht, rfl⟩ hres, ?_⟩
    rw [el, listLoop_eq hs.1, he, ok_bind]
    simp only
    rw [listLoop_skip hs.2.2.2.2.2.2.2.2.2.2.2.2.2.2]
    rw [show s.head :: (s.heads ++ s.vars).map (·.text) = stepHeaders s from rfl, her, ok_bind]
    congr 2
    cases steps with
    | nil => simp
    | cons a b => simp [List.getLast?_cons_cons, List.getLast?_cons]

end Verif.Model
