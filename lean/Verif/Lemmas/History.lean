import Verif.Lemmas.Listing
import Verif.Lemmas.TecplotZone
import Verif.Lemmas.Avsucd
import Verif.Lemmas.Petrasim
import Verif.Lemmas.TecplotFile
import Verif.Spec.History

/-!
# Lemmas about history files
-/

namespace Verif.Model
open Verif.Py Verif.Spec Verif.Mesh

theorem words_wordLine {l : WordLine} (h : l.Ok) : words l.text = l.words := by
  rw [WordLine.text, words_spaces_append h.lead]
  have key : ∀ (rest : List (Str × Str)) (w : Str), Word w → (∀ e ∈ rest, e.1 ≠ [] ∧ OnlyBlanks e.1 ∧ Word e.2) →
      words (w ++ (rest.flatMap (fun e => e.1 ++ e.2) ++ l.trail)) = w :: rest.map (·.2) := by
    intro rest
    induction rest with
    | nil =>
      intro w hw _
      rw [List.flatMap_nil, List.nil_append, words_token hw.1 hw.2]
      · simp only [List.map_nil, List.cons.injEq, true_and]
        exact wordsFrom_spaces h.trail
      · intro c hc
        exact h.trail c (List.mem_of_mem_head? hc)
    | cons e rest ih =>
      intro w hw he
      obtain ⟨h1, h2, h3⟩ := he e (by simp)
      rw [List.flatMap_cons, words_token hw.1 hw.2]
      · rw [List.append_assoc, List.append_assoc, words_spaces_append h2, ih e.2 h3 fun e he' => he e (by simp [he']),
          List.map_cons]
      · intro c hc
        obtain ⟨d, t, hd⟩ := List.exists_cons_of_ne_nil h1
        rw [hd] at hc
        simp only [List.cons_append, List.head?_cons, Option.mem_def, Option.some.injEq] at hc
        exact h2 c (by rw [hd, ← hc]; simp)
  exact key l.rest l.first h.first h.rest

theorem commaLine_eq (ps : List Padded) : commaLine ps = joinWith ',' (ps.map Padded.str) := by
  induction ps with
  | nil => rfl
  | cons p r ih =>
    cases r with
    | nil => rfl
    | cons q r =>
      rw [List.map_cons, joinWith_cons (by simp), ← ih]
      rfl

theorem blanks_no_comma {s : Str} (h : OnlyBlanks s) : ',' ∉ s := fun hc => comma_not_space (h _ hc) rfl

theorem Padded.str_comma {p : Padded} (h : p.Ok) : ',' ∉ p.str := by
  simp only [Padded.str, List.mem_append, not_or]
  exact ⟨blanks_no_comma h.left, h.comma, blanks_no_comma h.right⟩

theorem Padded.str_strip {p : Padded} (h : p.Ok) : strip p.str = strip p.text := by
  rw [Padded.str, strip_spaces_append h.left, strip_append_spaces h.right]

/-- The numbers of a row separated by commas. -/
theorem commaRow {ps : List Padded} (h0 : ps ≠ []) (h : ∀ p ∈ ps, p.Ok) {xs : List Flt}
    (hx : Numbers (ps.map (·.text)) xs) : (splitOn ',' (strip (commaLine ps))).mapM toFloat = .ok xs := by
  have e1 : ∀ ts : List Str, ts.mapM toFloat = (ts.map strip).mapM toFloat := by
    intro ts
    induction ts with
    | nil => rfl
    | cons t ts ih => rw [List.map_cons, List.mapM_cons, List.mapM_cons, toFloat_strip, ih]
  rw [e1, splitOn_strip, commaLine_eq, splitOn_join (by simpa using h0), ← e1]
  · have h2 : ∀ (ps : List Padded) (xs : List Flt), (∀ p ∈ ps, p.Ok) → Numbers (ps.map (·.text)) xs →
        (ps.map Padded.str).mapM toFloat = .ok xs := by
      intro ps
      induction ps with
      | nil =>
        intro xs _ hx
        cases xs with
        | nil => rfl
        | cons x xs => cases hx
      | cons p ps ih =>
        intro xs h hx
        cases xs with
        | nil => cases hx
        | cons x xs =>
          simp only [Numbers, List.map_cons, List.cons.injEq] at hx
          rw [List.map_cons, List.mapM_cons, ih xs (fun p hp => h p (by simp [hp])) hx.2, ← toFloat_strip,
            Padded.str_strip (h p (by simp)), toFloat_strip, toFloat, hx.1]
          rfl
    exact h2 ps xs h hx
  · intro t ht
    obtain ⟨p, hp, rfl⟩ := List.mem_map.1 ht
    exact Padded.str_comma (h p hp)

theorem toFloat_numbers {ts : List Str} {xs : List Flt} (h : Numbers ts xs) : ts.mapM toFloat = .ok xs := by
  induction ts generalizing xs with
  | nil =>
    cases xs with
    | nil => rfl
    | cons x xs => cases h
  | cons t ts ih =>
    cases xs with
    | nil => cases h
    | cons x xs =>
      simp only [Numbers, List.map_cons, List.cons.injEq] at h
      rw [List.mapM_cons, ih h.2, toFloat, h.1]
      rfl

theorem historyRows_end (sep : Option Char) {ls : List Str} (h : TableEnd ls) : historyRows sep ls = .ok [] := by
  cases ls with
  | nil => rfl
  | cons l ls =>
    rw [historyRows, if_pos ((strip_eq_nil_iff l).2 (h l rfl))]

theorem historyRows_eq (sep : Option Char) {ls rest : List Str} {nums : List (List Flt)} (hr : TableEnd rest)
    (h : List.Forall₂ (fun l xs => strip l ≠ [] ∧ (splitAt sep (strip l)).mapM toFloat = .ok xs) ls nums) :
    historyRows sep (ls ++ rest) = .ok nums := by
  induction h with
  | nil => exact historyRows_end sep hr
  | cons hl _ ih => rw [List.cons_append, historyRows, if_neg hl.1, hl.2, ok_bind, ih, ok_bind]

theorem rectangular_of_length {α : Type} {rows : List (List α)} {k : ℕ} (h : ∀ r ∈ rows, r.length = k) :
    rectangular rows = true := by
  cases rows with
  | nil => rfl
  | cons r rs =>
    simp only [rectangular, List.all_eq_true, decide_eq_true_eq]
    intro s hs
    rw [h r (by simp), h s (by simp [hs])]

/-- The end of `read_history` for a table with a column for every name. -/
theorem history_table {names : List Str} {nums : List (List Flt)} (h0 : nums ≠ [])
    (hl : ∀ xs ∈ nums, xs.length = names.length + 1) (hn : ("TIME".toList :: names).Nodup) :
    (do let t ← rowAt (transposed nums) 0
        .ok (updateDict [("TIME".toList, t)] (names.zip ((transposed nums).drop 1))) : Except PyErr _) =
      .ok (historyTable names nums) := by
  have ht : transposed nums = (List.range (names.length + 1)).map (tableColumn nums) := by
    obtain ⟨x, r, rfl⟩ := List.exists_cons_of_ne_nil h0
    rw [transposed, List.headD_cons, hl x (by simp)]
    rfl
  have h1 : rowAt (transposed nums) 0 = .ok (tableColumn nums 0) := by
    rw [ht, rowAt, List.range_succ_eq_map]
    rfl
  have h2 : (transposed nums).drop 1 = (List.range names.length).map fun j => tableColumn nums (j + 1) := by
    rw [ht, List.range_succ_eq_map, List.map_cons, List.drop_succ_cons, List.drop_zero, List.map_map]
    rfl
  have h3 : names.zip ((List.range names.length).map fun j => tableColumn nums (j + 1)) =
      (names.zipIdx 1).map fun e => (e.1, tableColumn nums e.2) := by
    apply List.ext_getElem
    · simp
    · intro i h4 h5
      simp [Nat.add_comm]
  rw [h1, ok_bind, h2, h3, updateDict_append]
  · rfl
  · have : ((names.zipIdx 1).map fun e => (e.1, tableColumn nums e.2)).map (·.1) = names := by
      rw [List.map_map]
      exact List.zipIdx_map_fst 1 names
    rw [List.map_append, this]
    exact hn

theorem wordLine_ne {l : WordLine} (hl : l.Ok) : strip l.text ≠ [] := by
  intro h
  have := (strip_eq_nil_iff _).1 h
  obtain ⟨c, t, hc⟩ := List.exists_cons_of_ne_nil hl.first.1
  have h1 := hl.first.2 c (by rw [hc]; simp)
  rw [this c (by simp [WordLine.text, hc])] at h1
  cases h1

theorem commaLine_ne {ps : List Padded} (h0 : ps ≠ []) (h : ∀ p ∈ ps, p.Ok) {xs : List Flt}
    (hx : Numbers (ps.map (·.text)) xs) : strip (commaLine ps) ≠ [] := by
  intro hs
  have h1 := commaRow h0 h hx
  rw [hs] at h1
  revert h1
  simp only [splitOn]
  intro h1
  cases h1

theorem quote_not_space {s : Str} (h : OnlyBlanks s) : ∀ c ∈ s, c ≠ '"' := by
  rintro c hc rfl
  have := h _ hc
  revert this
  decide

theorem quoted_unquote {q : QuotedName} (h : q.Ok) : strip (unquote q.str) = q.name.text := by
  have h1 : unquote q.str = q.before ++ (q.name.str ++ q.after) := by
    rw [QuotedName.str, unquote_append, unquote_eq_self (quote_not_space h.before)]
    have e : ∀ s : Str, unquote ('"' :: s) = unquote s := fun s => by simp [unquote]
    rw [e, unquote_append, e, unquote_eq_self (quote_not_space h.after), unquote_eq_self]
    intro c hc
    simp only [Padded.str, List.mem_append] at hc
    rcases hc with hc | hc | hc
    · exact quote_not_space h.name.left c hc
    · rintro rfl; exact h.quote hc
    · exact quote_not_space h.name.right c hc
  rw [h1, strip_spaces_append h.before, strip_append_spaces h.after, Padded.str_strip h.name, h.ends]

theorem unquote_strip_split (s : Str) :
    (splitOn ',' (unquote (strip s))).map strip = (splitOn ',' (unquote s)).map strip := by
  obtain ⟨a, b, ha, hb, e⟩ := strip_parts s
  conv_rhs => rw [e]
  rw [unquote_append, unquote_append, unquote_eq_self (quote_not_space ha), unquote_eq_self (quote_not_space hb),
    splitOn_space_left ha, splitOn_space_right hb]

theorem quotedLine_names {qs : List QuotedName} (h : ∀ q ∈ qs, q.Ok) (h0 : qs ≠ []) :
    (splitOn ',' (unquote (strip (quotedLine qs)))).map strip = qs.map (·.name.text) := by
  rw [unquote_strip_split, quotedLine, commaLine_eq, unquote_join, splitOn_join (by simpa using h0)]
  · rw [List.map_map, List.map_map, List.map_map]
    apply List.map_congr_left
    intro q hq
    simp only [Function.comp_apply, Padded.str, List.nil_append, List.append_nil]
    exact quoted_unquote (h q hq)
  · intro t ht
    simp only [List.map_map, List.mem_map, Function.comp_apply] at ht
    obtain ⟨q, hq, rfl⟩ := ht
    intro hc
    have hc := (List.mem_filter.1 hc).1
    simp only [Padded.str, QuotedName.str, List.nil_append, List.append_nil, List.mem_append, List.mem_cons] at hc
    rcases hc with hc | hc | (hc | hc | hc) | hc | hc
    · exact blanks_no_comma (h q hq).before hc
    · revert hc; decide
    · exact blanks_no_comma (h q hq).name.left hc
    · exact (h q hq).name.comma hc
    · exact blanks_no_comma (h q hq).name.right hc
    · revert hc; decide
    · exact blanks_no_comma (h q hq).after hc

theorem quotedLine_starts {qs : List QuotedName} (h : ∀ q ∈ qs, q.Ok) (h0 : qs ≠ []) :
    startsWith (strip (quotedLine qs)) ['"'] = true := by
  obtain ⟨q, r, rfl⟩ := List.exists_cons_of_ne_nil h0
  have h1 : ∃ t, quotedLine (q :: r) = q.before ++ '"' :: t := by
    cases r with
    | nil => exact ⟨q.name.str ++ '"' :: q.after, by simp [quotedLine, commaLine, Padded.str, QuotedName.str]⟩
    | cons p r =>
      exact ⟨q.name.str ++ '"' :: (q.after ++ ',' :: quotedLine (p :: r)), by
        simp [quotedLine, commaLine, Padded.str, QuotedName.str]⟩
  obtain ⟨t, ht⟩ := h1
  rw [ht, strip_spaces_append (h q (by simp)).before]
  obtain ⟨t', ht'⟩ := strip_cons (c := '"') (by decide) t
  rw [ht']
  simp [startsWith, List.isPrefixOf]

end Verif.Model
