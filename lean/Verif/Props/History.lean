import Verif.Lemmas.History

/-!
# C68: history files
-/

namespace Verif.Model
open Verif.Py Verif.Spec Verif.Mesh

/-- C68. A history file with columns separated by blanks: the first column is the time,
the others are found under their names.

Missing: names that occur twice or are `TIME`, more or fewer names than columns; what
happens then is shown below. -/
theorem C68_words_partial {head : WordLine} {rows : List WordLine} {nums : List (List Flt)} {rest : List Str}
    (hh : head.Ok) (hq : ∀ c ∈ head.first.head?, c ≠ '"') (hr : ∀ l ∈ rows, l.Ok)
    (hx : List.Forall₂ (fun l xs => Numbers l.words xs) rows nums) (h0 : rows ≠ [])
    (hl : ∀ l ∈ rows, l.words.length = head.words.length)
    (hn : ("TIME".toList :: head.words.tail).Nodup) (he : TableEnd rest) :
    readHistory (head.text :: (rows.map WordLine.text ++ rest)) = .ok (historyTable head.words.tail nums) := by
  have hhead : startsWith (strip head.text) ['"'] = false := by
    obtain ⟨c, t, hc⟩ := List.exists_cons_of_ne_nil hh.first.1
    have h1 := hh.first.2 c (by rw [hc]; simp)
    have h2 : c ≠ '"' := hq c (by rw [hc]; rfl)
    rw [WordLine.text, strip_spaces_append hh.lead, hc, List.cons_append]
    obtain ⟨t', ht'⟩ := strip_cons h1 (t ++ (head.rest.flatMap (fun e => e.1 ++ e.2) ++ head.trail))
    rw [ht']
    simp [startsWith, List.isPrefixOf, Ne.symm h2]
  have hrows : historyRows none (rows.map WordLine.text ++ rest) = .ok nums := by
    apply historyRows_eq none he
    rw [List.forall₂_map_left_iff]
    revert hr
    clear h0 hl
    induction hx with
    | nil => intro _; exact .nil
    | cons h _ ih =>
      intro hr
      refine .cons ⟨wordLine_ne (hr _ (by simp)), ?_⟩ (ih fun l hl => hr l (by simp [hl]))
      simp only [splitAt]
      rw [words_strip, words_wordLine (hr _ (by simp)), toFloat_numbers h]
  have hlen : ∀ xs ∈ nums, xs.length = head.words.tail.length + 1 := by
    intro xs hxs
    obtain ⟨l, hl', hln⟩ := forall₂_mem_right hx hxs
    have := congrArg List.length hln
    rw [List.length_map, List.length_map] at this
    rw [← this, hl l hl']
    simp [WordLine.words]
  have hne : nums ≠ [] := by
    intro h
    have := hx.length_eq
    rw [h, List.length_nil] at this
    exact h0 (List.length_eq_zero_iff.1 this)
  have hnames : ((splitAt none (strip head.text)).drop 1).map strip = head.words.tail := by
    simp only [splitAt]
    rw [words_strip, words_wordLine hh, List.drop_one]
    conv_rhs => rw [← List.map_id head.words.tail]
    apply List.map_congr_left
    intro w hw
    simp only [WordLine.words, List.tail_cons, List.mem_map] at hw
    obtain ⟨e, he, rfl⟩ := hw
    exact strip_eq_self (hh.rest e he).2.2.2
  rw [readHistory]
  simp only [List.headD_cons, List.tail_cons, hhead, Bool.false_eq_true, if_false]
  rw [hrows, ok_bind, if_pos (rectangular_of_length hlen), hnames]
  exact history_table hne hlen hn

/-- A file with two rows, an empty line and more text after them. -/
example : ∃ (head : WordLine) (rows : List WordLine) (nums : List (List Flt)) (rest : List Str),
    head.Ok ∧ (∀ c ∈ head.first.head?, c ≠ '"') ∧ (∀ l ∈ rows, l.Ok) ∧
    List.Forall₂ (fun l xs => Numbers l.words xs) rows nums ∧ rows ≠ [] ∧
    (∀ l ∈ rows, l.words.length = head.words.length) ∧ ("TIME".toList :: head.words.tail).Nodup ∧ TableEnd rest ∧
    head.text = " TIME  PRES\n".toList ∧ rows.map WordLine.text = ["0.0 1E5\n".toList, " 10 2.5\n".toList] := by
  refine ⟨⟨" ".toList, "TIME".toList, [("  ".toList, "PRES".toList)], "\n".toList⟩,
    [⟨[], "0.0".toList, [(" ".toList, "1E5".toList)], "\n".toList⟩,
      ⟨" ".toList, "10".toList, [(" ".toList, "2.5".toList)], "\n".toList⟩],
    [[.fin false 0, .fin false 100000], [.fin false 10, .fin false (5 / 2)]],
    ["\n".toList, "more".toList], ⟨by decide, by decide, by decide, by decide⟩, by decide, ?_,
    .cons ?_ (.cons ?_ .nil), by decide, by decide, by decide, by decide, by decide, by decide⟩
  · intro l hl
    simp only [List.mem_cons, List.not_mem_nil, or_false] at hl
    rcases hl with rfl | rfl <;> exact ⟨by decide, by decide, by decide, by decide⟩
  · unfold Numbers; decide +kernel
  · unfold Numbers; decide +kernel

/-- C68. The same for a file with names in quotation marks and commas. -/
theorem C68_commas_partial {head : List QuotedName} {rows : List (List Padded)} {nums : List (List Flt)} {rest : List Str}
    (hh : ∀ q ∈ head, q.Ok) (hh0 : head ≠ []) (hr : ∀ l ∈ rows, ∀ p ∈ l, p.Ok)
    (hx : List.Forall₂ (fun l xs => Numbers (l.map (·.text)) xs) rows nums) (h0 : rows ≠ [])
    (hl : ∀ l ∈ rows, l.length = head.length)
    (hn : ("TIME".toList :: (head.map (·.name.text)).tail).Nodup) (he : TableEnd rest) :
    readHistory (quotedLine head :: (rows.map commaLine ++ rest)) =
      .ok (historyTable (head.map (·.name.text)).tail nums) := by
  have hhl : 0 < head.length := List.length_pos_iff.2 hh0
  have hrows : historyRows (some ',') (rows.map commaLine ++ rest) = .ok nums := by
    apply historyRows_eq _ he
    rw [List.forall₂_map_left_iff]
    revert hr hl
    clear h0
    induction hx with
    | nil => intro _ _; exact .nil
    | cons h _ ih =>
      intro hr hl
      have hne := List.length_pos_iff.1 ((hl _ List.mem_cons_self).symm ▸ hhl)
      refine .cons ⟨commaLine_ne hne (hr _ (by simp)) h, commaRow hne (hr _ (by simp)) h⟩
        (ih (fun l hl => hr l (by simp [hl])) fun l hl' => hl l (by simp [hl']))
  have hlen : ∀ xs ∈ nums, xs.length = (head.map (·.name.text)).tail.length + 1 := by
    intro xs hxs
    obtain ⟨l, hl', hln⟩ := forall₂_mem_right hx hxs
    have := congrArg List.length hln
    rw [List.length_map, List.length_map, List.length_map] at this
    rw [← this, hl l hl', List.length_tail, List.length_map]
    omega
  have hne : nums ≠ [] := by
    intro h
    have := hx.length_eq
    rw [h, List.length_nil] at this
    exact h0 (List.length_eq_zero_iff.1 this)
  rw [readHistory]
  simp only [List.headD_cons, List.tail_cons, quotedLine_starts hh hh0, if_true]
  rw [hrows, ok_bind, if_pos (rectangular_of_length hlen)]
  simp only [splitAt]
  rw [List.map_drop, quotedLine_names hh hh0, List.drop_one]
  exact history_table hne hlen hn

/-- A file with names in quotation marks, one of them with a blank. -/
example : ∃ (head : List QuotedName) (rows : List (List Padded)) (nums : List (List Flt)),
    (∀ q ∈ head, q.Ok) ∧ head ≠ [] ∧ (∀ l ∈ rows, ∀ p ∈ l, p.Ok) ∧
    List.Forall₂ (fun l xs => Numbers (l.map (·.text)) xs) rows nums ∧ rows ≠ [] ∧
    (∀ l ∈ rows, l.length = head.length) ∧ ("TIME".toList :: (head.map (·.name.text)).tail).Nodup ∧
    quotedLine head = "\"TIME\", \" P (Pa)\"\n".toList ∧ rows.map commaLine = ["0, 1.5\n".toList] := by
  refine ⟨[⟨[], ⟨[], "TIME".toList, []⟩, []⟩, ⟨" ".toList, ⟨" ".toList, "P (Pa)".toList, []⟩, "\n".toList⟩],
    [[⟨[], "0".toList, []⟩, ⟨" ".toList, "1.5".toList, "\n".toList⟩]],
    [[.fin false 0, .fin false (3 / 2)]], ?_, by decide, ?_, .cons ?_ .nil, by decide, by decide, by decide, by decide, by decide⟩
  · intro q hq
    simp only [List.mem_cons, List.not_mem_nil, or_false] at hq
    rcases hq with rfl | rfl <;> exact ⟨by decide, by decide, ⟨by decide, by decide, by decide⟩, by decide, by decide⟩
  · intro l hl p hp
    simp only [List.mem_cons, List.not_mem_nil, or_false] at hl
    subst hl
    simp only [List.mem_cons, List.not_mem_nil, or_false] at hp
    rcases hp with rfl | rfl <;> exact ⟨by decide, by decide, by decide⟩
  · unfold Numbers; decide +kernel

/-- C68. A file without rows is refused. -/
theorem C68_no_rows (head : Str) {rest : List Str} (h : TableEnd rest) :
    readHistory (head :: rest) = .error .indexError := by
  rw [readHistory]
  simp only [List.headD_cons, List.tail_cons]
  rw [historyRows_end _ h]
  rfl

example : TableEnd ["\n".toList, "1 2".toList] := by decide

/-- C68. A row with a text that is no number is refused, whatever comes before and after. -/
theorem C68_no_number {head : Str} (hq : startsWith (strip head) ['"'] = false) {before : List Str} {nums : List (List Flt)}
    (hb : List.Forall₂ (fun l xs => strip l ≠ [] ∧ (words (strip l)).mapM toFloat = .ok xs) before nums)
    {row : WordLine} (hr : row.Ok) (hw : ∃ w ∈ row.words, pyFloat w = none) (after : List Str) :
    readHistory (head :: (before ++ row.text :: after)) = .error .valueError := by
  have h1 : ∀ ws : List Str, (∃ w ∈ ws, pyFloat w = none) → ws.mapM toFloat = .error .valueError := by
    intro ws
    induction ws with
    | nil => rintro ⟨w, hw, _⟩; cases hw
    | cons v ws ih =>
      rintro ⟨w, hw, h⟩
      rw [List.mapM_cons]
      cases hv : pyFloat v with
      | none => rw [toFloat, hv]; rfl
      | some x =>
        rcases List.mem_cons.1 hw with rfl | hw
        · rw [hv] at h; cases h
        · rw [ih ⟨w, hw, h⟩, toFloat, hv]; rfl
  have h2 : historyRows none (before ++ row.text :: after) = .error .valueError := by
    induction hb with
    | nil =>
      rw [List.nil_append, historyRows, if_neg (wordLine_ne hr)]
      simp only [splitAt]
      rw [words_strip, words_wordLine hr, h1 _ hw]
      rfl
    | cons hl _ ih =>
      rw [List.cons_append, historyRows, if_neg hl.1]
      simp only [splitAt]
      rw [hl.2, ok_bind, ih]
      rfl
  rw [readHistory]
  simp only [List.headD_cons, List.tail_cons, hq, Bool.false_eq_true, if_false]
  rw [h2]
  rfl

example : readHistory ["TIME P".toList, "0 1".toList, "5 abc".toList, "7 8".toList] = .error .valueError := by decide +kernel

example : ∃ row : WordLine, row.Ok ∧ row.text = "5 abc".toList ∧ ∃ w ∈ row.words, pyFloat w = none :=
  ⟨⟨[], "5".toList, [(" ".toList, "abc".toList)], []⟩, ⟨by decide, by decide, by decide, by decide⟩, by decide,
    "abc".toList, by decide, by decide +kernel⟩

/-- C68. Of two columns with the same name only the last one is kept. -/
theorem C68_same_name_violated :
    readHistory ["TIME P P".toList, "0 1 2".toList, "5 6 7".toList] =
      .ok [("TIME".toList, [.fin false 0, .fin false 5]), ("P".toList, [.fin false 2, .fin false 7])] := by
  decide +kernel

/-- C68. A column called `TIME` replaces the time. -/
theorem C68_time_violated :
    readHistory ["T TIME".toList, "0 1".toList] = .ok [("TIME".toList, [.fin false 1])] := by
  decide +kernel

/-- C68. A blank within a name that is not quoted, such as the unit of a quantity, moves
the names: the pressure is found under `(S)`, and its name is lost. -/
theorem C68_blank_violated :
    readHistory ["TIME (S) P".toList, "0 1".toList] =
      .ok [("TIME".toList, [.fin false 0]), ("(S)".toList, [.fin false 1])] := by
  decide +kernel

/-- C68. A column without a name is lost. -/
theorem C68_unnamed_violated :
    readHistory ["TIME P".toList, "0 1 2".toList] =
      .ok [("TIME".toList, [.fin false 0]), ("P".toList, [.fin false 1])] := by
  decide +kernel

end Verif.Model
