import Verif.Spec.MeshWrite
import Verif.Lemmas.Trail
import Verif.Lemmas.FileBlocks
import Verif.Lemmas.FileTitle
import Verif.Lemmas.Output

/-! Helper lemmas: the files written for a mesh. -/

set_option linter.unusedSimpArgs false

namespace Verif.Model
open Verif.Py Verif.Spec Verif.Props

/-! ### labels -/

theorem upper_facts {c : Char} (h : IsUpper c) : isSpace c = false ∧ isDigit c = false ∧
    c ≠ '_' ∧ c ≠ '+' ∧ c ≠ '-' ∧ c ≠ '.' := by
  obtain ⟨h1, h2⟩ := h
  have hne : ∀ d : Char, (d.toNat < 65 ∨ 90 < d.toNat) → c ≠ d := by
    rintro d hd rfl; omega
  refine ⟨?_, ?_, hne _ (by decide), hne _ (by decide), hne _ (by decide), hne _ (by decide)⟩
  · unfold isSpace
    simp only [Bool.or_eq_false_iff, Bool.and_eq_false_iff, decide_eq_false_iff_not, beq_eq_false_iff_ne]
    omega
  · unfold isDigit
    simp only [Bool.and_eq_false_iff, decide_eq_false_iff_not]
    omega

theorem dec_facts {c : Char} (h : IsDec c) : isSpace c = false ∧ isDigit c = true ∧ c ≠ '_' := by
  obtain ⟨h1, h2⟩ := h
  refine ⟨?_, ?_, ?_⟩
  · unfold isSpace
    simp only [Bool.or_eq_false_iff, Bool.and_eq_false_iff, decide_eq_false_iff_not, beq_eq_false_iff_ne]
    omega
  · unfold isDigit
    simp only [Bool.and_eq_true, decide_eq_true_eq]
    omega
  · rintro rfl
    revert h1 h2; decide

theorem posDec {c : Char} (h : IsPosDigit c) : IsDec c := by
  obtain ⟨h1, h2⟩ := h
  exact ⟨by omega, h2⟩

theorem wf_char {L : ℕ} {s : Str} (h : WellFormed L s) : ∀ c ∈ s, IsUpper c ∨ IsDec c := by
  obtain ⟨-, a, b, c, d, rfl, ha, hb, hc, hd⟩ := h
  intro x hx
  simp only [List.mem_cons] at hx
  rcases hx with rfl | rfl | rfl | hx
  · exact Or.inl ha
  · exact hb.elim (fun h => Or.inr (posDec h)) Or.inl
  · exact hc.elim (fun h => Or.inr (posDec h)) Or.inl
  · exact Or.inr (hd x hx)

theorem wf_nospace {L : ℕ} {s : Str} (h : WellFormed L s) : ∀ c ∈ s, isSpace c = false := fun c hc =>
  (wf_char h c hc).elim (fun h => (upper_facts h).1) fun h => (dec_facts h).1

theorem wf_name {L : ℕ} {s : Str} (h : WellFormed L s) : NameFits L (.str s) := by
  refine ⟨?_, h.1.le, strip_eq_self (wf_nospace h)⟩
  obtain ⟨-, a, b, c, d, rfl, -⟩ := h
  simp

theorem wf_head {L : ℕ} {s : Str} (h : WellFormed L s) (r : Str) :
    ∀ c ∈ (s ++ r).head?, IsUpper c := by
  obtain ⟨-, a, b, c, d, rfl, ha, -⟩ := h
  intro x hx
  simp at hx
  subst hx
  exact ha

theorem wf_detectable {L : ℕ} {s nxt : Str} (h : WellFormed L s)
    (hn : ∀ c ∈ nxt.head?, isDigit c = false) : Detectable L (.str s) nxt := by
  refine ⟨h.1, ?_, hn⟩
  obtain ⟨-, a, b, c, d, rfl, -, -, -, hd⟩ := h
  intro x hx
  exact (dec_facts (hd x (List.mem_of_mem_drop (i := 2) (by simpa using hx)))).2.1

theorem wf_plus {L : ℕ} {s : Str} (h : WellFormed L s) (r : Str) :
    (s ++ r).take 3 ≠ ['+', '+', '+'] := by
  intro he
  obtain ⟨-, a, b, c, d, rfl, ha, -⟩ := h
  simp at he
  exact (upper_facts ha).2.2.2.1 he.1

/-- A text that starts with a letter and contains a digit or an `e` is not a number. -/
theorem pyFloat_letter {a : Char} {t : Str} (ha : IsUpper a)
    (ht : ∀ c ∈ t, isSpace c = false ∧ c ≠ '_') (hd : ∃ c ∈ t, isDigit c = true ∨ c = 'e') :
    pyFloat (a :: t) = none := by
  obtain ⟨f1, f2, f3, f4, f5, f6⟩ := upper_facts ha
  have hs : strip (a :: t) = a :: t := strip_eq_self (by
    intro c hc
    rcases List.mem_cons.1 hc with rfl | hc
    · exact f1
    · exact (ht c hc).1)
  have hu : unUnderscore false (a :: t) = some (a :: t) := unUnderscore_eq_self (by
    intro c hc
    rcases List.mem_cons.1 hc with rfl | hc
    · exact f3
    · exact (ht c hc).2) _
  have hsp : splitSign (a :: t) = (false, a :: t) := by
    unfold splitSign
    split
    · rename_i h; simp at h; exact absurd h.1 f5
    · rename_i h; simp at h; exact absurd h.1 f4
    · rfl
  obtain ⟨x, hx, hx'⟩ := hd
  have hlow : lowerC x = x := by
    rcases hx' with h | rfl
    · unfold isDigit at h
      simp only [Bool.and_eq_true, decide_eq_true_eq] at h
      unfold lowerC
      rw [if_neg]
      simp only [Bool.and_eq_true, decide_eq_true_eq]
      omega
    · decide
  have hmem : x ∈ lower (a :: t) := by
    have : lowerC x ∈ (a :: t).map lowerC := List.mem_map_of_mem (List.mem_cons_of_mem _ hx)
    rw [hlow] at this
    exact this
  have hno : ∀ w : Str, (∀ c ∈ w, isDigit c = false ∧ c ≠ 'e') → lower (a :: t) ≠ w := by
    rintro w hw rfl
    rcases hx' with h | h
    · rw [(hw x hmem).1] at h; cases h
    · exact (hw x hmem).2 h
  have hdec : parseDec (a :: t) = none := by
    unfold parseDec
    have h1 : (a :: t).takeWhile isDigit = [] := by simp [f2]
    have h2 : (a :: t).dropWhile isDigit = a :: t := by simp [f2]
    simp only [h1, h2]
    split
    · rename_i heq
      have : a = '.' := by injection heq
      exact absurd this f6
    · rfl
  unfold pyFloat
  rw [hs, hu]
  simp only [hsp]
  rw [if_neg, if_neg, hdec]
  · rfl
  · exact hno _ (by decide)
  · rintro (h | h)
    · exact hno _ (by decide) h
    · exact hno _ (by decide) h

theorem wf_notNumber {L : ℕ} {s : Str} (hL : 5 ≤ L) (h : WellFormed L s) : ¬ NumberText s := by
  have hch : ∀ c ∈ s, isSpace c = false ∧ c ≠ '_' := fun c hc =>
    (wf_char h c hc).elim (fun h => ⟨(upper_facts h).1, (upper_facts h).2.2.1⟩)
      fun h => ⟨(dec_facts h).1, (dec_facts h).2.2⟩
  obtain ⟨hl, a, b, c, d, rfl, ha, hb, hc, hd⟩ := h
  simp only [List.length_cons] at hl
  obtain ⟨x, d, rfl⟩ : ∃ x d', d = x :: d' := by
    cases d with
    | nil => simp at hl; omega
    | cons x d => exact ⟨x, d, rfl⟩
  rintro (h | h)
  · rw [pyFloat_letter ha (fun y hy => hch y (by simp [List.mem_cons] at hy ⊢; tauto))
      ⟨x, by simp, Or.inl (dec_facts (hd x (by simp))).2.1⟩] at h
    cases h
  · set t := a :: b :: c :: x :: d with ht
    obtain ⟨k, hk⟩ : ∃ k, t.length - 4 = k + 1 := by
      refine ⟨t.length - 5, ?_⟩
      simp [ht] at hl ⊢
      omega
    rw [hk] at h
    have e : t.take (k + 1) ++ 'e' :: t.drop (k + 1) =
        a :: ((b :: c :: x :: d).take k ++ 'e' :: (b :: c :: x :: d).drop k) := by
      simp [ht]
    rw [e, pyFloat_letter ha ?_ ⟨'e', by simp, Or.inr rfl⟩] at h
    · cases h
    · intro y hy
      rcases List.mem_append.1 hy with hy | hy
      · exact hch y (List.mem_cons_of_mem _ (List.mem_of_mem_take hy))
      · rcases List.mem_cons.1 hy with rfl | hy
        · decide
        · exact hch y (List.mem_cons_of_mem _ (List.mem_of_mem_drop hy))

theorem wf_inconLabel {L : ℕ} {s : Str} (hL : 5 ≤ L) (h : WellFormed L s) : InconLabel (.str s) :=
  ⟨wf_notNumber hL h, by
    have := wf_plus h []
    rw [List.append_nil] at this
    exact this⟩

theorem wf_pair {L : ℕ} {s t : Str} (hs : WellFormed L s) (ht : WellFormed L t) :
    NameFits (2 * L) (.str (s ++ t)) ∧ (textOf (.str (s ++ t))).take 3 ≠ ['+', '+', '+'] ∧
      DetectablePair L (.str (s ++ t)) ∧ keyLen (.str (s ++ t)) = .ok (2 * L) := by
  have hl : (s ++ t).length = 2 * L := by rw [List.length_append, hs.1, ht.1]; omega
  refine ⟨⟨?_, hl.le, strip_eq_self ?_⟩, wf_plus hs t, ?_, by simp only [keyLen, hl]⟩
  · have := (wf_name hs).1
    simp [this]
  · intro c hc
    rcases List.mem_append.1 hc with hc | hc
    · exact wf_nospace hs c hc
    · exact wf_nospace ht c hc
  · unfold DetectablePair
    rw [textOf, List.take_left' hs.1, List.drop_left' hs.1]
    refine wf_detectable hs fun c hc => ?_
    have := wf_head ht [] c (by rwa [List.append_nil])
    exact (upper_facts this).2.1

/-! ### records -/

theorem plain_of_write {fmt : List Tok} {vs : List Val} {l : Str} (h : writeRecord fmt vs = .ok l) :
    ∃ l', plainRecord fmt vs = .ok l' ∧ Trail l l' := by
  unfold writeRecord at h
  obtain ⟨t, h1, h2⟩ := bind_eq_ok.1 h
  injection h2 with h2
  subst h2
  refine ⟨t ++ ['\n'], by rw [plainRecord, h1]; rfl, t, blanks (80 - t.length) ++ ['\n'], ['\n'],
    ?_, rfl, ?_, by simp; decide⟩
  · rw [recLine, padRight, List.append_assoc]
  · intro c hc
    rcases List.mem_append.1 hc with hc | hc
    · exact blanks_space _ c hc
    · simp at hc; subst hc; decide

/-- The plain line of a record. -/
def plainOf (fmt : List Tok) (vs : List Val) : Str :=
  match plainRecord fmt vs with
  | .ok l => l
  | .error _ => []

theorem plainOf_spec {fmt : List Tok} {vs : List Val} (h : writeRecord fmt vs = .ok (lineOf fmt vs)) :
    plainRecord fmt vs = .ok (plainOf fmt vs) ∧ Trail (lineOf fmt vs) (plainOf fmt vs) := by
  obtain ⟨l', h1, h2⟩ := plain_of_write h
  have : plainOf fmt vs = l' := by rw [plainOf, h1]
  rw [this]
  exact ⟨h1, h2⟩

/-! ### materials -/

theorem bare_pad (m : Material) : bare (padMaterial m) = bare m := by
  cases m with
  | name s =>
    simp only [padMaterial, bare, strip_padRight]
    have := strip_head_last s
    rw [strip_eq_self_of this.1 this.2]
  | number i => rfl

theorem pad_of_bare {a b : Material} (h : bare a = bare b) : padMaterial a = padMaterial b := by
  cases a <;> cases b <;> simp_all [bare, padMaterial]

theorem filled_pad {m : Material} (h : Filled m) : padMaterial m = m := by
  cases m with
  | name s => exact congrArg Material.name h
  | number i => rfl

theorem pad_eq_iff {e m : Material} (h : Filled e) : padMaterial m = e ↔ Same e m := by
  constructor
  · rintro rfl
    exact bare_pad m
  · intro hs
    rw [← pad_of_bare hs, filled_pad h]

theorem pad_mem_ends {ends : List Material} (h : ∀ m ∈ ends, Filled m) (c : MeshCell) :
    padMaterial c.material ∈ ends ↔ IsLast ends c := by
  constructor
  · intro hm
    exact ⟨_, hm, (pad_eq_iff (h _ hm)).1 rfl⟩
  · rintro ⟨m, hm, hs⟩
    rw [(pad_eq_iff (h m hm)).2 hs]
    exact hm

theorem lookup_find {names : List (Material × Material)} (h : ∀ e ∈ names, Filled e.1) (m : Material) :
    names.lookup (padMaterial m) = (names.find? fun e => decide (Same e.1 m)).map (·.2) := by
  induction names with
  | nil => rfl
  | cons e names ih =>
    obtain ⟨k, v⟩ := e
    rw [List.lookup_cons, List.find?_cons]
    by_cases hs : Same k m
    · have := (pad_eq_iff (h (k, v) (by simp))).2 hs
      simp [this, hs]
    · have : (padMaterial m == k) = false := by
        rw [beq_eq_false_iff_ne]
        intro he
        exact hs ((pad_eq_iff (h (k, v) (by simp))).1 he)
      rw [this]
      simp only [hs, decide_false]
      exact ih fun e he => h e (by simp [he])

/-- The text of the material is that of the specification. -/
theorem toStr_material {names : List (Material × Material)}
    (h : ∀ e ∈ names, Filled e.1 ∧ bare e.2 = e.2) (m : Material)
    (hf : MaterialFits (matVal (shownMaterial names m))) :
    toStr (sCol 5) (materialVal (renameMaterial names (padMaterial m))) =
      toStr (sCol 5) (materialText (matVal (shownMaterial names m))) := by
  unfold renameMaterial shownMaterial at *
  rw [lookup_find (fun e he => (h e he).1)]
  cases hc : names.find? fun e => decide (Same e.1 m) with
  | some e =>
    have hm := (h e (List.mem_of_find?_eq_some hc)).2
    simp only [Option.map_some, Option.getD_some, hm]
    cases e.2 <;> rfl
  | none =>
    simp only [Option.map_none, Option.getD_none]
    rw [hc] at hf
    cases m with
    | name s =>
      have hl : (strip s).length ≤ 5 := hf.1.2.1
      simp only [padMaterial, materialVal, matVal, bare, materialText, toStr]
      rw [List.take_of_length_le (by rw [padRight_length]; omega), List.take_of_length_le hl]
      congr 1
      have : (padRight 5 (strip s)).length = 5 := by rw [padRight_length]; omega
      conv_lhs => rw [padRight, this]
      simp [blanks]
    | number i => rfl

/-! ### ELEME -/

theorem elemFits_cell {names : List (Material × Material)} {coord : Bool} {c : MeshCell} (L : ℕ)
    (h : CellFits names coord c) : ElemFits L (cellElem names c) := by
  obtain ⟨h1, h2, h3, -⟩ := h
  refine ⟨by simp [cellElem, Fits], by simp [cellElem, Fits], h1, ?_, rfl, ?_⟩
  · intro v hv
    simp only [cellElem, List.mem_cons, List.not_mem_nil, or_false] at hv
    rcases hv with rfl | rfl | rfl
    · exact h2
    · simp [Fits]
    · simp [Fits]
  · intro v hv
    simp only [cellElem, centerOf, List.mem_cons, List.not_mem_nil, or_false] at hv
    rcases hv with rfl | rfl | rfl
    · exact h3 _ (by simp)
    · exact h3 _ (by simp)
    · exact h3 _ (by simp)

theorem centerFits_cell {names : List (Material × Material)} {c : MeshCell}
    (h : CellFits names true c) : CenterFits (cellElem names c).center := by
  obtain ⟨-, -, -, h4⟩ := h
  refine ⟨rfl, ?_, .flt c.x, by simp [cellElem, centerOf], trivial⟩
  intro v hv
  simp only [cellElem, centerOf, List.mem_cons, List.not_mem_nil, or_false] at hv
  rcases hv with rfl | rfl | rfl
  · exact h4 rfl _ (by simp)
  · exact h4 rfl _ (by simp)
  · exact h4 rfl _ (by simp)

theorem elemeRecord_eq {names : List (Material × Material)}
    (hn : ∀ e ∈ names, Filled e.1 ∧ bare e.2 = e.2) {coord : Bool} {L : ℕ} {c : MeshCell}
    (hk : NameFits L (.str c.label)) (h : CellFits names coord c) :
    elemeRecord names (elemFmt L) c =
        .ok (plainOf (elemFmt L) (elemVals (.str c.label) (cellElem names c))) ∧
      Trail (lineOf (elemFmt L) (elemVals (.str c.label) (cellElem names c)))
        (plainOf (elemFmt L) (elemVals (.str c.label) (cellElem names c))) := by
  obtain ⟨h1, h2⟩ := plainOf_spec (cells_line (cells_elem hk (elemFits_cell L h))).1
  refine ⟨?_, h2⟩
  rw [← h1]
  have ht := toStr_material hn c.material h.1
  unfold elemeRecord plainRecord
  congr 1
  show recText (elemFmt L) [.str c.label, .none, .none, _, .flt (cellVolume c), .none, .none,
      .flt c.x, .flt c.y, .flt c.z] = recText (elemFmt L) [.str c.label, .none, .none,
      materialText (matVal (shownMaterial names c.material)), .flt (cellVolume c), .none, .none,
      .flt c.x, .flt c.y, .flt c.z]
  simp only [elemFmt, recText, ht]

theorem fileOrder_perm (ends : List Material) (cells : List MeshCell) :
    (fileOrder ends cells).Perm cells := by
  unfold fileOrder
  refine List.perm_append_comm.trans ?_
  have := List.filter_append_perm (fun c => decide (IsLast ends c)) cells
  convert this using 3
  funext c
  simp

theorem mem_fileOrder {ends : List Material} {cells : List MeshCell} {c : MeshCell} :
    c ∈ fileOrder ends cells ↔ c ∈ cells := (fileOrder_perm ends cells).mem_iff

theorem endLast_eq {ends : List Material} (h : ∀ m ∈ ends, Filled m) (f : MeshCell → Str)
    (cells : List MeshCell) :
    endLast ends (cells.map fun c => (padMaterial c.material, f c)) = (fileOrder ends cells).map f := by
  unfold endLast fileOrder
  rw [List.filter_map, List.filter_map, List.map_append, List.map_append, List.map_map, List.map_map]
  have e : ∀ c, decide (padMaterial c.material ∈ ends) = decide (IsLast ends c) := fun c => by
    simp only [pad_mem_ends h]
  have e' : ∀ c, decide (padMaterial c.material ∉ ends) = decide (¬ IsLast ends c) := fun c => by
    simp only [pad_mem_ends h]
  congr 2
  · congr 1
    funext c
    exact e' c
  · congr 1
    funext c
    exact e c

/-- The entries of the cells in the order of the file. -/
def elemEntries (names : List (Material × Material)) (ends : List Material) (cells : List MeshCell) :
    List (Val × Elem) :=
  (fileOrder ends cells).map fun c => (.str c.label, cellElem names c)

theorem elemEntries_keys (names : List (Material × Material)) (ends : List Material)
    (cells : List MeshCell) : (elemEntries names ends cells).map (·.1) =
      (fileOrder ends cells).map fun c => Val.str c.label := by
  simp [elemEntries, Function.comp_def]

theorem labels_nodup {α : Type} {f : α → Str} {l : List α} (h : (l.map f).Nodup) :
    (l.map fun c => Val.str (f c)).Nodup := by
  have : (l.map fun c => Val.str (f c)) = (l.map f).map Val.str := by simp [Function.comp_def]
  rw [this]
  exact h.map fun a b h => by injection h

theorem labelsFit_wf {L : ℕ} (hL : 5 ≤ L ∧ L ≤ 9) {α : Type} {f : α → Str} {l : List α}
    (hn : (l.map f).Nodup) (hw : ∀ c ∈ l, WellFormed L (f c)) (hne : l ≠ []) :
    LabelsFit L (l.map fun c => Val.str (f c)) := by
  refine ⟨hL.1, hL.2, labels_nodup hn, ?_, ?_⟩
  · intro k hk
    obtain ⟨c, hc, rfl⟩ := List.mem_map.1 hk
    exact wf_name (hw c hc)
  · obtain ⟨c, l, rfl⟩ := List.exists_cons_of_ne_nil hne
    exact ⟨.str (f c), by simp, by simp only [keyLen, (hw c (by simp)).1]⟩

theorem fileOrder_labels {L : ℕ} {cells : List MeshCell} (h : LabelsOk L (cells.map (·.label)))
    (ends : List Material) : ((fileOrder ends cells).map (·.label)).Nodup ∧
      (∀ c ∈ fileOrder ends cells, WellFormed L c.label) ∧ fileOrder ends cells ≠ [] := by
  refine ⟨((fileOrder_perm ends cells).map _).nodup_iff.2 h.nodup, ?_, ?_⟩
  · intro c hc
    exact h.formed _ (List.mem_map_of_mem (mem_fileOrder.1 hc))
  · intro he
    have := (fileOrder_perm ends cells).length_eq
    rw [he] at this
    exact h.some (by
      have : cells = [] := List.eq_nil_of_length_eq_zero (by simpa using this.symm)
      rw [this]; rfl)

theorem elemEntries_fit {L : ℕ} {names : List (Material × Material)} {ends : List Material}
    {coord : Bool} {cells : List MeshCell} (hl : LabelsOk L (cells.map (·.label)))
    (hf : ∀ c ∈ cells, CellFits names coord c) :
    LabelsFit L ((elemEntries names ends cells).map (·.1)) ∧
      ∀ e ∈ elemEntries names ends cells, ElemFits L e.2 := by
  obtain ⟨h1, h2, h3⟩ := fileOrder_labels hl ends
  refine ⟨?_, ?_⟩
  · rw [elemEntries_keys]
    exact labelsFit_wf ⟨hl.lower, hl.upper⟩ h1 h2 h3
  · intro e he
    obtain ⟨c, hc, rfl⟩ := List.mem_map.1 he
    exact elemFits_cell L (hf c (mem_fileOrder.1 hc))

theorem writeEleme_eq {L : ℕ} {elems : List (Val × Elem)} (hl : LabelsFit L (elems.map (·.1)))
    (hf : ∀ e ∈ elems, ElemFits L e.2) :
    writeEleme none elems = .ok (headLine "ELEME" ::
      (elems.map (fun e => lineOf (elemFmt L) (elemVals e.1 e.2)) ++ [['\n']])) := by
  have hL : 5 ≤ L ∧ L ≤ 9 := ⟨hl.1, hl.2.1⟩
  have hk : ∀ e ∈ elems, NameFits L e.1 := fun e he => hl.2.2.2.1 e.1 (List.mem_map_of_mem he)
  have hw : concatM (fun k => dictGet elems k >>= fun e => writeElem (elemFmt L) k e)
      (rowOrder none elems) = .ok (elems.map fun e => lineOf (elemFmt L) (elemVals e.1 e.2)) := by
    have := concat_rows elems (fun k e => writeElem (elemFmt L) k e)
      (fun e => [lineOf (elemFmt L) (elemVals e.1 e.2)]) elems
      (fun e he => dictGet_mem hl.2.2.1 he) fun e he => writeElem_eq (hk e he) (hf e he)
    rwa [← List.map_eq_flatMap] at this
  unfold writeEleme block
  simp only [maxLen_eq hl, (formatFor_eleme hL).1, ok_bind, hw, if_true]
  rfl

theorem forall₂_maps {α : Type} {R : Str → Str → Prop} {f g : α → Str} {l : List α}
    (h : ∀ c ∈ l, R (f c) (g c)) : List.Forall₂ R (l.map f) (l.map g) := by
  rw [List.forall₂_map_left_iff, List.forall₂_map_right_iff, List.forall₂_same]
  exact h

theorem trail_newline {b b' : List Str} (h : List.Forall₂ Trail b b') :
    List.Forall₂ Trail (b ++ [['\n']]) (b' ++ [['\n']]) := by
  induction h with
  | nil => exact .cons (Trail.refl _) .nil
  | cons h _ ih => exact .cons h ih

theorem meshEleme_eq {L : ℕ} {names : List (Material × Material)} {ends : List Material}
    {coord : Bool} {cells : List MeshCell} (hn : ∀ e ∈ names, Filled e.1 ∧ bare e.2 = e.2)
    (he : ∀ m ∈ ends, Filled m) (hl : LabelsOk L (cells.map (·.label)))
    (hf : ∀ c ∈ cells, CellFits names coord c) :
    meshEleme names ends cells = .ok (headLine "ELEME" :: ((fileOrder ends cells).map (fun c =>
        plainOf (elemFmt L) (elemVals (.str c.label) (cellElem names c))) ++ [['\n']])) ∧
      List.Forall₂ Trail
        ((elemEntries names ends cells).map fun e => lineOf (elemFmt L) (elemVals e.1 e.2))
        ((fileOrder ends cells).map fun c =>
          plainOf (elemFmt L) (elemVals (.str c.label) (cellElem names c))) := by
  have hw : ∀ c ∈ cells, WellFormed L c.label := fun c hc => hl.formed _ (List.mem_map_of_mem hc)
  have hr := fun c hc => elemeRecord_eq hn (L := L) (wf_name (hw c hc)) (hf c hc)
  constructor
  · have hm : cells.mapM (withMaterial (elemeRecord names (elemFmt L))) =
        .ok (cells.map fun c => (padMaterial c.material,
          plainOf (elemFmt L) (elemVals (.str c.label) (cellElem names c)))) :=
      mapM_ok fun c hc => by rw [withMaterial, (hr c hc).1]; rfl
    unfold meshEleme block
    cases cells with
    | nil => exact absurd rfl hl.some
    | cons c cs =>
      simp only [(hw c (by simp)).1, (formatFor_eleme ⟨hl.lower, hl.upper⟩).1, ok_bind, hm,
        endLast_eq he, if_true]
      rfl
  · rw [elemEntries, List.map_map]
    exact forall₂_maps fun c hc => (hr c (mem_fileOrder.1 hc)).2

/-! ### COORD -/

theorem writeCoord_eq {elems : List (Val × Elem)} (hn : (elems.map (·.1)).Nodup)
    (hf : ∀ e ∈ elems, CenterFits e.2.center) :
    writeCoord none elems = .ok (headLine "COORD" ::
      (elems.map (fun e => lineOf Fmt.coord (centerOf e.2.center)) ++ [['\n']])) := by
  have hw : concatM (fun k => dictGet elems k >>= fun e => writeCenter e.center)
      (rowOrder none elems) = .ok (elems.map fun e => lineOf Fmt.coord (centerOf e.2.center)) := by
    have := concat_rows elems (fun _ e => writeCenter e.center)
      (fun e => [lineOf Fmt.coord (centerOf e.2.center)]) elems
      (fun e he => dictGet_mem hn he) fun e he => writeCenter_eq (hf e he)
    rwa [← List.map_eq_flatMap] at this
  unfold writeCoord block
  simp only [hw, ok_bind, if_true]
  rfl

theorem meshCoord_eq {names : List (Material × Material)} {ends : List Material}
    {cells : List MeshCell} (he : ∀ m ∈ ends, Filled m) (hf : ∀ c ∈ cells, CellFits names true c) :
    meshCoord ends cells = .ok (headLine "COORD" :: ((fileOrder ends cells).map (fun c =>
        plainOf Fmt.coord [.flt c.x, .flt c.y, .flt c.z]) ++ [['\n']])) ∧
      List.Forall₂ Trail
        ((elemEntries names ends cells).map fun e => lineOf Fmt.coord (centerOf e.2.center))
        ((fileOrder ends cells).map fun c => plainOf Fmt.coord [.flt c.x, .flt c.y, .flt c.z]) := by
  have hr : ∀ c ∈ cells, coordRecord c = .ok (plainOf Fmt.coord [.flt c.x, .flt c.y, .flt c.z]) ∧
      Trail (lineOf Fmt.coord [.flt c.x, .flt c.y, .flt c.z])
        (plainOf Fmt.coord [.flt c.x, .flt c.y, .flt c.z]) := fun c hc =>
    plainOf_spec (writeRecord_eq (allFit_replicate 3 (eCol 20 13) _ (centerFits_cell (hf c hc)).2.1))
  constructor
  · have hm : cells.mapM (withMaterial coordRecord) =
        .ok (cells.map fun c => (padMaterial c.material,
          plainOf Fmt.coord [.flt c.x, .flt c.y, .flt c.z])) :=
      mapM_ok fun c hc => by rw [withMaterial, (hr c hc).1]; rfl
    unfold meshCoord block
    simp only [hm, ok_bind, endLast_eq he, if_true]
    rfl
  · rw [elemEntries, List.map_map]
    exact forall₂_maps fun c hc => (hr c (mem_fileOrder.1 hc)).2

/-! ### CONNE -/

/-- The entries of the connections. -/
def connEntries (conns : List MeshConn) : List (Val × Conn) :=
  conns.map fun c => (.str (c.label1 ++ c.label2), connEntry c)

theorem connFits_conn {L : ℕ} {c : MeshConn} (h : MeshConnFits c) : ConnFits L (connEntry c) := by
  obtain ⟨h1, h2, h3⟩ := h
  refine ⟨by simp [connEntry, Fits], rfl, ?_, h1, by simp [connEntry], rfl, ?_, ?_⟩
  · intro v hv
    simp only [connEntry, pairOf, List.mem_cons, List.not_mem_nil, or_false, or_self] at hv
    subst hv
    simp [Fits]
  · intro v hv
    simp only [connEntry, pairOf, List.mem_cons, List.not_mem_nil, or_false] at hv
    rcases hv with rfl | rfl | rfl
    · exact h2 _ (by simp)
    · exact h2 _ (by simp)
    · exact h2 _ (by simp)
  · intro v hv
    simp only [connEntry, List.mem_cons, List.not_mem_nil, or_false] at hv
    rcases hv with rfl | rfl
    · exact h3
    · simp [Fits]

theorem connEntries_fit {L : ℕ} {conns : List MeshConn} (h : ConnsGood L conns) :
    ConnNamesFit L ((connEntries conns).map (·.1)) := by
  have hk : (connEntries conns).map (·.1) = conns.map fun c => Val.str (c.label1 ++ c.label2) := by
    simp [connEntries, Function.comp_def]
  rw [hk]
  refine ⟨h.lower, h.upper, ?_, ?_, ?_⟩
  · apply List.Nodup.map_on _ (List.Nodup.of_map _ h.nodup)
    intro a ha b hb he
    injection he with he
    obtain ⟨e1, e2⟩ := List.append_inj he (by
      rw [(h.formed a ha).1.1, (h.formed b hb).1.1])
    exact List.inj_on_of_nodup_map h.nodup ha hb (Prod.ext e1 e2)
  · intro k hk
    obtain ⟨c, hc, rfl⟩ := List.mem_map.1 hk
    have := wf_pair (h.formed c hc).1 (h.formed c hc).2
    exact ⟨this.1, this.2.1⟩
  · obtain ⟨c, cs, rfl⟩ := List.exists_cons_of_ne_nil h.some
    have := h.formed c (by simp)
    exact ⟨_, by simp, (wf_pair this.1 this.2).2.2.2⟩

theorem writeConne_eq {L : ℕ} {conns : List (Val × Conn)} (hl : ConnNamesFit L (conns.map (·.1)))
    (hf : ∀ e ∈ conns, ConnFits L e.2) :
    writeConne none conns = .ok (headLine "CONNE" ::
      (conns.map (fun e => lineOf (connFmt L) (connVals e.1 e.2)) ++ [['\n']])) := by
  obtain ⟨hL1, hL2, hnd, hnames, hlong⟩ := hl
  have hk : ∀ e ∈ conns, NameFits (2 * L) e.1 := fun e he => (hnames e.1 (List.mem_map_of_mem he)).1
  have hmax : maxLen (conns.map (·.1)) = .ok (2 * L) :=
    maxLen_eq' (fun k hk => (hnames k hk).1)
      (fun k hk => (keyLen_of_nameFits (hnames k hk).1).2) hlong
  have hw : concatM (fun k => dictGet conns k >>= fun e => writeConn (connFmt L) k e)
      (rowOrder none conns) = .ok (conns.map fun e => lineOf (connFmt L) (connVals e.1 e.2)) := by
    have := concat_rows conns (fun k e => writeConn (connFmt L) k e)
      (fun e => [lineOf (connFmt L) (connVals e.1 e.2)]) conns
      (fun e he => dictGet_mem hnd he) fun e he => writeConn_eq (hk e he) (hf e he)
    rwa [← List.map_eq_flatMap] at this
  unfold writeConne block
  simp only [hmax, ok_bind, show 2 * L / 2 = L by omega, formatFor_conne ⟨hL1, hL2⟩, hw, if_true]
  rfl

theorem meshConne_eq {L : ℕ} {conns : List MeshConn} (h : ConnsGood L conns)
    (hf : ∀ c ∈ conns, MeshConnFits c) :
    meshConne conns = .ok (headLine "CONNE" :: (conns.map (fun c =>
        plainOf (connFmt L) (connVals (.str (c.label1 ++ c.label2)) (connEntry c))) ++ [['\n']])) ∧
      List.Forall₂ Trail
        ((connEntries conns).map fun e => lineOf (connFmt L) (connVals e.1 e.2))
        (conns.map fun c =>
          plainOf (connFmt L) (connVals (.str (c.label1 ++ c.label2)) (connEntry c))) := by
  have hr : ∀ c ∈ conns, conneRecord (connFmt L) c =
        .ok (plainOf (connFmt L) (connVals (.str (c.label1 ++ c.label2)) (connEntry c))) ∧
      Trail (lineOf (connFmt L) (connVals (.str (c.label1 ++ c.label2)) (connEntry c)))
        (plainOf (connFmt L) (connVals (.str (c.label1 ++ c.label2)) (connEntry c))) := fun c hc =>
    plainOf_spec (cells_line (cells_conn (wf_pair (h.formed c hc).1 (h.formed c hc).2).1
      (connFits_conn (hf c hc)))).1
  constructor
  · have hm : conns.mapM (conneRecord (connFmt L)) =
        .ok (conns.map fun c =>
          plainOf (connFmt L) (connVals (.str (c.label1 ++ c.label2)) (connEntry c))) :=
      mapM_ok fun c hc => (hr c hc).1
    unfold meshConne block
    cases conns with
    | nil => exact absurd rfl h.some
    | cons c cs =>
      simp only [(h.formed c (by simp)).1.1, formatFor_conne ⟨h.lower, h.upper⟩, hm, ok_bind,
        if_true]
      rfl
  · rw [connEntries, List.map_map]
    exact forall₂_maps fun c hc => (hr c hc).2

/-! ### INCON -/

/-- The initial condition as it is written, with three blank user fields. -/
def inconEntry' (c : MeshIncon) : Incon :=
  ⟨inconPhi c, some (inconUserx c), some (c.values.map inconVal)⟩

theorem inconBack_entry (c : MeshIncon) : inconBack (inconEntry' c) = inconBack (inconEntry c) := by
  have h1 : inconPhi c = (inconEntry c).porosity := by
    unfold inconPhi inconEntry
    cases c.porosity <;> rfl
  have h2 : (inconBack (inconEntry' c)).userx = (inconBack (inconEntry c)).userx := by
    unfold inconBack inconEntry' inconEntry inconUserx
    cases c.userx <;> rfl
  have h3 : (inconEntry' c).values = (inconEntry c).values := rfl
  have e : ∀ x : Incon, inconBack x = ⟨num 9 x.porosity, (inconBack x).userx,
    some (initBack (x.values.getD []))⟩ := fun _ => rfl
  rw [e (inconEntry' c), e (inconEntry c), h2, h3, ← h1]
  rfl

theorem inconFits_entry {c : MeshIncon} (h : MeshInconFits c) : InconFits (inconEntry' c) := by
  obtain ⟨h1, h2, h3, h4, h5⟩ := h
  refine ⟨?_, by simp [inconEntry'], ?_, ?_, by simp [inconEntry'], ⟨?_, ?_⟩, ?_⟩
  · unfold inconEntry' inconPhi
    cases hp : c.porosity with
    | none => simp [Fits]
    | some v => exact h1 v hp
  · unfold inconEntry' inconUserx
    cases hu : c.userx with
    | none => simp
    | some u => simpa using (h2 u hu).1
  · unfold inconEntry' inconUserx
    cases hu : c.userx with
    | none =>
      intro v hv
      have : v = .none := by simpa using hv
      subst this; simp [Fits]
    | some u =>
      intro v hv
      obtain ⟨w, hw, rfl⟩ := List.mem_map.1 (show v ∈ u.map Val.flt from hv)
      exact (h2 u hu).2 w hw
  · simpa [inconEntry'] using h3
  · intro v hv
    obtain ⟨w, hw, rfl⟩ := List.mem_map.1 (show v ∈ c.values.map inconVal from hv)
    unfold inconVal
    split
    · exact h4 w hw
    · simp [Fits]
  · intro hl
    obtain ⟨v, hv, hd⟩ := h5 (by simpa [inconEntry'] using hl)
    refine ⟨.flt v, ?_, trivial⟩
    show Val.flt v ∈ (c.values.map inconVal).drop 4
    rw [← List.map_drop]
    refine List.mem_map.2 ⟨v, hv, ?_⟩
    rw [inconVal, if_pos (show gtNeg (10 ^ 9) v = true from hd)]

theorem inconWritten_eq {c : MeshIncon} (h : ∀ v ∈ c.values, NotNegative v) :
    inconWritten c = decide (HasIncon c) := by
  have hany : c.values.any (gtNeg (rnd64q (1 / 10 ^ 9))) = decide (∃ v ∈ c.values, IsDefined v) := by
    rw [Bool.eq_iff_iff, List.any_eq_true, decide_eq_true_eq]
    constructor
    · rintro ⟨v, hv, hg⟩
      refine ⟨v, hv, ?_⟩
      unfold IsDefined
      have hq : rnd64q (1 / 10 ^ 9) ≤ 10 ^ 9 := by decide +kernel
      cases v with
      | nan => exact hg
      | inf b => exact hg
      | fin b m =>
        cases b with
        | false => rfl
        | true =>
          simp only [gtNeg, decide_eq_true_eq] at hg ⊢
          exact lt_of_lt_of_le hg hq
    · rintro ⟨v, hv, hd⟩
      exact ⟨v, hv, h v hv hd⟩
  rw [Bool.eq_iff_iff, decide_eq_true_eq]
  unfold inconWritten HasIncon
  rw [hany]
  have e1 : ∀ o : Option Flt, o.isSome = decide (o ≠ none) := by intro o; cases o <;> simp
  have e2 : ∀ o : Option (List Flt), o.isSome = decide (o ≠ none) := by intro o; cases o <;> simp
  rw [e1, e2, Bool.or_eq_true, Bool.or_eq_true, decide_eq_true_eq, decide_eq_true_eq,
    decide_eq_true_eq, or_assoc]

/-- The lines of a cell. -/
def meshInconLines (L : ℕ) (c : MeshIncon) : List Str :=
  plainOf (inconFmt L) (inconVals (.str c.label) (inconEntry' c)) ::
    plainOf Fmt.incon0 ((c.values.map inconVal).take 4) ::
    (if 4 < (c.values.map inconVal).length then [plainOf Fmt.incon0 ((c.values.map inconVal).drop 4)]
      else [])

theorem inconRecords_eq {L : ℕ} {c : MeshIncon} (hk : NameFits L (.str c.label))
    (h : MeshInconFits c) :
    inconRecords (inconFmt L) c = .ok (meshInconLines L c) ∧
      List.Forall₂ Trail (inconLines L (.str c.label, inconEntry' c)) (meshInconLines L c) := by
  have hf := inconFits_entry h
  have hv : ∀ v ∈ c.values.map inconVal, Fits (eCol 20 13) v := hf.2.2.2.2.2.1.2
  have h1 := plainOf_spec (writeRecord_eq (allFit_incon hk hf))
  have h2 := plainOf_spec (writeRecord_eq (f := Fmt.incon0) (allFit_replicate 4 (eCol 20 13)
    ((c.values.map inconVal).take 4) fun v hm => hv v (List.mem_of_mem_take hm)))
  have h3 := plainOf_spec (writeRecord_eq (f := Fmt.incon0) (allFit_replicate 4 (eCol 20 13)
    ((c.values.map inconVal).drop 4) fun v hm => hv v (List.mem_of_mem_drop hm)))
  have g1 : plainRecord (inconFmt L) ([.str c.label, .none, .none, inconPhi c] ++ inconUserx c) =
      .ok (plainOf (inconFmt L) (inconVals (.str c.label) (inconEntry' c))) := h1.1
  constructor
  · unfold inconRecords inconThird meshInconLines
    rw [g1, ok_bind, h2.1, ok_bind]
    split
    · rw [h3.1]; rfl
    · rfl
  · unfold inconLines meshInconLines
    refine .cons h1.2 (.cons h2.2 ?_)
    show List.Forall₂ Trail (if 4 < (c.values.map inconVal).length then
      [lineOf Fmt.incon0 ((c.values.map inconVal).drop 4)] else []) _
    split
    · exact .cons h3.2 .nil
    · exact .nil

/-- The entries of the cells that are written. -/
def inconEntries (cells : List MeshIncon) : List (Val × Incon) :=
  (cells.filter fun c => decide (HasIncon c)).map fun c => (.str c.label, inconEntry' c)

theorem writeIncon_eq {L : ℕ} {ics : List (Val × Incon)} (hl : LabelsFit L (ics.map (·.1)))
    (hf : ∀ e ∈ ics, InconFits e.2) :
    writeIncon none ics = .ok (headLine "INCON" :: (ics.flatMap (inconLines L) ++ [['\n']])) := by
  have hL : 5 ≤ L ∧ L ≤ 9 := ⟨hl.1, hl.2.1⟩
  have hk : ∀ e ∈ ics, NameFits L e.1 := fun e he => hl.2.2.2.1 e.1 (List.mem_map_of_mem he)
  have hw : concatM (fun k => dictGet ics k >>= fun e => writeInconRow (inconFmt L) k e)
      (rowOrder none ics) = .ok (ics.flatMap (inconLines L)) :=
    concat_rows ics (fun k e => writeInconRow (inconFmt L) k e) (inconLines L) ics
      (fun e he => dictGet_mem hl.2.2.1 he) fun e he => writeInconRow_eq (hk e he) (hf e he)
  unfold writeIncon block
  simp only [maxLen_eq hl, (formatFor_incon hL).1, ok_bind, hw, if_true]
  rfl

theorem forall₂_flatMaps {α : Type} {f g : α → List Str} {l : List α}
    (h : ∀ c ∈ l, List.Forall₂ Trail (f c) (g c)) : List.Forall₂ Trail (l.flatMap f) (l.flatMap g) := by
  induction l with
  | nil => exact .nil
  | cons c l ih =>
    rw [List.flatMap_cons, List.flatMap_cons]
    exact List.rel_append (h c (by simp)) (ih fun x hx => h x (by simp [hx]))

theorem concat_filter {L : ℕ} (hL : 5 ≤ L ∧ L ≤ 9) {cells : List MeshIncon}
    (hw : ∀ c ∈ cells, WellFormed L c.label) (hf : ∀ c ∈ cells, MeshInconFits c)
    (hn : ∀ c ∈ cells, ∀ v ∈ c.values, NotNegative v) :
    concatM (inconRow L) cells =
      .ok ((cells.filter fun c => decide (HasIncon c)).flatMap (meshInconLines L)) := by
  induction cells with
  | nil => rfl
  | cons c cells ih =>
    have ih := ih (fun x hx => hw x (by simp [hx])) (fun x hx => hf x (by simp [hx]))
      fun x hx => hn x (by simp [hx])
    have hr : inconRow L c = .ok (if HasIncon c then meshInconLines L c else []) := by
      unfold inconRow
      rw [inconWritten_eq (hn c (by simp))]
      by_cases hi : HasIncon c
      · simp only [hi, decide_true, if_true, (formatFor_incon hL).1, ok_bind,
          (inconRecords_eq (wf_name (hw c (by simp))) (hf c (by simp))).1]
      · simp [hi]
    rw [concatM, hr, ok_bind, ih, ok_bind]
    by_cases hi : HasIncon c <;> simp [hi]

theorem meshIncon_eq {L : ℕ} {cells : List MeshIncon} (hl : LabelsOk L (cells.map (·.label)))
    (hf : ∀ c ∈ cells, MeshInconFits c) (hn : ∀ c ∈ cells, ∀ v ∈ c.values, NotNegative v) :
    meshIncon cells = .ok (headLine "INCON" ::
        ((cells.filter fun c => decide (HasIncon c)).flatMap (meshInconLines L) ++ [['\n']])) ∧
      List.Forall₂ Trail ((inconEntries cells).flatMap (inconLines L))
        ((cells.filter fun c => decide (HasIncon c)).flatMap (meshInconLines L)) := by
  have hw : ∀ c ∈ cells, WellFormed L c.label := fun c hc => hl.formed _ (List.mem_map_of_mem hc)
  constructor
  · have hc := concat_filter ⟨hl.lower, hl.upper⟩ hw hf hn
    unfold meshIncon block
    cases cells with
    | nil => exact absurd rfl hl.some
    | cons c cs =>
      simp only [(hw c (by simp)).1, hc, ok_bind, if_true]
      rfl
  · rw [inconEntries, List.flatMap_map]
    refine forall₂_flatMaps fun c hc => ?_
    have hc := List.mem_of_mem_filter hc
    exact (inconRecords_eq (wf_name (hw c hc)) (hf c hc)).2

end Verif.Model
