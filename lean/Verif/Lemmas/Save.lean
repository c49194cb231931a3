import Verif.Props.File
import Verif.Props.Output
import Verif.Lemmas.History
import Verif.Spec.Save

/-!
# Lemmas about SAVE files
-/

namespace Verif.Model
open Verif.Py Verif.Spec Verif.Mesh Verif.Props

theorem takeRows_map {α β : Type} (f : α → β) (idx : List ℕ) {v w : List α} (h : takeRows idx v = .ok w) :
    takeRows idx (v.map f) = .ok (w.map f) := by
  have h2 := mapM_eq_ok h
  apply mapM_of_forall₂
  rw [List.forall₂_map_right_iff]
  refine h2.imp fun i x hx => ?_
  rw [rowAt_ok] at hx ⊢
  rw [List.getElem?_map, hx]
  rfl

/-- Reordering an output in which every entry belongs to a cell. -/
theorem reorder_cells {κ α β : Type} [DecidableEq κ] {es : List (κ × α)} {cols : List (Str × (κ × α → β))} {ls : List κ}
    (hl : ls.length = es.length) (hk : ∀ x ∈ ls, x ∈ es.map (·.1)) (t : Option Flt) :
    ∃ es' : List (κ × α), (∀ e ∈ es', e ∈ es) ∧ es'.map (·.1) = ls ∧
      reorderLabels ⟨t, es.map (·.1), cols.map fun c => (c.1, es.map c.2)⟩ ls =
        .ok ⟨t, es'.map (·.1), cols.map fun c => (c.1, es'.map c.2)⟩ := by
  obtain ⟨idx, h1⟩ := mapM_exists (f := dictGet (labelMap (es.map (·.1)))) (xs := ls) fun s hs => labelMap_complete (hk s hs)
  obtain ⟨hil, hp⟩ := places h1
  have hidx : ∀ j ∈ idx, j < es.length := by
    intro j hj
    obtain ⟨i, hi⟩ := List.mem_iff_getElem?.1 hj
    obtain ⟨s, -, h⟩ := hp i j hi
    simpa using (List.getElem?_eq_some_iff.1 h).1
  obtain ⟨es', h2⟩ := takeRows_exists hidx
  have hd : (cols.map fun c => (c.1, es.map c.2)).mapM (takeEntry idx) = .ok (cols.map fun c => (c.1, es'.map c.2)) := by
    apply mapM_of_forall₂
    rw [List.forall₂_map_left_iff, List.forall₂_map_right_iff, List.forall₂_same]
    intro c _
    unfold takeEntry
    rw [takeRows_map c.2 idx h2]
    rfl
  have hr : reorderLabels ⟨t, es.map (·.1), cols.map fun c => (c.1, es.map c.2)⟩ ls =
        .ok ⟨t, es'.map (·.1), cols.map fun c => (c.1, es'.map c.2)⟩ := by
    unfold reorderLabels
    rw [if_neg (by simp [hl]), h1, ok_bind, takeRows_map (·.1) idx h2, ok_bind, hd]
    rfl
  refine ⟨es', ?_, reorder_labels_eq hr, hr⟩
  intro e he
  obtain ⟨i, hi, h3⟩ := forall₂_mem_right (mapM_eq_ok h2) he
  exact List.mem_of_getElem? (rowAt_ok.1 h3)

theorem natStr_X_ne (i : ℕ) : ('X' :: natStr (i + 1)) ≠ "porosity".toList ∧ ('X' :: natStr (i + 1)) ≠ "userx".toList := by
  constructor <;> (intro h; injection h with h _; revert h; decide)

theorem dictSet_new {β : Type} {d : List (Str × β)} {k : Str} (v : β) (h : ∀ e ∈ d, e.1 ≠ k) :
    dictSet d k v = d ++ [(k, v)] :=
  dictSet_of_notMem d k v (by simpa using fun x hx => h (k, x) hx rfl)

/-- The data of the output before its rows are ordered. -/
theorem save_values {k : ℕ} {es : List (Val × Incon)} (h : ∀ e ∈ es, e.2.values.map List.length = some k) :
    es.mapM (fun e => present e.2.values) = .ok (es.map fun e => e.2.values.getD []) ∧
      (es.map fun e => e.2.values.getD []).all (fun l => l.length = k) := by
  have hv : ∀ e ∈ es, ∃ l, e.2.values = some l ∧ l.length = k := by
    intro e he
    have := h e he
    rwa [Option.map_eq_some_iff] at this
  constructor
  · apply mapM_of_forall₂
    rw [List.forall₂_map_right_iff, List.forall₂_same]
    intro e he
    obtain ⟨l, hl, -⟩ := hv e he
    rw [hl]
    rfl
  · simp only [List.all_map, List.all_eq_true, Function.comp_apply, decide_eq_true_eq]
    intro e he
    obtain ⟨l, hl, hk⟩ := hv e he
    rw [hl]
    exact hk

theorem save_porosity {k : ℕ} {es : List (Val × Incon)} (h : SaveOk k es) :
    es.mapM (fun e => porosityOf e.2) = .ok (es.map fun e => SaveCell.one e.2.porosity) := by
  apply mapM_of_forall₂
  rw [List.forall₂_map_right_iff, List.forall₂_same]
  intro e he
  have := h.porosity e he
  unfold porosityOf
  split
  · next h => exact absurd h this
  · rfl

theorem filterMap_column {l : List (List Val)} {k i : ℕ} (h : ∀ x ∈ l, x.length = k) (hi : i < k) :
    l.filterMap (·[i]?) = l.map (·.getD i .none) := by
  induction l with
  | nil => rfl
  | cons x l ih =>
    have hx : i < x.length := by rw [h x (by simp)]; exact hi
    rw [List.filterMap_cons_some (f := fun x : List Val => x[i]?) (List.getElem?_eq_getElem hx), ih fun y hy => h y (by simp [hy]), List.map_cons,
      List.getD_eq_getElem?_getD, List.getElem?_eq_getElem hx, Option.getD_some]

/-- The columns of the output. -/
def saveColumns (k : ℕ) (u : Option ℕ) : List (Str × (Val × Incon → SaveCell)) :=
  (List.range k).map (fun i => ('X' :: natStr (i + 1), fun e => SaveCell.one ((e.2.values.getD []).getD i .none)))
    ++ ("porosity".toList, fun e => .one e.2.porosity) ::
    (if u.isSome then [("userx".toList, fun e => .many (e.2.userx.getD []))] else [])

theorem saveResult_eq (k : ℕ) (u : Option ℕ) (es : List (Val × Incon)) :
    saveResult k u es = ⟨none, es.map (·.1), (saveColumns k u).map fun c => (c.1, es.map c.2)⟩ := by
  unfold saveResult saveColumns
  congr 1
  rw [List.map_append, List.map_map, List.map_cons]
  cases u <;> rfl

theorem saveVariables_eq {k : ℕ} {es : List (Val × Incon)} (h : SaveOk k es) :
    saveVariables (es.map fun e => e.2.values.getD []) =
      (List.range k).map fun i => ('X' :: natStr (i + 1), es.map fun e => SaveCell.one ((e.2.values.getD []).getD i .none)) := by
  have h1 := (save_values h.values).2
  simp only [List.all_eq_true, decide_eq_true_eq] at h1
  unfold saveVariables
  obtain ⟨e, r, he⟩ := List.exists_cons_of_ne_nil h.cells
  have hk : ((es.map fun e => e.2.values.getD []).headD []).length = k := by
    have := h1 (e.2.values.getD []) (by rw [he]; simp)
    rw [he]
    exact this
  rw [hk]
  apply List.map_congr_left
  intro i hi
  rw [filterMap_column h1 (List.mem_range.1 hi), List.map_map, List.map_map]
  rfl

theorem orderOr_eq {keys ls : List Val} {given : LabelsOrder} (h : OrderFor keys given ls) :
    orderOr given keys = .ok ls := by
  unfold OrderFor at h
  split at h
  · rw [h]; rfl
  · rw [h]; rfl
  · next l hl =>
    obtain ⟨rfl, -⟩ := h
    cases ls with
    | nil => exact (hl rfl).elim
    | cons a l => rfl
  · exact h.elim

theorem orderFor_known {keys ls : List Val} {given : LabelsOrder} (h : OrderFor keys given ls) :
    ls.length = keys.length ∧ ∀ x ∈ ls, x ∈ keys := by
  unfold OrderFor at h
  split at h
  · rw [h]; exact ⟨rfl, fun _ => id⟩
  · rw [h]; exact ⟨rfl, fun _ => id⟩
  · obtain ⟨rfl, h1, h2⟩ := h
    exact ⟨h1, h2⟩
  · exact h.elim

theorem userx_all {u : Option ℕ} {es : List (Val × Incon)} (h : UserxOk u es) :
    es.filterMap (·.2.userx) = if u.isSome then es.map (fun e => e.2.userx.getD []) else [] := by
  induction es with
  | nil => simp
  | cons e es ih =>
    have he := h e (by simp)
    rw [List.filterMap_cons, ih fun x hx => h x (by simp [hx])]
    cases hu : e.2.userx with
    | none =>
      rw [hu] at he
      cases he
      rfl
    | some l =>
      rw [hu] at he
      cases he
      simp [hu]

/-- The output for a table of cells. -/
theorem save_table {k : ℕ} {u : Option ℕ} {es : List (Val × Incon)} (h : SaveOk k es) (hu : UserxOk u es)
    {lines : List Str} {p : FileRead} (hp : readFile none lines = .ok p)
    (hi : p.initialConditions = some (es, es.map (·.1))) (given : LabelsOrder) :
    readSave given lines = (do
      let ls ← orderOr given (es.map (·.1))
      reorderLabels (saveResult k u es) ls) := by
  have h1 := (save_values h.values).2
  simp only [List.all_eq_true, decide_eq_true_eq] at h1
  unfold readSave
  rw [hp, ok_bind, hi]
  simp only [present]
  rw [ok_bind]
  simp only
  have hv := (save_values h.values).1
  simp only [present] at hv
  rw [hv, ok_bind, if_pos (rectangular_of_length h1), save_porosity h, ok_bind]
  rw [userx_all hu, saveVariables_eq h, dictSet_new]
  swap
  · intro e he
    obtain ⟨i, -, rfl⟩ := List.mem_map.1 he
    exact (natStr_X_ne i).1
  cases u with
  | none =>
    simp only [Option.isSome_none, Bool.false_eq_true, if_false]
    rw [if_pos (by rfl), if_pos List.isEmpty_nil]
    rfl
  | some n =>
    simp only [Option.isSome_some, if_true]
    rw [if_pos]
    · have : (es.map fun e => e.2.userx.getD []).isEmpty = false := by
        obtain ⟨e, r, rfl⟩ := List.exists_cons_of_ne_nil h.cells
        rfl
      rw [this, dictSet_new]
      · unfold saveResult
        simp only [Bool.false_eq_true, if_false, Option.isSome_some, if_true, List.map_map, List.append_assoc]
        rfl
      · intro e he
        rcases List.mem_append.1 he with he | he
        · obtain ⟨i, -, rfl⟩ := List.mem_map.1 he
          exact (natStr_X_ne i).2
        · rw [List.mem_singleton.1 he]
          show "porosity".toList ≠ "userx".toList
          decide
    · apply rectangular_of_length (k := n)
      intro r hr
      obtain ⟨e, he, rfl⟩ := List.mem_map.1 hr
      have := hu e he
      rw [Option.map_eq_some_iff] at this
      obtain ⟨l, hl, hn⟩ := this
      rw [hl]
      exact hn

theorem filterMap_shorter {α β : Type} {f : α → Option β} {l : List α} (h : ∃ x ∈ l, f x = none) :
    (l.filterMap f).length < l.length := by
  induction l with
  | nil => obtain ⟨x, hx, -⟩ := h; cases hx
  | cons a l ih =>
    have hle := List.length_filterMap_le f l
    cases ha : f a with
    | none => rw [List.filterMap_cons_none ha, List.length_cons]; omega
    | some b =>
      rw [List.filterMap_cons_some ha, List.length_cons, List.length_cons]
      obtain ⟨x, hx, hn⟩ := h
      rcases List.mem_cons.1 hx with rfl | hx
      · rw [ha] at hn; cases hn
      · have := ih ⟨x, hx, hn⟩
        omega

/-- A column that is too short cannot be ordered. -/
theorem reorder_short {κ β : Type} [DecidableEq κ] {o : Output κ β} (hn : o.labels.Nodup) (h0 : o.labels ≠ [])
    (hf : ∀ e ∈ o.data, e.2.length ≤ o.labels.length) (hs : ∃ e ∈ o.data, e.2.length < o.labels.length) :
    reorderLabels o o.labels = .error .indexError := by
  obtain ⟨idx, h1⟩ := mapM_exists (f := dictGet (labelMap o.labels)) (xs := o.labels) fun s hs => labelMap_complete hs
  obtain ⟨hil, hp⟩ := places h1
  have hidx : ∀ j ∈ idx, j < o.labels.length := by
    intro j hj
    obtain ⟨i, hi⟩ := List.mem_iff_getElem?.1 hj
    obtain ⟨s, -, h⟩ := hp i j hi
    exact (List.getElem?_eq_some_iff.1 h).1
  obtain ⟨l, h2⟩ := takeRows_exists hidx
  have hlast : o.labels.length - 1 ∈ idx := by
    have hpos := List.length_pos_iff.2 h0
    have hi : o.labels.length - 1 < idx.length := by omega
    obtain ⟨s, a1, a2⟩ := hp _ _ (List.getElem?_eq_getElem hi)
    obtain ⟨b1, b2⟩ := List.getElem?_eq_some_iff.1 a1
    obtain ⟨c1, c2⟩ := List.getElem?_eq_some_iff.1 a2
    have : idx[o.labels.length - 1] = o.labels.length - 1 := hn.getElem_inj_iff.1 (c2.trans b2.symm)
    exact List.mem_of_getElem this
  have hrow : ∀ v : List β, v.length < o.labels.length → takeRows idx v = .error .indexError := by
    intro v hv
    apply mapM_error_of_mem
    · intro i _
      unfold rowAt
      cases v[i]? with
      | none => exact Or.inr rfl
      | some x => exact Or.inl ⟨x, rfl⟩
    · refine ⟨_, hlast, ?_⟩
      rw [rowAt, List.getElem?_eq_none (by omega)]
  unfold reorderLabels
  rw [if_neg (by simp), h1, ok_bind, h2, ok_bind, mapM_error_of_mem (x := .indexError)]
  · rfl
  · intro e he
    by_cases hl : e.2.length < o.labels.length
    · right
      rw [takeEntry, hrow _ hl]
      rfl
    · left
      have := hf e he
      obtain ⟨w, hw⟩ := takeRows_exists (v := e.2) (idx := idx) fun j hj => by have := hidx j hj; omega
      exact ⟨_, by rw [takeEntry, hw]; rfl⟩
  · obtain ⟨e, he, hl⟩ := hs
    refine ⟨e, he, ?_⟩
    rw [takeEntry, hrow _ hl]
    rfl

/-! ## The file -/

/-- Lines that open no block are passed over. -/
theorem runs_noBlock {given : Option ℕ} (s : FileRead) {ls : List Str} (h : ∀ l ∈ ls, NoBlock l) : Runs given s ls s [] := by
  induction ls with
  | nil => exact Runs.refl _ _ _
  | cons l ls ih =>
    have hl := h l (by simp)
    exact (runs_turn (hl "ENDCY" (by decide)) (dispatch_plain hl)).trans (ih fun x hx => h x (by simp [hx]))

theorem dispatch_incon (given : Option ℕ) (s : FileRead) (t : Str) (ls : List Str) :
    dispatch given s ("INCON".toList ++ t) ls = store (readIncon given ls) fun x => { s with initialConditions := some x } :=
  rfl

/-- The rows of an INCON block up to a line that ends it. -/
theorem readIncon_rows {L : ℕ} {es : List (Val × Incon)} (hl : LabelsFit L (es.map (·.1)))
    (hk : ∀ e ∈ es, InconLabel e.1) (hf : ∀ e ∈ es, InconFits e.2) (hlong : LongEntriesFirst es)
    (hd : ∀ e ∈ es.head?, Detectable L e.1 []) (h0 : es ≠ []) {stop : Str} (hs : stopsRows stop = true) (rest : List Str) :
    readIncon none (es.flatMap (inconLines L) ++ stop :: rest) =
      .ok ((es.map fun e => (e.1, inconBack e.2), es.map (·.1)), rest) := by
  have hL : 5 ≤ L ∧ L ≤ 9 := ⟨hl.1, hl.2.1⟩
  have hk : ∀ e ∈ es, NameFits L e.1 ∧ InconLabel e.1 ∧ InconFits e.2 :=
    fun e he => ⟨hl.2.2.2.1 e.1 (List.mem_map_of_mem he), hk e he, hf e he⟩
  obtain ⟨two, hloop⟩ := loop_incon hL es ([], []) true hs rest hk hlong (by simp)
  have hw := whileTrue_of_loop hloop (by
    have := length_le_flatMap (inconLines L) es (fun e _ => by simp [inconLines])
    simp only [List.length_append, List.length_cons]
    omega)
  rw [foldl_addRow inconBack _ _ (by simpa using hl.2.2.1)] at hw
  obtain ⟨e, l, rfl⟩ := List.exists_cons_of_ne_nil h0
  have hll : labelLength none (lineOf (inconFmt L) (inconVals e.1 e.2)) = L :=
    detect_incon hL (hk e (by simp)).1 (hk e (by simp)).2.2 (hd e (by simp))
  have hnx : ∃ t, (e :: l).flatMap (inconLines L) ++ stop :: rest = lineOf (inconFmt L) (inconVals e.1 e.2) :: t := by
    simp [inconLines]
  obtain ⟨t, ht⟩ := hnx
  have hnx : next ((e :: l).flatMap (inconLines L) ++ stop :: rest) =
      .ok (lineOf (inconFmt L) (inconVals e.1 e.2), t) := by rw [ht]; rfl
  unfold readIncon
  rw [hnx, ok_bind]
  simp only [hll, hw, ok_bind, List.nil_append]

theorem readTitle_incon (t : Str) (ls : List Str) : readTitle (("INCON".toList ++ t) :: ls) = .ok none := by
  unfold readTitle
  have h : ∃ t', strip ("INCON".toList ++ t) = "INCON".toList ++ t' := by
    obtain ⟨a, b, ha, hb, e⟩ := strip_parts ("INCON".toList ++ t)
    have key : ∀ (w t b s : Str), (∀ c ∈ w, isSpace c = false) → (∀ c ∈ b, isSpace c = true) → w ++ t = s ++ b → ∃ t', s = w ++ t' := by
      intro w
      induction w with
      | nil => intro t b s _ _ _; exact ⟨s, rfl⟩
      | cons c w ih =>
        intro t b s hw hb h
        cases s with
        | nil =>
          rw [List.nil_append] at h
          have h1 := hb c (by rw [← h]; simp)
          rw [hw c (by simp)] at h1
          cases h1
        | cons d s =>
          injection h with h1 h2
          obtain ⟨t', ht'⟩ := ih t b s (fun c hc => hw c (by simp [hc])) hb h2
          exact ⟨t', by rw [ht', h1]; rfl⟩
    cases a with
    | nil => exact key _ t b _ (by decide) hb e
    | cons d a =>
      have h1 := ha d (by simp)
      have h2 : 'I' = d := by
        have := congrArg List.head? e
        simpa using this
      rw [← h2] at h1
      exact absurd h1 (by decide)
  obtain ⟨t', ht'⟩ := h
  have h5 : (strip ((("INCON".toList ++ t) :: ls).headD [])).take 5 = "INCON".toList := by
    rw [List.headD_cons, ht']
    rfl
  rw [if_pos (by rw [h5]; decide)]

/-- Reading a file with the rows of an INCON block. -/
theorem readFile_incon {L : ℕ} {es : List (Val × Incon)} (hl : LabelsFit L (es.map (·.1)))
    (hk : ∀ e ∈ es, InconLabel e.1) (hf : ∀ e ∈ es, InconFits e.2) (hlong : LongEntriesFirst es)
    (hd : ∀ e ∈ es.head?, Detectable L e.1 []) (h0 : es ≠ []) {stop : Str} (hs : stopsRows stop = true) (t : Str)
    {rest : List Str} (hr : ∀ l ∈ rest, NoBlock l) :
    readFile none (("INCON".toList ++ t) :: (es.flatMap (inconLines L) ++ stop :: rest)) =
      .ok { FileRead.empty with initialConditions := some (es.map fun e => (e.1, inconBack e.2), es.map (·.1)) } := by
  rw [readFile, if_pos (given_all (by simp)), readBuffer, readTitle_incon, ok_bind]
  have h1 := dispatch_incon none FileRead.empty t (es.flatMap (inconLines L) ++ stop :: rest)
  rw [readIncon_rows hl hk hf hlong hd h0 hs rest, store, ok_bind] at h1
  have h2 := ((runs_turn (s := FileRead.empty) rfl h1).trans (runs_noBlock _ hr)).eof
  rw [show ({ FileRead.empty with title := none } : FileRead) = FileRead.empty from rfl, h2]
  rfl

end Verif.Model
