import Verif.Lemmas.TecplotTrip

/-!
# Lemmas on Tecplot files with more lines and with data given point by point
-/

namespace Verif.Mesh
open Verif.Py Verif.Model Verif.Spec

/-! ### more lines -/

theorem blockNumbers_append {n : ℕ} {ls rest : List Str} {xs : List Flt} (m : List Str)
    (h : blockNumbers n ls = .ok (xs, rest)) : blockNumbers n (ls ++ m) = .ok (xs, rest ++ m) := by
  induction ls generalizing n xs with
  | nil =>
    cases n with
    | zero =>
      rw [blockNumbers] at h ⊢
      obtain ⟨rfl, rfl⟩ := Prod.mk.inj (Except.ok.inj h)
      rfl
    | succ n => cases h
  | cons l ls ih =>
    cases n with
    | zero =>
      rw [blockNumbers] at h ⊢
      obtain ⟨rfl, rfl⟩ := Prod.mk.inj (Except.ok.inj h)
      rfl
    | succ n =>
      rw [blockNumbers] at h
      rw [List.cons_append, blockNumbers]
      obtain ⟨a, h1, h2⟩ := bind_eq_ok.1 h
      obtain ⟨b, h3, h4⟩ := bind_eq_ok.1 h2
      obtain ⟨rfl, rfl⟩ := Prod.mk.inj (Except.ok.inj h4)
      rw [h1, ok_bind, ih h3, ok_bind]

theorem pointRows_append {n : ℕ} {ls rest : List Str} {xs : List (List Flt)} (m : List Str)
    (h : pointRows n ls = .ok (xs, rest)) : pointRows n (ls ++ m) = .ok (xs, rest ++ m) := by
  induction ls generalizing n xs with
  | nil =>
    cases n with
    | zero =>
      rw [pointRows] at h ⊢
      obtain ⟨rfl, rfl⟩ := Prod.mk.inj (Except.ok.inj h)
      rfl
    | succ n => cases h
  | cons l ls ih =>
    cases n with
    | zero =>
      rw [pointRows] at h ⊢
      obtain ⟨rfl, rfl⟩ := Prod.mk.inj (Except.ok.inj h)
      rfl
    | succ n =>
      rw [pointRows] at h
      rw [List.cons_append, pointRows]
      split at h
      · rename_i hw
        rw [if_pos hw]
        exact ih h
      · rename_i hw
        rw [if_neg hw]
        obtain ⟨a, h1, h2⟩ := bind_eq_ok.1 h
        obtain ⟨b, h3, h4⟩ := bind_eq_ok.1 h2
        obtain ⟨rfl, rfl⟩ := Prod.mk.inj (Except.ok.inj h4)
        rw [h1, ok_bind, ih h3, ok_bind]

theorem cellRows_append {n : ℕ} {ls : List Str} {xs : List (List ℤ)} (m : List Str)
    (h : cellRows n ls = .ok xs) : cellRows n (ls ++ m) = .ok xs := by
  induction ls generalizing n xs with
  | nil =>
    cases n with
    | zero =>
      rw [cellRows] at h ⊢
      exact h
    | succ n => cases h
  | cons l ls ih =>
    cases n with
    | zero =>
      rw [cellRows] at h ⊢
      exact h
    | succ n =>
      rw [cellRows] at h
      rw [List.cons_append, cellRows]
      split at h
      · rename_i hw
        rw [if_pos hw]
        exact ih h
      · rename_i hw
        rw [if_neg hw]
        obtain ⟨a, h1, h2⟩ := bind_eq_ok.1 h
        obtain ⟨b, h3, h4⟩ := bind_eq_ok.1 h2
        rw [h1, ok_bind, ih h3, ok_bind, h4]

theorem tecValues_append {f : Str} {np : ℕ} {s : List ℕ} {ls rest : List Str} {c : List (List Flt)} (m : List Str)
    (h : tecValues f np s ls = .ok (c, rest)) : tecValues f np s (ls ++ m) = .ok (c, rest ++ m) := by
  unfold tecValues at h ⊢
  split at h
  · rename_i hf
    rw [if_pos hf]
    obtain ⟨a, h1, h2⟩ := bind_eq_ok.1 h
    rw [blockNumbers_append m (rest := a.2) (xs := a.1) h1, ok_bind]
    simp only at h2 ⊢
    split at h2
    · cases h2
    · rename_i hx
      rw [if_neg hx]
      obtain ⟨rfl, rfl⟩ := Prod.mk.inj (Except.ok.inj h2)
      rfl
  · rename_i hf
    rw [if_neg hf]
    obtain ⟨a, h1, h2⟩ := bind_eq_ok.1 h
    rw [pointRows_append m (rest := a.2) (xs := a.1) h1, ok_bind]
    obtain ⟨b, h3, h4⟩ := bind_eq_ok.1 h2
    obtain ⟨rfl, rfl⟩ := Prod.mk.inj (Except.ok.inj h4)
    simp only
    rw [h3, ok_bind]

theorem tecValues_nil {f : Str} {np : ℕ} {s : List ℕ} {rest : List Str} {c : List (List Flt)}
    (h : tecValues f np s [] = .ok (c, rest)) : rest = [] := by
  unfold tecValues at h
  split at h
  · obtain ⟨a, h1, h2⟩ := bind_eq_ok.1 h
    have ha : a.2 = [] := by
      cases hn : s.sum with
      | zero =>
        rw [hn, blockNumbers] at h1
        rw [← Except.ok.inj h1]
      | succ n => rw [hn] at h1; cases h1
    simp only at h2
    split at h2
    · cases h2
    · rw [← (Prod.mk.inj (Except.ok.inj h2)).2, ha]
  · obtain ⟨a, h1, h2⟩ := bind_eq_ok.1 h
    have ha : a.2 = [] := by
      cases np with
      | zero =>
        rw [pointRows] at h1
        rw [← Except.ok.inj h1]
      | succ n => cases h1
    obtain ⟨b, h3, h4⟩ := bind_eq_ok.1 h2
    rw [← (Prod.mk.inj (Except.ok.inj h4)).2, ha]

theorem tecZoneRead_append {vs : List Str} {z : Zone} {ls : List Str} {r : TecMesh} (m : List Str)
    (h : tecZoneRead vs z ls = .ok r) : tecZoneRead vs z (ls ++ m) = .ok r := by
  unfold tecZoneRead at h ⊢
  obtain ⟨⟨f, t⟩, h1, h⟩ := bind_eq_ok.1 h
  obtain ⟨np, h2, h⟩ := bind_eq_ok.1 h
  obtain ⟨nc, h3, h⟩ := bind_eq_ok.1 h
  obtain ⟨ce, h4, h⟩ := bind_eq_ok.1 h
  obtain ⟨⟨c, l⟩, h5, h⟩ := bind_eq_ok.1 h
  obtain ⟨d, h6, h⟩ := bind_eq_ok.1 h
  rw [h1, ok_bind]
  simp only
  rw [h2, ok_bind, h3, ok_bind, h4, ok_bind, tecValues_append m h5, ok_bind]
  simp only
  rw [cellRows_append m h6, ok_bind]
  exact h

theorem tecZoneRead_nil {vs : List Str} {z : Zone} {r : TecMesh} : tecZoneRead vs z [] ≠ .ok r := by
  intro h
  unfold tecZoneRead at h
  obtain ⟨⟨f, t⟩, h1, h⟩ := bind_eq_ok.1 h
  obtain ⟨np, h2, h⟩ := bind_eq_ok.1 h
  obtain ⟨nc, h3, h⟩ := bind_eq_ok.1 h
  obtain ⟨ce, h4, h⟩ := bind_eq_ok.1 h
  obtain ⟨⟨c, l⟩, h5, h⟩ := bind_eq_ok.1 h
  obtain ⟨d, h6, h7⟩ := bind_eq_ok.1 h
  rw [tecValues_nil h5] at h6
  cases nc with
  | zero =>
    rw [cellRows] at h6
    rw [← Except.ok.inj h6, if_pos (.inl rfl)] at h7
    cases h7
  | succ n => cases h6

theorem zoneMore_append {ls a b : List Str} (m : List Str) (h : zoneMore ls = (a, b)) (hb : b ≠ []) :
    zoneMore (ls ++ m) = (a, b ++ m) := by
  induction ls generalizing a with
  | nil =>
    rw [zoneMore] at h
    exact absurd (Prod.mk.inj h).2.symm hb
  | cons l ls ih =>
    rw [zoneMore] at h
    rw [List.cons_append, zoneMore]
    cases hl : upper (strip l) with
    | nil =>
      rw [hl] at h
      simp only at h ⊢
      obtain ⟨rfl, rfl⟩ := Prod.mk.inj h
      rfl
    | cons c s =>
      rw [hl] at h
      simp only at h ⊢
      split at h
      · rename_i hc
        rw [if_pos hc]
        obtain ⟨rfl, rfl⟩ := Prod.mk.inj h
        rfl
      · rename_i hc
        rw [if_neg hc]
        obtain ⟨rfl, rfl⟩ := Prod.mk.inj h
        rw [ih rfl]

theorem tecMeshLoop_append {vars : Option (List Str)} {ls : List Str} {r : TecMesh} (m : List Str)
    (h : tecMeshLoop vars ls = .ok r) : tecMeshLoop vars (ls ++ m) = .ok r := by
  induction ls generalizing vars with
  | nil => cases h
  | cons l ls ih =>
    rw [tecMeshLoop] at h
    rw [List.cons_append, tecMeshLoop]
    simp only at h ⊢
    split at h
    · rename_i hv
      rw [if_pos hv]
      obtain ⟨vs, h1, h⟩ := bind_eq_ok.1 h
      rw [h1, ok_bind]
      exact ih h
    · rename_i hv
      rw [if_neg hv]
      split at h
      · rename_i hz
        rw [if_pos hz]
        obtain ⟨z, h1, h2⟩ := bind_eq_ok.1 h
        cases vars with
        | none => cases h2
        | some vs =>
          have hb : (zoneMore ls).2 ≠ [] := by
            intro hb
            simp only [hb] at h2
            exact tecZoneRead_nil h2
          rw [zoneMore_append m (a := (zoneMore ls).1) (b := (zoneMore ls).2) rfl hb]
          simp only
          rw [h1, ok_bind]
          exact tecZoneRead_append m h2
      · rename_i hz
        rw [if_neg hz]
        split at h
        · cases h
        · rename_i hl
          rw [if_neg hl]
          exact ih h

/-! ### data given point by point -/

theorem pointRows_lines {ls : List Str} {rows : List (List Flt)}
    (h : List.Forall₂ (fun l r => (words (strip l)).mapM toFloat = .ok r ∧ r ≠ []) ls rows) (rest : List Str) :
    pointRows rows.length (ls ++ rest) = .ok (rows, rest) := by
  induction h with
  | nil => rw [List.length_nil, pointRows]; rfl
  | @cons l r ls rows h1 _ ih =>
    obtain ⟨h1, h2⟩ := h1
    have hne : words (strip l) ≠ [] := by
      intro h0
      rw [h0] at h1
      exact h2 (Except.ok.inj h1).symm
    rw [List.length_cons, List.cons_append, pointRows, if_neg hne, h1, ok_bind, ih, ok_bind]

theorem cellRows_forall {ls : List Str} {rows : List (List ℤ)}
    (h : List.Forall₂ (fun l r => (words (strip l)).mapM toInt = .ok r ∧ r ≠ []) ls rows) :
    cellRows rows.length ls = .ok rows := by
  induction h with
  | nil => rw [List.length_nil, cellRows]
  | @cons l r ls rows h1 _ ih =>
    obtain ⟨h1, h2⟩ := h1
    have hne : words (strip l) ≠ [] := by
      intro h0
      rw [h0] at h1
      exact h2 (Except.ok.inj h1).symm
    rw [List.length_cons, cellRows, if_neg hne, h1, ok_bind, ih, ok_bind]

theorem transposeRows_eq {rows : List (List Flt)} {w : ℕ} (h : ∀ r ∈ rows, r.length = w) (h0 : rows ≠ []) :
    transposeRows rows = .ok ((List.range w).map fun j => rows.map fun r => r.getD j .nan) := by
  cases rows with
  | nil => exact absurd rfl h0
  | cons r rs =>
    have hr : rectangular (r :: rs) = true := rectangular_of (n := w) h
    rw [transposeRows, hr]
    simp only [Bool.not_true, Bool.false_eq_true, if_false]
    rw [h r (by simp)]
    apply mapM_ok
    intro j hj
    have hj := List.mem_range.1 hj
    apply mapM_ok
    intro r hr
    have : j < r.length := by rw [h r hr]; exact hj
    simp [rowAt, List.getD_eq_getElem?_getD, this]

theorem columnStack_maps {α : Type} (rows : List α) {cols : List (α → Flt)} (h : cols ≠ []) :
    columnStack (cols.map fun g => rows.map g) = .ok (rows.map fun r => cols.map fun g => g r) := by
  cases cols with
  | nil => exact absurd rfl h
  | cons g gs =>
    rw [List.map_cons, columnStack]
    rw [if_pos (by simp), ← List.map_cons (f := fun g : α → Flt => rows.map g), List.length_map]
    rw [mapM_ok (g := fun i => (rows.map fun r => (g :: gs).map fun g => g r).getD i [])]
    · congr 1
      apply List.ext_getElem
      · simp
      · intro i h1 h2
        have : i < rows.length := by simpa using h2
        simp [List.getD_eq_getElem?_getD, this]
    · intro i hi
      have hi : i < rows.length := List.mem_range.1 hi
      rw [List.mapM_map, mapM_ok (g := fun g : α → Flt => g rows[i])]
      · simp [List.getD_eq_getElem?_getD, hi]
      · intro g _
        simp [rowAt, hi]

theorem dictGet_map {κ β : Type} [DecidableEq κ] {names : List κ} (F : κ → β) {k : κ} (hk : k ∈ names) :
    dictGet (names.map fun n => (n, F n)) k = .ok (F k) := by
  induction names with
  | nil => cases hk
  | cons n ns ih =>
    unfold dictGet at ih ⊢
    rw [List.map_cons, List.lookup_cons]
    by_cases h : k = n
    · subst h; simp
    · have : (k == n) = false := by simpa using h
      rw [this]
      rcases List.mem_cons.1 hk with hk | hk
      · exact absurd hk h
      · exact ih hk

theorem dictPop_map {names : List Str} {β : Type} (F : Str → β) {k : Str} (hk : k ∈ names) :
    dictPop (names.map fun n => (n, F n)) k =
      .ok (F k, (names.filter fun n => n ≠ k).map fun n => (n, F n)) := by
  have h1 : dictGet (names.map fun n => (n, F n)) k = .ok (F k) := by
    exact dictGet_map F hk
  rw [dictPop, h1, ok_bind, List.filter_map]
  rfl

theorem mem_of_filter {names : List Str} {p : Str → Prop} [DecidablePred p] {l : List Str}
    (h : names.filter (fun n => p n) = l) (n : Str) : n ∈ l ↔ n ∈ names ∧ p n := by
  rw [← h, List.mem_filter]
  simp

theorem tecPoints_names {names : List Str} {cx cy : Str} {cz : Option Str} (h : TecNames names cx cy cz)
    {α : Type} (rows : List α) (F : Str → α → Flt) :
    tecPoints (names.map fun n => (n, rows.map (F n))) =
      .ok (rows.map fun r => F cx r :: F cy r :: (cz.map fun c => F c r).toList,
        (names.filter fun n => ¬ IsCoordinate n).map fun n => (n, rows.map (F n))) := by
  have mx := fun n => mem_of_filter h.first n
  have my := fun n => mem_of_filter h.second n
  have mz := fun n => mem_of_filter h.third n
  simp only [List.mem_singleton] at mx my
  have hkeys : (names.map fun n => (n, rows.map (F n))).map (·.1) = names := by
    rw [List.map_map]; exact List.map_id _
  obtain ⟨hcx, hcx2⟩ := (mx cx).1 rfl
  obtain ⟨hcy, hcy2⟩ := (my cy).1 rfl
  have ex : (if "X".toList ∈ names then "X".toList else "x".toList) = cx := by
    split
    · rename_i hm
      exact (mx _).2 ⟨hm, .inl rfl⟩
    · rename_i hm
      rcases hcx2 with rfl | rfl
      · exact absurd hcx hm
      · rfl
  have ey : (if "Y".toList ∈ names then "Y".toList else "y".toList) = cy := by
    split
    · rename_i hm
      exact (my _).2 ⟨hm, .inl rfl⟩
    · rename_i hm
      rcases hcy2 with rfl | rfl
      · exact absurd hcy hm
      · rfl
  have ez : (if "Z".toList ∈ names then some "Z".toList else if "z".toList ∈ names then some "z".toList else none) = cz := by
    cases cz with
    | none =>
      simp only [Option.toList_none, List.not_mem_nil, false_iff, not_and] at mz
      rw [if_neg, if_neg]
      · exact fun hm => mz _ hm (.inr rfl)
      · exact fun hm => mz _ hm (.inl rfl)
    | some c =>
      simp only [Option.toList_some, List.mem_singleton] at mz
      obtain ⟨hc, hc2⟩ := (mz c).1 rfl
      split
      · rename_i hm
        exact congrArg some ((mz _).2 ⟨hm, .inl rfl⟩)
      · rename_i hm
        rcases hc2 with rfl | rfl
        · exact absurd hc hm
        · exact if_pos hc
  have hxy : cy ≠ cx := by
    rcases hcx2 with rfl | rfl <;> rcases hcy2 with rfl | rfl <;> decide
  unfold tecPoints
  simp only [hkeys, decide_eq_true_eq]
  rw [ex, ey, ez, dictPop_map (fun n => rows.map (F n)) hcx, ok_bind]
  simp only
  rw [dictPop_map (fun n => rows.map (F n)) (List.mem_filter.2 ⟨hcy, by simpa using hxy⟩), ok_bind, List.filter_filter]
  cases cz with
  | none =>
    simp only [Option.toList_none, List.not_mem_nil, false_iff, not_and] at mz
    simp only
    have := columnStack_maps rows (cols := [F cx, F cy]) (by simp)
    simp only [List.map_cons, List.map_nil] at this
    rw [this, ok_bind]
    congr 3
    apply List.filter_congr
    intro n hn
    have hz := mz n hn
    have e1 := mx n
    have e2 := my n
    rw [Bool.eq_iff_iff]
    simp only [Bool.and_eq_true, decide_eq_true_eq]
    constructor
    · rintro ⟨h2, h1⟩ (h | h | h | h | h | h)
      · exact h1 (e1.2 ⟨hn, .inl h⟩)
      · exact h2 (e2.2 ⟨hn, .inl h⟩)
      · exact hz (.inl h)
      · exact h1 (e1.2 ⟨hn, .inr h⟩)
      · exact h2 (e2.2 ⟨hn, .inr h⟩)
      · exact hz (.inr h)
    · intro h
      constructor <;> intro h3 <;> apply h
      · rcases (e2.1 h3).2 with h | h
        · exact .inr (.inl h)
        · exact .inr (.inr (.inr (.inr (.inl h))))
      · rcases (e1.1 h3).2 with h | h
        · exact .inl h
        · exact .inr (.inr (.inr (.inl h)))
  | some c =>
    simp only [Option.toList_some, List.mem_singleton] at mz
    obtain ⟨hc, hc2⟩ := (mz c).1 rfl
    simp only
    have hzx : c ≠ cx := by
      rcases hcx2 with rfl | rfl <;> rcases hc2 with rfl | rfl <;> decide
    have hzy : c ≠ cy := by
      rcases hcy2 with rfl | rfl <;> rcases hc2 with rfl | rfl <;> decide
    rw [dictPop_map (fun n => rows.map (F n)) (List.mem_filter.2 ⟨hc, by simp [hzx, hzy]⟩), ok_bind, List.filter_filter]
    simp only
    have := columnStack_maps rows (cols := [F cx, F cy, F c]) (by simp)
    simp only [List.map_cons, List.map_nil] at this
    rw [this, ok_bind]
    congr 3
    apply List.filter_congr
    intro n hn
    have e3 := mz n
    have e1 := mx n
    have e2 := my n
    rw [Bool.eq_iff_iff]
    simp only [Bool.and_eq_true, decide_eq_true_eq]
    constructor
    · rintro ⟨h3, h2, h1⟩ (h | h | h | h | h | h)
      · exact h1 (e1.2 ⟨hn, .inl h⟩)
      · exact h2 (e2.2 ⟨hn, .inl h⟩)
      · exact h3 (e3.2 ⟨hn, .inl h⟩)
      · exact h1 (e1.2 ⟨hn, .inr h⟩)
      · exact h2 (e2.2 ⟨hn, .inr h⟩)
      · exact h3 (e3.2 ⟨hn, .inr h⟩)
    · intro h
      refine ⟨fun h3 => h ?_, fun h3 => h ?_, fun h3 => h ?_⟩
      · rcases (e3.1 h3).2 with h | h
        · exact .inr (.inr (.inl h))
        · exact .inr (.inr (.inr (.inr (.inr h))))
      · rcases (e2.1 h3).2 with h | h
        · exact .inr (.inl h)
        · exact .inr (.inr (.inr (.inr (.inl h))))
      · rcases (e1.1 h3).2 with h | h
        · exact .inl h
        · exact .inr (.inr (.inr (.inl h)))

theorem zip_columns {names : List Str} (hn : names.Nodup) (rows : List (List Flt)) :
    names.zip ((List.range names.length).map fun j => rows.map fun r => r.getD j .nan) =
      names.map fun n => (n, rows.map fun r => valueOf names r n) := by
  apply List.ext_getElem
  · simp
  · intro i h1 h2
    have hi : i < names.length := by simpa using h2
    simp only [List.getElem_zip, List.getElem_map, List.getElem_range]
    congr 2
    funext r
    rw [valueOf, hn.idxOf_getElem]

theorem tecNamed_get {ty : Str} {t : CellType} (h : TecNamed ty t) : dictGet tecTypes ty = .ok t := by
  obtain ⟨n, h1, h2⟩ := h
  simp only [List.mem_cons, List.not_mem_nil, or_false, Prod.mk.injEq] at h2
  rcases h2 with ⟨rfl, rfl⟩ | ⟨rfl, rfl⟩ | ⟨rfl, rfl⟩ | ⟨rfl, rfl⟩ <;> rcases h1 with rfl | rfl <;> decide

theorem count_of {z : Zone} {a b : Str} {n : ℕ}
    (h : z.lookup a = some (.int n) ∨ z.lookup a = none ∧ z.lookup b = some (.int n)) :
    fezoneCount z a b = .ok n := by
  rw [fezoneCount, zoneInt, zoneInt]
  rcases h with h | ⟨h1, h2⟩
  · rw [h]; rfl
  · rw [h1, h2]; rfl

theorem pointZone_read {es : List (ZoneEntry × Str)} {np nc : ℕ} {t : CellType} {z : Zone}
    (h : PointZone es np nc t) (hz : ∀ k, z.lookup k = zoneEntryOf es k) {names : List Str} {cx cy : Str} {cz : Option Str}
    (hn : TecNames names cx cy cz) {rows : List (List Flt)} (hr : rows.length = np) (hr0 : rows ≠ [])
    (hrw : ∀ r ∈ rows, r.length = names.length) {rls : List Str}
    (hrl : List.Forall₂ (fun l r => (words (strip l)).mapM toFloat = .ok r) rls rows)
    {cells : List (List ℤ)} (hc : cells.length = nc) (hc0 : cells ≠ []) {w : ℕ} (hw : w ≠ 0)
    (hcw : ∀ c ∈ cells, c.length = w) {cls : List Str}
    (hcl : List.Forall₂ (fun l r => (words (strip l)).mapM toInt = .ok r) cls cells) :
    tecZoneRead names z (rls ++ cls) = .ok ⟨rows.map fun r => valueOf names r cx :: valueOf names r cy ::
        (cz.map fun c => valueOf names r c).toList, t, cells.map fun c => c.map (· - 1),
      (names.filter fun n => ¬ IsCoordinate n).map fun n => (n, rows.map fun r => valueOf names r n), []⟩ := by
  obtain ⟨ty, hty, hf⟩ := h.format
  have z1 : fezoneFormat z = .ok ("FEPOINT".toList, ty) := by
    rw [fezoneFormat, zoneTxt, zoneTxt, zoneTxt, zoneTxt, hz, hz, hz, hz]
    rcases hf with ⟨h1, h2⟩ | ⟨h1, h2, h3⟩
    · rw [h1, h2]; rfl
    · rw [h1, h2, h3]; rfl
  have z2 : fezoneCount z "N".toList "NODES".toList = .ok np := count_of (by rw [hz, hz]; exact h.nodes)
  have z3 : fezoneCount z "E".toList "ELEMENTS".toList = .ok nc := count_of (by rw [hz, hz]; exact h.elements)
  have z4 : fezoneCentered z "FEPOINT".toList names.length = .ok (List.replicate names.length false) := by
    rw [fezoneCentered, if_neg (by decide)]
  have hne : names ≠ [] := by
    rintro rfl
    have := hn.first
    simp at this
  have hv : tecValues "FEPOINT".toList np ((List.replicate names.length false).map fun i => if i then nc else np)
      (rls ++ cls) = .ok ((List.range names.length).map fun j => rows.map fun r => r.getD j .nan, cls) := by
    have hrl2 : List.Forall₂ (fun l r => (words (strip l)).mapM toFloat = .ok r ∧ r ≠ []) rls rows := by
      rw [List.forall₂_iff_get] at hrl ⊢
      refine ⟨hrl.1, fun i h1 h2 => ⟨hrl.2 i h1 h2, fun h0 => ?_⟩⟩
      have := hrw (rows.get ⟨i, h2⟩) (List.get_mem _ _)
      rw [h0] at this
      exact hne (List.eq_nil_of_length_eq_zero this.symm)
    rw [tecValues, if_neg (by decide), ← hr, pointRows_lines hrl2, ok_bind]
    simp only
    rw [transposeRows_eq hrw hr0, ok_bind]
  have hcr : cellRows nc cls = .ok cells := by
    rw [← hc]
    apply cellRows_forall
    rw [List.forall₂_iff_get] at hcl ⊢
    refine ⟨hcl.1, fun i h1 h2 => ⟨hcl.2 i h1 h2, fun h0 => ?_⟩⟩
    have := hcw (cells.get ⟨i, h2⟩) (List.get_mem _ _)
    rw [h0] at this
    exact hw this.symm
  have hkeys : (names.map fun n => (n, rows.map fun r => valueOf names r n)).map (·.1) = names := by
    rw [List.map_map]; exact List.map_id _
  have hshare : tecShare (names.map fun n => (n, rows.map fun r => valueOf names r n))
      ((List.replicate names.length false).zip names) [] [] =
      .ok (names.map fun n => (n, rows.map fun r => valueOf names r n), []) := by
    have := tecShare_eq (P := names.map fun n => (n, rows.map fun r => valueOf names r n)) (C := [])
      (by rw [List.append_nil, hkeys]; exact hn.distinct)
    simpa [hkeys] using this
  rw [tecZoneRead, z1, ok_bind]
  simp only
  rw [z2, ok_bind, z3, ok_bind, z4, ok_bind, hv, ok_bind]
  simp only
  rw [hcr, ok_bind, if_neg (by simp [hc0, rectangular_of hcw]), zip_columns hn.distinct,
    updateDict_nil_of_nodup _ (by rw [hkeys]; exact hn.distinct), hshare, ok_bind]
  simp only
  rw [tecPoints_names hn rows (fun n r => valueOf names r n), ok_bind]
  simp only
  rw [tecNamed_get hty, ok_bind]
  rfl

/-! ### the file -/

theorem quotedNames_intercalate (ns : List Str) :
    quotedNames ns = [',', ' '].intercalate (ns.map fun n => '"' :: (n ++ ['"'])) := by
  induction ns with
  | nil => rfl
  | cons n ns ih =>
    cases ns with
    | nil => simp [quotedNames]
    | cons k ns =>
      rw [quotedNames, ih]
      simp only [List.map_cons, List.intercalate_cons_cons]
      · simp
      · simp

theorem tecFile_eq (flat : Bool) (version : Str) {m : AvsMesh} (h : TecMeshOk m) :
    ∃ shape, (∀ e ∈ tecCells m.cells, tecShape (decide (TecUniform m.cells)) e.1 = shape) ∧
      writeTecMesh flat version m = .ok (tecFile flat version m shape) := by
  obtain ⟨ty, shape, h1, h2, h3, h4⟩ := write_eq flat version h
  refine ⟨shape, h3, h4.trans (congrArg _ ?_)⟩
  have hty : ty = tecZoneName shape := by
    simp only [zoneNames, List.mem_cons, List.not_mem_nil, or_false] at h1
    rcases h1 with rfl | rfl | rfl | rfl
    · rw [← Except.ok.inj ((show dictGet tecTypes "FETRIANGLE".toList = .ok .triangle by decide).symm.trans h2)]; rfl
    · rw [← Except.ok.inj ((show dictGet tecTypes "FEQUADRILATERAL".toList = .ok .quad by decide).symm.trans h2)]; rfl
    · rw [← Except.ok.inj ((show dictGet tecTypes "FETETRAHEDRON".toList = .ok .tetra by decide).symm.trans h2)]; rfl
    · rw [← Except.ok.inj ((show dictGet tecTypes "FEBRICK".toList = .ok .hexahedron by decide).symm.trans h2)]; rfl
  have hall : allPoint flat m = coordVariables flat m := by
    cases flat <;> rfl
  have htab : ∀ xs : List Flt, tecTable xs = numberLines xs := by
    intro xs
    rw [tecTable, chunks, numberLines, List.map_map]
    simp only [Function.comp_def, spacedLine_eq]
    rfl
  rw [tecFile, hall, ← hty, quotedNames_intercalate, List.map_map]
  simp only [htab, spacedLine_eq, List.map_map]
  rw [tecZoneLines]
  by_cases hc : (cellVariables m).length = 0
  · simp only [hc, if_true]
    simp [Function.comp_def]
  · simp only [hc, if_false]
    by_cases hc1 : (cellVariables m).length = 1
    · simp only [hc1, if_true]
      simp [Function.comp_def]
    · simp only [hc1, if_false]
      simp [Function.comp_def]

end Verif.Mesh
