import Verif.Lemmas.TecplotMesh
import Verif.Lemmas.Mesh

/-!
# Lemmas on reading Tecplot mesh files
-/

namespace Verif.Mesh
open Verif.Py Verif.Model Verif.Spec

/-! ### numbers -/

theorem cumsum_dropLast (l : List ℕ) : cumsum l.dropLast = (cumsum l).dropLast := by
  induction l with
  | nil => rfl
  | cons x l ih =>
    cases l with
    | nil => rfl
    | cons y l =>
      have hne : (cumsum (y :: l)).map (x + ·) ≠ [] := by simp [cumsum]
      have e : cumsum (x :: y :: l) = x :: (cumsum (y :: l)).map (x + ·) := rfl
      have e2 : cumsum (x :: (y :: l).dropLast) = x :: (cumsum (y :: l).dropLast).map (x + ·) := rfl
      rw [List.dropLast_cons_of_ne_nil (by simp), e2, e, List.dropLast_cons_of_ne_nil hne, ih, List.map_dropLast]

theorem npSplit_flatten {α : Type} {cols : List (List α)} (h : cols ≠ []) :
    npSplit cols.flatten (cumsum (cols.map List.length).dropLast) = cols := by
  have hne : cols.map List.length ≠ [] := by simpa using h
  have hs : cols.flatten.length = (cols.map List.length).sum := List.length_flatten
  have h0 := slices (cols.map List.length) cols.flatten 0 (by simp)
  have e : (cumsum (cols.map List.length)).dropLast ++ [cols.flatten.length] = cumsum (cols.map List.length) := by
    have h1 := cumsum_getLast hne
    rw [← hs] at h1
    exact List.dropLast_append_getLast? _ h1
  rw [cumsum_dropLast]
  simp only [npSplit, e, List.tail_cons]
  simp only [Nat.zero_add, List.map_id', List.drop_zero] at h0
  exact List.eq_iff_flatten_eq.2 h0

theorem words_numbers {xs : List Flt} (h : ∀ x ∈ xs, IsDouble x) :
    (words (strip (spacedLine (xs.map fltStr)))).mapM toFloat = .ok xs := by
  rw [words_line, List.mapM_map]
  · have := mapM_ok (g := id) (f := toFloat ∘ fltStr) (xs := xs) fun x hx => toFloat_fltStr (h x hx)
    rw [this, List.map_id]
  · intro t ht
    obtain ⟨x, hx, rfl⟩ := List.mem_map.1 ht
    exact word_fltStr (h x hx)

theorem blockNumbers_lines {ls : List (List Flt)} (h : ∀ l ∈ ls, l ≠ [] ∧ ∀ x ∈ l, IsDouble x) (rest : List Str) :
    blockNumbers ls.flatten.length (ls.map (fun l => spacedLine (l.map fltStr)) ++ rest) = .ok (ls.flatten, rest) := by
  induction ls with
  | nil => simp [blockNumbers]
  | cons l ls ih =>
    obtain ⟨h1, h2⟩ := h l (by simp)
    have ih := ih fun l hl => h l (by simp [hl])
    obtain ⟨n, hn⟩ : ∃ n, (l :: ls).flatten.length = n + 1 := by
      cases l with
      | nil => exact absurd rfl h1
      | cons x l => exact ⟨_, by simp; rfl⟩
    have hsub : n + 1 - l.length = ls.flatten.length := by
      rw [← hn]; simp
    rw [hn, List.map_cons, List.cons_append, blockNumbers, words_numbers h2, ok_bind, hsub, ih, ok_bind]
    simp

theorem tables_eq (vs : List (Str × List Flt)) : vs.flatMap (fun e => tecTable e.2) =
    (vs.flatMap fun e => chunks 20 e.2).map fun l => spacedLine (l.map fltStr) := by
  rw [List.map_flatMap]
  rfl

theorem blockNumbers_tables {vs : List (Str × List Flt)} (h : ∀ e ∈ vs, ∀ x ∈ e.2, IsDouble x) (rest : List Str) :
    blockNumbers ((vs.map (·.2)).map List.length).sum (vs.flatMap (fun e => tecTable e.2) ++ rest) =
      .ok ((vs.map (·.2)).flatten, rest) := by
  have hf : (vs.flatMap fun e => chunks 20 e.2).flatten = (vs.map (·.2)).flatten := by
    induction vs with
    | nil => rfl
    | cons e vs ih =>
      rw [List.flatMap_cons, List.flatten_append, chunks_flatten 20 (by decide), ih fun e he => h e (by simp [he])]
      simp
  rw [tables_eq, ← List.length_flatten, ← hf]
  apply blockNumbers_lines
  intro l hl
  obtain ⟨e, he, hl⟩ := List.mem_flatMap.1 hl
  obtain ⟨h1, -, h3⟩ := mem_chunks 20 (by decide) e.2 l hl
  exact ⟨h1, fun x hx => h e he x (h3 x hx)⟩

theorem cellRows_lines {cs : List (List ℕ)} (h : ∀ c ∈ cs, c ≠ []) :
    cellRows cs.length (cs.map fun c => spacedLine (c.map fun v => natStr (v + 1))) =
      .ok (cs.map fun c => c.map fun v : ℕ => ((v + 1 : ℕ) : ℤ)) := by
  induction cs with
  | nil => rfl
  | cons c cs ih =>
    have hw : words (strip (spacedLine (c.map fun v => natStr (v + 1)))) = c.map fun v => natStr (v + 1) := by
      apply words_line
      intro t ht
      obtain ⟨v, _, rfl⟩ := List.mem_map.1 ht
      exact word_natStr _
    rw [List.length_cons, List.map_cons, cellRows, hw, if_neg (by simpa using h c (by simp)), List.mapM_map,
      mapM_ok (f := toInt ∘ fun v => natStr (v + 1)) (g := fun v : ℕ => ((v + 1 : ℕ) : ℤ))
        (fun v _ => toInt_natStr (v + 1)), ok_bind,
      ih fun c hc => h c (by simp [hc]), ok_bind]
    rfl

/-! ### variables -/

theorem tecShare_false (data : List (Str × List Flt)) (hd : (data.map (·.1)).Nodup) {P : List (Str × List Flt)}
    (hP : ∀ e ∈ P, e ∈ data) (r : List (Bool × Str)) (p c : List (Str × List Flt)) (hn : (p ++ P).map (·.1) |>.Nodup) :
    tecShare data (P.map (fun e => (false, e.1)) ++ r) p c = tecShare data r (p ++ P) c := by
  induction P generalizing p with
  | nil => simp
  | cons e P ih =>
    have h1 : dictGet data e.1 = .ok e.2 := dictGet_of_mem hd (hP e (by simp))
    have h2 : e.1 ∉ p.map (·.1) := by
      rw [List.map_append, List.nodup_append] at hn
      intro h
      exact hn.2.2 _ h e.1 (by simp) rfl
    rw [List.map_cons, List.cons_append, tecShare, h1, ok_bind]
    simp only [Bool.false_eq_true, if_false]
    rw [dictSet_of_notMem _ _ _ h2, ih (fun e he => hP e (by simp [he])) _ (by simpa using hn)]
    simp

theorem tecShare_true (data : List (Str × List Flt)) (hd : (data.map (·.1)).Nodup) {C : List (Str × List Flt)}
    (hC : ∀ e ∈ C, e ∈ data) (p c : List (Str × List Flt)) (hn : (c ++ C).map (·.1) |>.Nodup) :
    tecShare data (C.map fun e => (true, e.1)) p c = .ok (p, c ++ C) := by
  induction C generalizing c with
  | nil => simp [tecShare]
  | cons e C ih =>
    have h1 : dictGet data e.1 = .ok e.2 := dictGet_of_mem hd (hC e (by simp))
    have h2 : e.1 ∉ c.map (·.1) := by
      rw [List.map_append, List.nodup_append] at hn
      intro h
      exact hn.2.2 _ h e.1 (by simp) rfl
    rw [List.map_cons, tecShare, h1, ok_bind]
    simp only [if_true]
    rw [dictSet_of_notMem _ _ _ h2, ih (fun e he => hC e (by simp [he])) _ (by simpa using hn)]
    simp

theorem zip_replicate_map {α β γ : Type} (b : β) (l : List α) (f : α → γ) :
    (List.replicate l.length b).zip (l.map f) = l.map fun e => (b, f e) := by
  induction l with
  | nil => rfl
  | cons e l ih => rw [List.length_cons, List.replicate_succ, List.map_cons, List.zip_cons_cons, ih, List.map_cons]

theorem tecShare_eq {P C : List (Str × List Flt)} (hn : ((P ++ C).map (·.1)).Nodup) :
    tecShare (P ++ C) ((List.replicate P.length false ++ List.replicate C.length true).zip ((P ++ C).map (·.1))) [] [] =
      .ok (P, C) := by
  rw [List.map_append, List.zip_append (by simp), zip_replicate_map, zip_replicate_map,
    tecShare_false _ hn (by simp +contextual), tecShare_true _ hn (by simp +contextual)]
  · simp
  · rw [List.map_append] at hn
    simpa using (List.nodup_append.1 hn).2.1
  · rw [List.map_append] at hn
    simpa using (List.nodup_append.1 hn).1

theorem columnStack_points (points : List (P3 Flt)) :
    columnStack [points.map (·.x), points.map (·.y), points.map (·.z)] = .ok (points.map coords) := by
  rw [columnStack]
  simp only [List.all_cons, List.length_map, decide_true, List.all_nil, Bool.and_true, if_true]
  rw [mapM_ok (g := fun i => (points.map coords).getD i [])]
  · congr 1
    apply List.ext_getElem
    · simp
    · intro i h1 h2
      have : i < points.length := by simpa using h2
      simp [List.getD_eq_getElem?_getD, this]
  · intro i hi
    have hi : i < points.length := List.mem_range.1 hi
    simp [rowAt, List.getD_eq_getElem?_getD, hi, coords, bind, Except.bind, pure, Except.pure]

theorem dictPop_head {β : Type} {k : Str} {v : β} {d : List (Str × β)} (h : k ∉ d.map (·.1)) :
    dictPop ((k, v) :: d) k = .ok (v, d) := by
  rw [dictPop, dictGet]
  simp only [List.lookup_cons_self]
  rw [ok_bind, List.filter_cons_of_neg (by simp)]
  congr 2
  apply List.filter_eq_self.2
  intro e he
  simp only [ne_eq, decide_not, Bool.not_eq_true', decide_eq_false_iff_not]
  rintro rfl
  exact h (List.mem_map_of_mem he)

theorem tecPoints_eq (points : List (P3 Flt)) {P : List (Str × List Flt)}
    (hn : (["X".toList, "Y".toList, "Z".toList] ++ P.map (·.1)).Nodup) :
    tecPoints (("X".toList, points.map (·.x)) :: ("Y".toList, points.map (·.y)) ::
      ("Z".toList, points.map (·.z)) :: P) = .ok (points.map coords, P) := by
  have hX : "X".toList ∉ (("Y".toList, points.map (·.y)) :: ("Z".toList, points.map (·.z)) :: P).map (·.1) := by
    have := List.nodup_cons.1 hn
    simpa using this.1
  have hn2 := (List.nodup_cons.1 hn).2
  have hY : "Y".toList ∉ (("Z".toList, points.map (·.z)) :: P).map (·.1) := by
    have := List.nodup_cons.1 hn2
    simpa using this.1
  have hZ : "Z".toList ∉ P.map (·.1) := (List.nodup_cons.1 (List.nodup_cons.1 hn2).2).1
  unfold tecPoints
  simp only [List.map_cons, List.mem_cons, true_or, or_true, decide_true, if_true]
  rw [dictPop_head hX, ok_bind]
  simp only
  rw [dictPop_head hY, ok_bind]
  simp only
  rw [dictPop_head hZ, ok_bind]
  simp only
  rw [columnStack_points, ok_bind]

/-- The coordinates that are read. -/
def coordsOf (flat : Bool) (p : P3 Flt) : List Flt := p.x :: p.y :: if flat then [] else [p.z]

theorem columnStack_flat (points : List (P3 Flt)) :
    columnStack [points.map (·.x), points.map (·.y)] = .ok (points.map (coordsOf true)) := by
  rw [columnStack]
  simp only [List.all_cons, List.length_map, decide_true, List.all_nil, Bool.and_true, if_true]
  rw [mapM_ok (g := fun i => (points.map (coordsOf true)).getD i [])]
  · congr 1
    apply List.ext_getElem
    · simp
    · intro i h1 h2
      have : i < points.length := by simpa using h2
      simp [List.getD_eq_getElem?_getD, this]
  · intro i hi
    have hi : i < points.length := List.mem_range.1 hi
    simp [rowAt, List.getD_eq_getElem?_getD, hi, coordsOf, bind, Except.bind, pure, Except.pure]

theorem tecPoints_coords (flat : Bool) (points : List (P3 Flt)) {P : List (Str × List Flt)}
    (hn : (["X".toList, "Y".toList, "Z".toList] ++ P.map (·.1)).Nodup) (hz : ['z'] ∉ P.map (·.1)) :
    tecPoints (tecCoords flat points ++ P) = .ok (points.map (coordsOf flat), P) := by
  cases flat with
  | false => exact tecPoints_eq points hn
  | true =>
    have hn2 := (List.nodup_cons.1 hn).2
    have hX : "X".toList ∉ (("Y".toList, points.map (·.y)) :: P).map (·.1) := by
      have := (List.nodup_cons.1 hn).1
      rw [List.map_cons]
      intro h
      rcases List.mem_cons.1 h with h | h
      · exact absurd (show "X".toList = "Y".toList from h) (by decide)
      · exact this (List.mem_append_right _ h)
    have hY : "Y".toList ∉ P.map (·.1) := fun h => (List.nodup_cons.1 hn2).1 (List.mem_cons.2 (.inr h))
    have hZ : "Z".toList ∉ P.map (·.1) := (List.nodup_cons.1 (List.nodup_cons.1 hn2).2).1
    have hZ' : "Z".toList ∉ "X".toList :: "Y".toList :: P.map (·.1) := by
      intro h
      simp only [List.mem_cons] at h
      rcases h with h | h | h
      · revert h; decide
      · revert h; decide
      · exact hZ h
    have hz' : "z".toList ∉ "X".toList :: "Y".toList :: P.map (·.1) := by
      intro h
      simp only [List.mem_cons] at h
      rcases h with h | h | h
      · revert h; decide
      · revert h; decide
      · exact hz h
    show tecPoints (("X".toList, points.map (·.x)) :: ("Y".toList, points.map (·.y)) :: P) = _
    have hYm : "Y".toList ∈ "X".toList :: "Y".toList :: P.map (·.1) :=
      List.mem_cons.2 (.inr List.mem_cons_self)
    unfold tecPoints
    simp only [List.map_cons, List.mem_cons_self, hYm, decide_true, if_true, hZ', hz', decide_false,
      Bool.false_eq_true, if_false]
    rw [dictPop_head hX, ok_bind]
    simp only
    rw [dictPop_head hY, ok_bind]
    simp only
    rw [columnStack_flat, ok_bind]

theorem renameMaterial_last {β : Type} {d : List (Str × β)}
    (h1 : (d.filter fun e => IsMaterialName e.1).length ≤ 1) : renameMaterial d = materialLast d := by
  rw [renameMaterial, materialLast]
  cases hf : d.find? (fun e => decide (e.1 ∈ materialKeys)) with
  | none =>
    have hn : ∀ e ∈ d, ¬ IsMaterialName e.1 := by
      intro e he
      have := List.find?_eq_none.1 hf e he
      simpa [mem_materialKeys] using this
    simp only
    rw [List.filter_eq_self.2 (fun e he => by simpa using hn e he),
      List.filter_eq_nil_iff.2 (fun e he => by simpa using hn e he)]
    simp
  | some e =>
    simp only
    obtain ⟨hp, as, bs, rfl, has⟩ := List.find?_eq_some_iff_append.1 hf
    have hm : IsMaterialName e.1 := by simpa [mem_materialKeys] using hp
    have ha : ∀ x ∈ as, ¬ IsMaterialName x.1 := by
      intro x hx
      have := has x hx
      simpa [mem_materialKeys] using this
    have hb : ∀ x ∈ bs, ¬ IsMaterialName x.1 := by
      rw [List.filter_append, List.filter_cons_of_pos (by simpa using hm), List.length_append, List.length_cons] at h1
      have : (bs.filter fun e => decide (IsMaterialName e.1)) = [] := by
        apply List.eq_nil_of_length_eq_zero
        omega
      intro x hx
      have := List.filter_eq_nil_iff.1 this x hx
      simpa using this
    have hflt : (as ++ e :: bs).filter (fun x => decide (x.1 ≠ e.1)) = as ++ bs := by
      rw [List.filter_append, List.filter_cons_of_neg (by simp)]
      congr 1 <;> apply List.filter_eq_self.2
      · intro x hx
        simp only [ne_eq, decide_not, Bool.not_eq_true', decide_eq_false_iff_not]
        intro h
        exact ha x hx (h ▸ hm)
      · intro x hx
        simp only [ne_eq, decide_not, Bool.not_eq_true', decide_eq_false_iff_not]
        intro h
        exact hb x hx (h ▸ hm)
    rw [hflt, dictSet_of_notMem]
    · rw [List.filter_append, List.filter_append, List.filter_cons_of_neg (by simpa using hm),
        List.filter_cons_of_pos (by simpa using hm),
        List.filter_eq_self.2 (fun x hx => by simpa using ha x hx),
        List.filter_eq_self.2 (fun x hx => by simpa using hb x hx),
        List.filter_eq_nil_iff.2 (fun x hx => by simpa using ha x hx),
        List.filter_eq_nil_iff.2 (fun x hx => by simpa using hb x hx)]
      rfl
    · intro h
      obtain ⟨x, hx, hxe⟩ := List.mem_map.1 h
      have : IsMaterialName x.1 := by rw [hxe]; exact .inl rfl
      rcases List.mem_append.1 hx with hx | hx
      · exact ha x hx this
      · exact hb x hx this

theorem renameMaterial_perm {β : Type} {d : List (Str × β)}
    (h1 : (d.filter fun e => IsMaterialName e.1).length ≤ 1) :
    (renameMaterial d).Perm (d.map fun e => (materialRenamed e.1, e.2)) := by
  rw [renameMaterial_last h1]
  clear h1
  induction d with
  | nil => exact List.Perm.nil
  | cons e d ih =>
    rw [materialLast] at ih ⊢
    by_cases he : IsMaterialName e.1
    · rw [List.filter_cons_of_neg (by simpa using he), List.filter_cons_of_pos (by simpa using he),
        List.map_cons, List.map_cons, materialRenamed, if_pos he]
      exact List.perm_middle.trans (ih.cons _)
    · rw [List.filter_cons_of_pos (by simpa using he), List.filter_cons_of_neg (by simpa using he),
        List.map_cons, materialRenamed, if_neg he]
      exact ih.cons _

/-! ### the zone -/

theorem pySlice_inner (a b : Char) (s : Str) : pySlice (a :: (s ++ [b])) 1 (-1) = s := by
  rw [pySlice]
  have h1 : sliceIdx (a :: (s ++ [b])).length 1 = 1 := sliceIdx_nat _ 1
  have h2 : sliceIdx (a :: (s ++ [b])).length (-1) = s.length + 1 := by
    rw [sliceIdx, if_pos (by decide)]
    simp
  rw [h1, h2]
  simp

theorem zonePlain_of {s : Str} (h : s ≠ []) (hs : ∀ c ∈ s, isSpace c = false ∧ c ≠ ',' ∧ c ≠ '=' ∧ c ≠ '"' ∧
    c ≠ '(' ∧ c ≠ ')') (hV : 'V' ∉ s) : ZonePlain s :=
  ⟨h, hs, fun hi => hV (hi.subset (show 'V' ∈ "VARLOCATION".toList by decide))⟩

theorem zonePlain_natStr (n : ℕ) : ZonePlain (natStr n) := by
  apply zonePlain_of (Verif.Py.natStr_ne_nil n)
  · intro c hc
    refine ⟨natStr_nospace n c hc, ?_, ?_, ?_, ?_, ?_⟩ <;>
    · rintro rfl
      exact absurd hc (natStr_notMem n (by decide))
  · exact natStr_notMem n (by decide)

theorem zonePlain_name {ty : Str} (h : ty ∈ zoneNames) : ZonePlain ty := by
  simp only [zoneNames, List.mem_cons, List.not_mem_nil, or_false] at h
  rcases h with rfl | rfl | rfl | rfl <;> exact zonePlain_of (by decide) (by decide) (by decide)

/-- The range of the variables of cells. -/
def tecRange (pv cv : ℕ) : Str := if cv = 1 then natStr (pv + 1) else natStr (pv + 1) ++ '-' :: natStr (pv + cv)

/-- The entries of the zone that is written. -/
def zoneEntries (np nc pv cv : ℕ) (type : Str) : List (ZoneEntry × Str) :=
  [(⟨"NODES".toList, [' '], [' '], .plain (natStr np)⟩, [',', ' ']),
    (⟨"ELEMENTS".toList, [' '], [' '], .plain (natStr nc)⟩, [',', ' ']),
    (⟨"DATAPACKING".toList, [' '], [' '], .plain "BLOCK".toList⟩, [',', ' ']),
    (⟨"ZONETYPE".toList, [' '], [' '], .plain type⟩, if cv = 0 then [] else [',', ' '])] ++
  if cv = 0 then [] else
    [(⟨"VARLOCATION".toList, [' '], [' '], .located ('[' :: (tecRange pv cv ++ "] = CELLCENTERED".toList))⟩, [])]

theorem range_chars (pv cv : ℕ) : ∀ c ∈ tecRange pv cv, isDigit c = true ∨ c = '-' := by
  intro c hc
  rw [tecRange] at hc
  split at hc
  · exact .inl (natStr_isDigit _ c hc)
  · rcases List.mem_append.1 hc with hc | hc
    · exact .inl (natStr_isDigit _ c hc)
    · rcases List.mem_cons.1 hc with rfl | hc
      · exact .inr rfl
      · exact .inl (natStr_isDigit _ c hc)

theorem range_notMem (pv cv : ℕ) {c : Char} (h : isDigit c = false) (h2 : c ≠ '-') : c ∉ tecRange pv cv := by
  intro hc
  rcases range_chars pv cv c hc with h3 | h3
  · rw [h] at h3; cases h3
  · exact h2 h3

theorem located_notMem (pv cv : ℕ) {c : Char} (h : isDigit c = false) (h2 : c ≠ '-')
    (h3 : c ∉ '[' :: "] = CELLCENTERED".toList) : c ∉ '[' :: (tecRange pv cv ++ "] = CELLCENTERED".toList) := by
  rw [List.mem_cons, not_or] at h3 ⊢
  rw [List.mem_append, not_or]
  exact ⟨h3.1, range_notMem pv cv h h2, h3.2⟩

theorem zoneEntries_ok (np nc pv cv : ℕ) {type : Str} (h : type ∈ zoneNames) : ZoneOk (zoneEntries np nc pv cv type) := by
  have hb : ∀ c ∈ [' '], isSpace c = true := by decide
  have hs : ([',', ' '] : Str) ≠ [] ∧ Separator [',', ' '] := by decide
  have hs0 : Separator [] := by decide
  have k1 : "NODES".toList ∈ numberKeys := by decide
  have k2 : "ELEMENTS".toList ∈ numberKeys := by decide
  have k4 : "ZONETYPE".toList ∈ textKeys := by decide
  have e1 : ZoneEntry.Ok ⟨"NODES".toList, [' '], [' '], .plain (natStr np)⟩ :=
    ⟨hb, hb, .inr ⟨k1, by rw [pyInt_natStr]; rfl⟩, zonePlain_natStr np⟩
  have e2 : ZoneEntry.Ok ⟨"ELEMENTS".toList, [' '], [' '], .plain (natStr nc)⟩ :=
    ⟨hb, hb, .inr ⟨k2, by rw [pyInt_natStr]; rfl⟩, zonePlain_natStr nc⟩
  have e3 : ZoneEntry.Ok ⟨"DATAPACKING".toList, [' '], [' '], .plain "BLOCK".toList⟩ :=
    ⟨hb, hb, .inl (by decide), zonePlain_of (by decide) (by decide) (by decide)⟩
  have e4 : ZoneEntry.Ok ⟨"ZONETYPE".toList, [' '], [' '], .plain type⟩ :=
    ⟨hb, hb, .inl k4, zonePlain_name h⟩
  have e5 : ZoneEntry.Ok ⟨"VARLOCATION".toList, [' '], [' '],
      .located ('[' :: (tecRange pv cv ++ "] = CELLCENTERED".toList))⟩ :=
    ⟨hb, hb, rfl, located_notMem pv cv (by decide) (by decide) (by decide),
      located_notMem pv cv (by decide) (by decide) (by decide),
      located_notMem pv cv (by decide) (by decide) (by decide)⟩
  by_cases hc : cv = 0
  · have he : zoneEntries np nc pv cv type = [(⟨"NODES".toList, [' '], [' '], .plain (natStr np)⟩, [',', ' ']),
      (⟨"ELEMENTS".toList, [' '], [' '], .plain (natStr nc)⟩, [',', ' ']),
      (⟨"DATAPACKING".toList, [' '], [' '], .plain "BLOCK".toList⟩, [',', ' ']),
      (⟨"ZONETYPE".toList, [' '], [' '], .plain type⟩, [])] := by
        rw [zoneEntries, if_pos hc, if_pos hc]; rfl
    rw [he]
    refine ⟨?_, ?_, ?_, ?_⟩
    · intro e hm
      simp only [List.mem_cons, List.not_mem_nil, or_false] at hm
      rcases hm with rfl | rfl | rfl | rfl
      · exact e1
      · exact e2
      · exact e3
      · exact e4
    · exact ⟨hs, hs, hs, hs0⟩
    · simp only [List.map_cons, List.map_nil]; decide
    · intro e hm hg
      have := List.mem_of_mem_getLast? hm
      simp only [List.mem_filter, List.mem_cons, List.not_mem_nil, or_false] at this
      rcases this.1 with rfl | rfl | rfl | rfl <;> exact absurd hg.1 (by simp)
  · have he : zoneEntries np nc pv cv type = [(⟨"NODES".toList, [' '], [' '], .plain (natStr np)⟩, [',', ' ']),
      (⟨"ELEMENTS".toList, [' '], [' '], .plain (natStr nc)⟩, [',', ' ']),
      (⟨"DATAPACKING".toList, [' '], [' '], .plain "BLOCK".toList⟩, [',', ' ']),
      (⟨"ZONETYPE".toList, [' '], [' '], .plain type⟩, [',', ' ']),
      (⟨"VARLOCATION".toList, [' '], [' '],
        .located ('[' :: (tecRange pv cv ++ "] = CELLCENTERED".toList))⟩, [])] := by
        rw [zoneEntries, if_neg hc, if_neg hc]; rfl
    rw [he]
    refine ⟨?_, ?_, ?_, ?_⟩
    · intro e hm
      simp only [List.mem_cons, List.not_mem_nil, or_false] at hm
      rcases hm with rfl | rfl | rfl | rfl | rfl
      · exact e1
      · exact e2
      · exact e3
      · exact e4
      · exact e5
    · exact ⟨hs, hs, hs, hs, hs0⟩
    · simp only [List.map_cons, List.map_nil]; decide
    · intro e hm hg
      have := List.mem_of_mem_getLast? hm
      simp only [List.mem_filter, List.mem_cons, List.not_mem_nil, or_false] at this
      rcases this.1 with rfl | rfl | rfl | rfl | rfl <;> exact absurd hg.1 (by simp)

end Verif.Mesh
