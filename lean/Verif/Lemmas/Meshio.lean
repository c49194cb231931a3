import Verif.Model.Meshio
import Verif.Spec.Meshio
import Verif.Lemmas.Mesh
import Verif.Lemmas.Reshape
import Verif.Lemmas.TecplotRead
import Verif.Lemmas.Extract
import Verif.Lemmas.Registry

/-!
# Lemmas about the conversion from and to meshio
-/

namespace Verif.Mesh
open Verif.Py Verif.Model Verif.Spec

/-! ### grouping by type -/

/-- The different entries in the order of their first occurrence. -/
def firsts {α : Type} [DecidableEq α] : List α → List α
  | [] => []
  | x :: xs => x :: (firsts xs).filter (· ≠ x)

section Firsts
variable {α : Type} [DecidableEq α]

theorem mem_firsts {l : List α} {x : α} : x ∈ firsts l ↔ x ∈ l := by
  induction l with
  | nil => simp [firsts]
  | cons y l ih =>
    rw [firsts, List.mem_cons, List.mem_cons, List.mem_filter, ih]
    by_cases h : x = y <;> simp [h]

theorem firsts_nodup (l : List α) : (firsts l).Nodup := by
  induction l with
  | nil => exact List.nodup_nil
  | cons y l ih =>
    rw [firsts, List.nodup_cons]
    exact ⟨by simp, ih.filter _⟩

theorem firsts_of_nodup {l : List α} (h : l.Nodup) : firsts l = l := by
  induction l with
  | nil => rfl
  | cons y l ih =>
    rw [List.nodup_cons] at h
    rw [firsts, ih h.2, List.filter_eq_self.2]
    intro x hx
    have : x ≠ y := by rintro rfl; exact h.1 hx
    simpa using this

theorem firsts_sublist (l : List α) : (firsts l).Sublist l := by
  induction l with
  | nil => exact .slnil
  | cons y l ih => exact (List.filter_sublist.trans ih).cons_cons y

theorem firsts_snoc (l : List α) (x : α) : firsts (l ++ [x]) = if x ∈ l then firsts l else firsts l ++ [x] := by
  induction l with
  | nil => simp [firsts]
  | cons y l ih =>
    rw [List.cons_append, firsts, ih, firsts]
    by_cases hx : x ∈ l
    · rw [if_pos hx, if_pos (List.mem_cons_of_mem _ hx)]
    · rw [if_neg hx]
      by_cases h : x = y
      · subst h
        rw [if_pos (List.mem_cons_self), List.filter_append]
        simp
      · rw [if_neg (by simp [h, hx]), List.filter_append]
        simp [h]

end Firsts

/-- The things that belong to a type. -/
def ofType {α : Type} (t : CellType) (items : List (CellType × α)) : List α :=
  (items.filter fun e => e.1 = t).map (·.2)

theorem dictSet_map_self {κ β : Type} [DecidableEq κ] {ks : List κ} (f : κ → β) {k : κ} (h : k ∈ ks) (hn : ks.Nodup) (v : β) :
    dictSet (ks.map fun k => (k, f k)) k v = ks.map fun j => (j, if j = k then v else f j) := by
  induction ks with
  | nil => simp at h
  | cons a ks ih =>
    rw [List.nodup_cons] at hn
    rw [List.map_cons, dictSet, List.map_cons]
    by_cases ha : a = k
    · subst ha
      rw [if_pos rfl, if_pos rfl]
      congr 1
      apply List.map_congr_left
      intro j hj
      rw [if_neg]
      rintro rfl
      exact hn.1 hj
    · rw [if_neg ha, if_neg ha, ih (by simpa [Ne.symm ha] using h) hn.2]

theorem lookup_map_self {κ β : Type} [DecidableEq κ] (ks : List κ) (f : κ → β) (k : κ) :
    (ks.map fun k => (k, f k)).lookup k = if k ∈ ks then some (f k) else none := by
  induction ks with
  | nil => rfl
  | cons a ks ih =>
    rw [List.map_cons, List.lookup_cons]
    by_cases ha : k = a
    · subst ha; simp
    · rw [show (k == a) = false by simpa using ha, ih]
      simp [ha]

theorem collect_eq {α : Type} (items : List (CellType × α)) :
    collect items = (firsts (items.map (·.1))).map fun t => (t, ofType t items) := by
  induction items using List.reverseRecOn with
  | nil => rfl
  | append_singleton l e ih =>
    have e1 : collect (l ++ [e]) = match (collect l).lookup e.1 with
        | none => dictSet (collect l) e.1 [e.2]
        | some x => dictSet (collect l) e.1 (x ++ [e.2]) := by
      unfold collect
      rw [List.foldl_append]
      rfl
    rw [e1, ih, lookup_map_self, List.map_append, List.map_singleton, firsts_snoc]
    have hof : ∀ t, ofType t (l ++ [e]) = if t = e.1 then ofType t l ++ [e.2] else ofType t l := by
      intro t
      unfold ofType
      rw [List.filter_append]
      by_cases ht : t = e.1
      · subst ht; simp
      · rw [if_neg ht, List.filter_singleton]
        simp [Ne.symm ht]
    by_cases h : e.1 ∈ l.map (·.1)
    · rw [if_pos (mem_firsts.2 h), if_pos h]
      simp only
      rw [dictSet_map_self (fun t => ofType t l) (mem_firsts.2 h) (firsts_nodup _)]
      apply List.map_congr_left
      intro t _
      rw [hof]
      by_cases ht : t = e.1
      · subst ht; simp
      · simp [ht]
    · rw [if_neg (fun hm => h (mem_firsts.1 hm)), if_neg h]
      simp only
      rw [dictSet_of_notMem, List.map_append, List.map_singleton]
      · congr 1
        · apply List.map_congr_left
          intro t ht
          rw [hof, if_neg]
          rintro rfl
          exact h (mem_firsts.1 ht)
        · rw [hof, if_pos rfl]
          have : ofType e.1 l = [] := by
            unfold ofType
            rw [List.filter_eq_nil_iff.2]
            · rfl
            · intro x hx hx1
              exact h (List.mem_map.2 ⟨x, hx, by simpa using hx1⟩)
          rw [this]
          rfl
      · rw [List.map_map]
        intro hm
        apply h
        apply mem_firsts.1
        simpa using hm

/-- Things put together by type. -/
def regroup {α : Type} (types : List CellType) (ps : List (List α)) : List (List α) :=
  (firsts types).map fun t => (ofType t (types.zip ps)).flatten

theorem zip_eq_zipIdx {α β : Type} (ts : List α) {ps : List β} (h : ps.length = ts.length) (d : β) :
    ts.zip ps = ts.zipIdx.map fun e => (e.1, ps.getD e.2 d) := by
  apply List.ext_getElem
  · simp [h]
  · intro i h1 h2
    simp only [List.length_zip, h, min_self] at h1
    simp [List.getD, h, h1]

theorem rowsAt_ofType {α : Type} (types : List CellType) {ps : List (List α)} (h : ps.length = types.length) (t : CellType) :
    rowsAt ps (ofType t types.zipIdx) = .ok (ofType t (types.zip ps)) := by
  rw [zip_eq_zipIdx types h []]
  have e : ofType t (types.zipIdx.map fun e => (e.1, ps.getD e.2 [])) =
      (ofType t types.zipIdx).map fun i => ps.getD i [] := by
    unfold ofType
    rw [List.filter_map, List.map_map, List.map_map]
    rfl
  rw [e]
  apply mapM_ok
  intro i hi
  unfold ofType at hi
  obtain ⟨x, hx, rfl⟩ := List.mem_map.1 hi
  have hx := (List.mem_filter.1 hx).1
  obtain ⟨x1, x2⟩ := x
  have := List.mem_zipIdx hx
  have hl : x2 < ps.length := by omega
  simp [List.getD, hl]

/-! ### old and new style -/

/-- The cells of every type in one block. -/
def grouped (cells : List CellBlock) : List CellBlock :=
  (firsts (cells.map (·.type))).map fun t => ⟨t, (cells.filter fun c => c.type = t).flatMap (·.data)⟩

theorem ofType_cells (t : CellType) (cells : List CellBlock) :
    ofType t (cells.map fun c => (c.type, c.data)) = (cells.filter fun c => c.type = t).map (·.data) := by
  unfold ofType
  rw [List.filter_map, List.map_map]
  rfl

theorem oldCells_ok {cells : List CellBlock}
    (h : ∀ t, rectangular ((cells.filter fun c => c.type = t).flatMap (·.data)) = true) :
    oldCells cells = .ok ((grouped cells).map fun c => (c.type, c.data)) := by
  unfold oldCells
  rw [collect_eq, List.map_map]
  show ((firsts (cells.map (·.type))).map fun t => (t, ofType t (cells.map fun c => (c.type, c.data)))).mapM _ = _
  rw [mapM_ok (g := fun e => (e.1, e.2.flatten))]
  · congr 1
    unfold grouped
    rw [List.map_map, List.map_map]
    apply List.map_congr_left
    intro t _
    show (t, (ofType t (cells.map fun c => (c.type, c.data))).flatten) = (t, _)
    rw [ofType_cells]
    simp only [List.flatMap_def]
  · intro e he
    obtain ⟨t, -, rfl⟩ := List.mem_map.1 he
    rw [ofType_cells]
    unfold concatCells
    have := h t
    rw [List.flatMap_def] at this
    rw [if_pos this]
    rfl

theorem newCells_old (cells : List CellBlock) :
    newCells ((grouped cells).map fun c => (c.type, c.data)) = grouped cells := by
  unfold newCells
  rw [List.map_map]
  exact List.map_id _

variable {D : Type}

theorem oldData_ok {cells : List CellBlock} {cd : List (Str × List (List D))}
    (h : ∀ e ∈ cd, e.2.length = cells.length) (h0 : cd ≠ []) :
    oldData cells cd = .ok ((firsts (cells.map (·.type))).map fun t =>
      (t, cd.map fun kv => (kv.1, (ofType t ((cells.map (·.type)).zip kv.2)).flatten))) := by
  unfold oldData
  have e1 : cells.zipIdx.map (fun c => (c.1.type, c.2)) = (cells.map (·.type)).zipIdx := by
    rw [List.zipIdx_map]
    rfl
  have e2 : ((cells.map (·.type)).zipIdx).map (·.1) = cells.map (·.type) := by simp
  rw [if_neg h0, e1, collect_eq, e2]
  rw [mapM_ok (g := fun e => (e.1, cd.map fun kv => (kv.1, (ofType e.1 ((cells.map (·.type)).zip kv.2)).flatten)))]
  · rw [List.map_map]
    rfl
  · intro e he
    obtain ⟨t, -, rfl⟩ := List.mem_map.1 he
    simp only
    rw [mapM_ok (g := fun kv => (kv.1, (ofType t ((cells.map (·.type)).zip kv.2)).flatten))]
    · rfl
    · intro kv hkv
      unfold concatAt
      rw [rowsAt_ofType _ (by rw [h kv hkv, List.length_map])]
      rfl

theorem unique_perm {α : Type} [LinearOrder α] {l ks : List α} (hn : ks.Nodup) (h : ∀ x, x ∈ l ↔ x ∈ ks) :
    (unique l).Perm ks :=
  (List.perm_ext_iff_of_nodup (unique_nodup l) hn).2 fun x => by rw [mem_unique, h]

theorem newData_ok {cells : List CellBlock} {cd : List (Str × List (List D))} (hc : cells ≠ [])
    (hn : (cd.map (·.1)).Nodup) {oc : OldCells} (hoc : oc.map (·.1) = firsts (cells.map (·.type))) :
    ∃ r, newData oc ((firsts (cells.map (·.type))).map fun t =>
        (t, cd.map fun kv => (kv.1, (ofType t ((cells.map (·.type)).zip kv.2)).flatten))) = .ok r ∧
      r.Perm (cd.map fun kv => (kv.1, regroup (cells.map (·.type)) kv.2)) := by
  set types := cells.map (·.type) with ht
  have hne : types ≠ [] := by rw [ht]; simpa using hc
  let old : OldData D := (firsts types).map fun t => (t, cd.map fun kv => (kv.1, (ofType t (types.zip kv.2)).flatten))
  let val : Str → List (List D) := fun k => match dictGet cd k with
    | .ok v => regroup types v
    | .error _ => []
  have hlk : ∀ kv ∈ cd, val kv.1 = regroup types kv.2 := by
    intro kv hkv
    have : dictGet cd kv.1 = .ok kv.2 := (dictGet_eq_ok hn).2 hkv
    simp only [val, this]
  have hlabels : (unique (old.flatMap fun e => e.2.map (·.1))).Perm (cd.map (·.1)) := by
    apply unique_perm hn
    intro x
    simp only [old, List.mem_flatMap, List.mem_map]
    constructor
    · rintro ⟨e, ⟨t, -, rfl⟩, kv, hkv, rfl⟩
      obtain ⟨a, ha, rfl⟩ := List.mem_map.1 hkv
      exact ⟨a, ha, rfl⟩
    · rintro ⟨a, ha, rfl⟩
      obtain ⟨t, htt⟩ := List.exists_mem_of_ne_nil _ hne
      exact ⟨_, ⟨t, mem_firsts.2 htt, rfl⟩, _, List.mem_map.2 ⟨a, ha, rfl⟩, rfl⟩
  refine ⟨(unique (old.flatMap fun e => e.2.map (·.1))).map fun k => (k, val k), ?_, ?_⟩
  · unfold newData
    apply mapM_ok
    intro k hk
    obtain ⟨kv, hkv, rfl⟩ := List.mem_map.1 (hlabels.mem_iff.1 hk)
    have hv := hlk kv hkv
    have e : oc.mapM (fun c => (do
          let d ← dictGet old c.1
          dictGet d kv.1 : Except PyErr (List D))) = .ok (oc.map fun c => (ofType c.1 (types.zip kv.2)).flatten) := by
      apply mapM_ok
      intro c hc'
      have hmem : c.1 ∈ firsts types := by rw [← hoc]; exact List.mem_map_of_mem hc'
      have h1 : dictGet old c.1 = .ok (cd.map fun kv => (kv.1, (ofType c.1 (types.zip kv.2)).flatten)) := by
        unfold dictGet
        rw [lookup_map_self, if_pos hmem]
      rw [h1, ok_bind]
      apply (dictGet_eq_ok (by rw [List.map_map]; exact hn)).2
      exact List.mem_map.2 ⟨kv, hkv, rfl⟩
    rw [e, ok_bind, hv]
    unfold regroup
    rw [← hoc, List.map_map]
    rfl
  · refine (hlabels.map _).trans ?_
    rw [List.map_map]
    apply List.Perm.of_eq
    apply List.map_congr_left
    intro kv hkv
    show (kv.1, val kv.1) = _
    rw [hlk kv hkv]

theorem joinData_ok {cd : List (Str × List D)} {F : List D → List (List D)} {r : List (Str × List (List D))}
    (hr : r.Perm (cd.map fun kv => (kv.1, F kv.2))) (hF : ∀ kv ∈ cd, F kv.2 ≠ [])
    (hn : (cd.map (·.1)).Nodup) (h1 : (cd.filter fun e => IsMaterialName e.1).length ≤ 1) :
    ∃ d, joinData r = .ok d ∧ d.Perm (cd.map fun kv => (materialRenamed kv.1, (F kv.2).flatten)) := by
  have hp : (renameMaterial r).Perm (cd.map fun kv => (materialRenamed kv.1, F kv.2)) := by
    refine (renameMaterial_perm ?_).trans ?_
    · rw [(hr.filter _).length_eq, List.filter_map, List.length_map]
      exact h1
    · refine (hr.map _).trans ?_
      rw [List.map_map]
      exact List.Perm.of_eq rfl
  refine ⟨(renameMaterial r).map fun kv => (kv.1, kv.2.flatten), ?_, ?_⟩
  · unfold joinData
    apply mapM_ok
    intro kv hkv
    obtain ⟨a, ha, rfl⟩ := List.mem_map.1 (hp.mem_iff.1 hkv)
    unfold concatPieces
    rw [if_neg (hF a ha)]
    rfl
  · refine (hp.map _).trans ?_
    rw [List.map_map]
    exact List.Perm.of_eq rfl

/-! ### the order of the cells -/

theorem forall₂_split {α β : Type} {R : α → β → Prop} : ∀ {a x : List α} {b y : List β}, a.length = b.length →
    List.Forall₂ R (a ++ x) (b ++ y) → List.Forall₂ R a b ∧ List.Forall₂ R x y
  | [], _, [], _, _, h => ⟨.nil, h⟩
  | _ :: _, _, _ :: _, _, hl, .cons h1 h2 => by
    obtain ⟨h3, h4⟩ := forall₂_split (by simpa using hl) h2
    exact ⟨.cons h1 h3, h4⟩

theorem forall₂_pieces {α β : Type} {R : α → β → Prop} : ∀ {I : List (List α)} {P : List (List β)},
    I.map List.length = P.map List.length → List.Forall₂ R I.flatten P.flatten →
    List.Forall₂ (List.Forall₂ R) I P
  | [], [], _, _ => .nil
  | i :: I, p :: P, hl, h => by
    rw [List.map_cons, List.map_cons, List.cons.injEq] at hl
    obtain ⟨h1, h2⟩ := forall₂_split hl.1 h
    exact .cons h1 (forall₂_pieces hl.2 h2)

theorem forall₂_flatten {α β : Type} {R : α → β → Prop} {I : List (List α)} {P : List (List β)}
    (h : List.Forall₂ (List.Forall₂ R) I P) : List.Forall₂ R I.flatten P.flatten := by
  induction h with
  | nil => exact .nil
  | cons h1 _ ih => exact List.rel_append h1 ih

theorem forall₂_ofType {α β : Type} {S : α → β → Prop} (t : CellType) {I : List α} {P : List β}
    (h : List.Forall₂ S I P) (types : List CellType) :
    List.Forall₂ S (ofType t (types.zip I)) (ofType t (types.zip P)) := by
  induction h generalizing types with
  | nil => simp [ofType]
  | cons h1 _ ih =>
    cases types with
    | nil => simp [ofType]
    | cons a types =>
      have := ih types
      unfold ofType at this ⊢
      by_cases ha : a = t
      · simp only [List.zip_cons_cons, List.filter_cons, ha, decide_true, if_true, List.map_cons]
        exact .cons h1 this
      · simp only [List.zip_cons_cons, List.filter_cons, ha, decide_false, Bool.false_eq_true, if_false]
        exact this

theorem forall₂_regroup {α β : Type} {R : α → β → Prop} {I : List (List α)} {P : List (List β)}
    (h : List.Forall₂ (List.Forall₂ R) I P) (types : List CellType) :
    List.Forall₂ R (regroup types I).flatten (regroup types P).flatten := by
  apply forall₂_flatten
  unfold regroup
  rw [List.forall₂_map_left_iff, List.forall₂_map_right_iff, List.forall₂_same]
  intro t _
  exact forall₂_flatten (forall₂_ofType t h types)

theorem perm_by_key {κ α : Type} [DecidableEq κ] (f : α → κ) : ∀ {ks : List κ} {items : List α}, ks.Nodup →
    (∀ x ∈ items, f x ∈ ks) → items.Perm (ks.flatMap fun t => items.filter fun e => f e = t)
  | [], items, _, h => by
    cases items with
    | nil => exact .refl _
    | cons x xs => exact absurd (h x List.mem_cons_self) (by simp)
  | k :: ks, items, hn, h => by
    rw [List.nodup_cons] at hn
    rw [List.flatMap_cons]
    refine (List.filter_append_perm (fun e => decide (f e = k)) items).symm.trans (List.Perm.append_left _ ?_)
    have := perm_by_key f (ks := ks) (items := items.filter fun e => !decide (f e = k)) hn.2 (by
      intro x hx
      obtain ⟨h1, h2⟩ := List.mem_filter.1 hx
      have h3 := h x h1
      rw [List.mem_cons] at h3
      rcases h3 with h3 | h3
      · simp [h3] at h2
      · exact h3)
    refine this.trans (List.Perm.of_eq ?_)
    rw [List.flatMap_def, List.flatMap_def]
    congr 1
    apply List.map_congr_left
    intro t ht
    rw [List.filter_filter]
    apply List.filter_congr
    intro x _
    by_cases hx : f x = t
    · have : t ≠ k := by rintro rfl; exact hn.1 ht
      simp [hx, this]
    · simp [hx]

theorem zip_map_snd {α β : Type} : ∀ {l : List α} {m : List β}, m.length = l.length → (l.zip m).map (·.2) = m
  | [], [], _ => rfl
  | a :: l, b :: m, h => by
    rw [List.zip_cons_cons, List.map_cons, zip_map_snd (by simpa using h)]

theorem zip_map_fst {α β : Type} : ∀ {l : List α} {m : List β}, m.length = l.length → (l.zip m).map (·.1) = l
  | [], [], _ => rfl
  | a :: l, b :: m, h => by
    rw [List.zip_cons_cons, List.map_cons, zip_map_fst (by simpa using h)]

theorem regroup_perm {α : Type} {types : List CellType} {P : List (List α)} (h : P.length = types.length) :
    (regroup types P).flatten.Perm P.flatten := by
  have h1 := perm_by_key (fun e : CellType × List α => e.1) (items := types.zip P) (firsts_nodup types)
    (fun x hx => mem_firsts.2 (List.of_mem_zip hx).1)
  have h2 := (h1.map (·.2)).flatten
  rw [zip_map_snd h] at h2
  refine (h2.trans (List.Perm.of_eq ?_)).symm
  unfold regroup ofType
  rw [List.map_flatMap, List.flatMap_def, List.flatten_flatten, List.map_map]
  rfl

/-- The numbers of the cells, by block. -/
def idPieces (cells : List CellBlock) : List (List ℕ) :=
  npSplit (List.range (nCells cells)) (cumsum (cells.map (·.data.length))).dropLast

theorem idPieces_ok {cells : List CellBlock} (hc : cells ≠ []) :
    (idPieces cells).flatten = List.range (nCells cells) ∧
      (idPieces cells).map List.length = cells.map (·.data.length) :=
  split_ok hc List.length_range

theorem nCells_typed (cells : List CellBlock) : nCells cells = (typedCells cells).length := by
  simp [nCells, typedCells, List.length_flatMap]

/-- The order of the cells put together by type. -/
def groupOrder (cells : List CellBlock) : List ℕ := (regroup (cells.map (·.type)) (idPieces cells)).flatten

theorem range_at {α : Type} (v : List α) : List.Forall₂ (fun i x => v[i]? = some x) (List.range v.length) v := by
  rw [List.forall₂_iff_get]
  refine ⟨by simp, fun i h1 h2 => ?_⟩
  simp only [List.get_eq_getElem, List.getElem_range]
  exact List.getElem?_eq_getElem _

theorem pieces_at {α : Type} {cells : List CellBlock} (hc : cells ≠ []) {P : List (List α)}
    (hP : P.map List.length = cells.map (·.data.length)) :
    List.Forall₂ (List.Forall₂ fun i x => P.flatten[i]? = some x) (idPieces cells) P := by
  obtain ⟨h1, h2⟩ := idPieces_ok hc
  apply forall₂_pieces (by rw [h2, hP])
  rw [h1]
  have : nCells cells = P.flatten.length := by
    rw [List.length_flatten, hP]
    rfl
  rw [this]
  exact range_at _

theorem groupOrder_moved {α : Type} {cells : List CellBlock} (hc : cells ≠ []) {P : List (List α)}
    (hP : P.map List.length = cells.map (·.data.length)) :
    Moved (groupOrder cells) P.flatten (regroup (cells.map (·.type)) P).flatten :=
  forall₂_regroup (pieces_at hc hP) _

/-- The typed cells, by block. -/
def typedPieces (cells : List CellBlock) : List (List (CellType × List ℕ)) :=
  cells.map fun c => c.data.map fun d => (c.type, d)

theorem typedPieces_flatten (cells : List CellBlock) : (typedPieces cells).flatten = typedCells cells := by
  unfold typedPieces typedCells
  rw [List.flatMap_def]

theorem ofType_typed (t : CellType) (cells : List CellBlock) :
    ofType t ((cells.map (·.type)).zip (typedPieces cells)) =
      (cells.filter fun c => c.type = t).map fun c => c.data.map fun d => (t, d) := by
  unfold typedPieces ofType
  rw [List.zip_map', List.filter_map, List.map_map]
  apply List.map_congr_left
  intro c hc
  have := (List.mem_filter.1 hc).2
  have hct : c.type = t := by simpa using this
  show c.data.map _ = _
  rw [hct]

theorem typedCells_grouped (cells : List CellBlock) :
    typedCells (grouped cells) = (regroup (cells.map (·.type)) (typedPieces cells)).flatten := by
  unfold typedCells grouped regroup
  rw [List.flatMap_def, List.map_map]
  congr 1
  apply List.map_congr_left
  intro t _
  rw [ofType_typed]
  show List.map _ ((cells.filter fun c => c.type = t).flatMap (·.data)) = _
  rw [List.map_flatMap, List.flatMap_def]

theorem groupOrder_types {cells : List CellBlock} (hc : cells ≠ []) {t : CellType} {i : ℕ}
    (hi : i ∈ (ofType t ((cells.map (·.type)).zip (idPieces cells))).flatten) {a : CellType × List ℕ}
    (ha : (typedCells cells)[i]? = some a) : a.1 = t := by
  have hP : (typedPieces cells).map List.length = cells.map (·.data.length) := by
    unfold typedPieces
    rw [List.map_map]
    apply List.map_congr_left
    intro c _
    simp
  have h := forall₂_flatten (forall₂_ofType t (pieces_at hc hP) (cells.map (·.type)))
  obtain ⟨x, hx, hix⟩ := forall₂_mem_left h hi
  rw [typedPieces_flatten, ha] at hix
  injection hix with hix
  subst hix
  rw [ofType_typed] at hx
  obtain ⟨l, hl, hal⟩ := List.mem_flatten.1 hx
  obtain ⟨c, -, rfl⟩ := List.mem_map.1 hl
  obtain ⟨d, -, rfl⟩ := List.mem_map.1 hal
  rfl

theorem groupOrder_ok {cells : List CellBlock} (hc : cells ≠ []) : TypeOrder cells (groupOrder cells) := by
  obtain ⟨h1, h2⟩ := idPieces_ok hc
  have hl : (idPieces cells).length = (cells.map (·.type)).length := by
    have := congrArg List.length h2
    simpa using this
  refine ⟨?_, ?_⟩
  · rw [← nCells_typed, ← h1]
    exact regroup_perm hl
  · unfold groupOrder regroup
    rw [List.pairwise_flatten]
    constructor
    · intro l hl'
      obtain ⟨t, -, rfl⟩ := List.mem_map.1 hl'
      have hs : (ofType t ((cells.map (·.type)).zip (idPieces cells))).flatten.Sublist (List.range (nCells cells)) := by
        rw [← h1]
        apply List.Sublist.flatten
        unfold ofType
        conv_rhs => rw [← zip_map_snd hl]
        exact List.filter_sublist.map _
      exact (List.pairwise_lt_range.sublist hs).imp fun h _ _ _ _ _ => h
    · rw [List.pairwise_map]
      refine (firsts_nodup _).imp fun {t u} htu => ?_
      intro i hi j hj a b ha hb hab
      exact absurd ((groupOrder_types hc hi ha).symm.trans (hab.trans (groupOrder_types hc hj hb))) htu

theorem filter_key {κ α : Type} [DecidableEq κ] {f : α → κ} {l : List α} (h : (l.map f).Nodup) {x : α} (hx : x ∈ l) :
    l.filter (fun y => f y = f x) = [x] := by
  induction l with
  | nil => simp at hx
  | cons a l ih =>
    rw [List.map_cons, List.nodup_cons] at h
    rcases List.mem_cons.1 hx with rfl | hx
    · rw [List.filter_cons_of_pos (by simp), List.filter_eq_nil_iff.2]
      intro y hy hf
      exact h.1 (List.mem_map.2 ⟨y, hy, by simpa using hf⟩)
    · have : f a ≠ f x := fun e => h.1 (List.mem_map.2 ⟨x, hx, e.symm⟩)
      rw [List.filter_cons_of_neg (by simpa using this), ih h.2 hx]

theorem grouped_of_nodup {cells : List CellBlock} (h : (cells.map (·.type)).Nodup) : grouped cells = cells := by
  unfold grouped
  rw [firsts_of_nodup h, List.map_map]
  conv_rhs => rw [← List.map_id cells]
  apply List.map_congr_left
  intro c hc
  show CellBlock.mk c.type _ = c
  rw [filter_key (f := fun c : CellBlock => c.type) h hc]
  simp

theorem regroup_of_nodup {α : Type} {types : List CellType} (h : types.Nodup) {P : List (List α)}
    (hl : P.length = types.length) : regroup types P = P := by
  unfold regroup
  have e1 := zip_map_fst hl
  have e2 := zip_map_snd hl
  rw [firsts_of_nodup h]
  conv_lhs => rw [← e1]
  conv_rhs => rw [← e2]
  rw [List.map_map]
  apply List.map_congr_left
  intro e he
  show (ofType e.1 (List.zip (List.map (fun x => x.1) (types.zip P)) P)).flatten = e.2
  rw [e1]
  unfold ofType
  rw [filter_key (f := fun e : CellType × List α => e.1) (by rw [e1]; exact h) he]
  simp

/-! ### the material -/

variable {K : Type}

theorem renamed_eq (s : Str) : materialRenamed s = "material".toList ↔ IsMaterialName s := by
  unfold materialRenamed
  split
  next h => simp [h]
  next h =>
    constructor
    · intro e
      exact .inl e
    · intro e; exact absurd e h

theorem freshMaterial_ok {field : List (Str × ℤ × ℤ)} (h : field = [] ∨ ∃ e ∈ field, e.2.2 = 3) :
    ∃ i, freshMaterial field = .ok i ∧ NumberFor field i := by
  unfold freshMaterial
  by_cases h0 : field = []
  · exact ⟨1, if_pos h0, .inl ⟨h0, rfl⟩⟩
  · rw [if_neg h0]
    obtain ⟨e, he, he3⟩ := h.resolve_left h0
    have hne : (field.filter fun e => e.2.2 = 3).map (·.2.1) ≠ [] := by
      apply List.ne_nil_of_mem (a := e.2.1)
      exact List.mem_map.2 ⟨e, List.mem_filter.2 ⟨he, by simpa using he3⟩, rfl⟩
    obtain ⟨v, hv, hm, hle⟩ := maxInt_ok hne
    rw [hv]
    refine ⟨v + 1, rfl, .inr ⟨?_, ?_⟩⟩
    · obtain ⟨x, hx, rfl⟩ := List.mem_map.1 hm
      obtain ⟨h1, h2⟩ := List.mem_filter.1 hx
      exact ⟨x, h1, by simpa using h2, rfl⟩
    · intro x hx hx3
      have := hle x.2.1 (List.mem_map.2 ⟨x, List.mem_filter.2 ⟨hx, by simpa using hx3⟩, rfl⟩)
      omega

theorem addMaterial_ok (num : ℤ → D) (material : Str) {m pre : Mesh K D} {moved : List D → List D}
    (hd : pre.cellData.Perm (m.cellData.map fun e => (materialRenamed e.1, moved e.2)))
    (hf : pre.fieldData = m.fieldData) (hfn : (m.fieldData.map (·.1)).Nodup)
    (hn : nCells pre.cells = (typedCells m.cells).length)
    (h3 : ¬ HasMaterial m → m.fieldData = [] ∨ ∃ e ∈ m.fieldData, e.2.2 = 3) :
    ∃ m', addMaterial num material pre = .ok m' ∧ m'.points = pre.points ∧ m'.cells = pre.cells ∧
      m'.pointData = pre.pointData ∧ Completed num material m moved m' := by
  have hkey : "material".toList ∈ pre.cellData.map (·.1) ↔ HasMaterial m := by
    rw [(hd.map _).mem_iff, List.map_map, List.mem_map]
    unfold HasMaterial
    refine exists_congr fun e => and_congr_right fun _ => ?_
    exact renamed_eq e.1
  unfold addMaterial
  by_cases hm : HasMaterial m
  · rw [if_pos (hkey.2 hm)]
    exact ⟨pre, rfl, rfl, rfl, rfl, .inl ⟨hm, hd, hf⟩⟩
  · rw [if_neg (fun h => hm (hkey.1 h)), hf]
    obtain ⟨i, hi, hN⟩ := freshMaterial_ok (h3 hm)
    rw [hi]
    refine ⟨_, rfl, rfl, rfl, rfl, .inr ⟨hm, i, hN, ?_, ?_⟩⟩
    · show (dictSet pre.cellData _ _).Perm _
      rw [dictSet_of_notMem _ _ _ (fun h => hm (hkey.1 h)), hn]
      refine (List.perm_append_singleton _ _).trans (List.Perm.cons _ (hd.trans (List.Perm.of_eq ?_)))
      apply List.map_congr_left
      intro e he
      unfold materialRenamed
      rw [if_neg]
      intro h
      exact hm ⟨e, he, h⟩
    · intro k e
      exact dictSet_mem hfn material (i, 3) k e

end Verif.Mesh
