import Verif.Lemmas.TecplotVars
import Verif.Lemmas.Avsucd

/-!
# Lemmas on Tecplot mesh files
-/

namespace Verif.Mesh
open Verif.Py Verif.Model Verif.Spec

/-! ### cells -/

theorem tecType_isSome (t : CellType) : (tecType t).isSome = decide (TecSupported t) := by
  cases t <;> rfl

theorem tecDim_three {t : CellType} (h : TecSupported t) : tecDim t = 3 ↔ TecSolid t := by
  cases t <;> simp_all [tecDim, TecSolid, TecSupported]

theorem tecDim_two (t : CellType) : tecDim t = 2 ↔ ¬ tecDim t = 3 := by
  cases t <;> simp [tecDim]

theorem length_cases {c : List ℕ} {n : ℕ} (h : c.length = n + 1) : ∃ a d, c = a :: d ∧ d.length = n := by
  cases c with
  | nil => simp at h
  | cons a d => exact ⟨a, d, rfl, by simpa using h⟩

theorem permute_tec {t : CellType} {c : List ℕ} (hs : TecSupported t) (h : vertexCount t = some c.length) :
    permute (tecOrder t) c = .ok (tecVertices (tecShape true t) t c) ∧
    permute (tecOrder2 t) c = .ok (tecVertices (tecShape false t) t c) := by
  cases t with
  | other s => simp [TecSupported] at hs
  | triangle =>
    have h : c.length = 3 := by simpa [vertexCount] using h.symm
    obtain ⟨a, c1, rfl, h1⟩ := length_cases h
    obtain ⟨b, c2, rfl, h2⟩ := length_cases h1
    obtain ⟨d, c3, rfl, h3⟩ := length_cases h2
    obtain rfl := List.length_eq_zero_iff.1 h3
    exact ⟨rfl, rfl⟩
  | quad =>
    have h : c.length = 4 := by simpa [vertexCount] using h.symm
    obtain ⟨a, c1, rfl, h1⟩ := length_cases h
    obtain ⟨b, c2, rfl, h2⟩ := length_cases h1
    obtain ⟨d, c3, rfl, h3⟩ := length_cases h2
    obtain ⟨e, c4, rfl, h4⟩ := length_cases h3
    obtain rfl := List.length_eq_zero_iff.1 h4
    exact ⟨rfl, rfl⟩
  | tetra =>
    have h : c.length = 4 := by simpa [vertexCount] using h.symm
    obtain ⟨a, c1, rfl, h1⟩ := length_cases h
    obtain ⟨b, c2, rfl, h2⟩ := length_cases h1
    obtain ⟨d, c3, rfl, h3⟩ := length_cases h2
    obtain ⟨e, c4, rfl, h4⟩ := length_cases h3
    obtain rfl := List.length_eq_zero_iff.1 h4
    exact ⟨rfl, rfl⟩
  | pyramid =>
    have h : c.length = 5 := by simpa [vertexCount] using h.symm
    obtain ⟨a, c1, rfl, h1⟩ := length_cases h
    obtain ⟨b, c2, rfl, h2⟩ := length_cases h1
    obtain ⟨d, c3, rfl, h3⟩ := length_cases h2
    obtain ⟨e, c4, rfl, h4⟩ := length_cases h3
    obtain ⟨f, c5, rfl, h5⟩ := length_cases h4
    obtain rfl := List.length_eq_zero_iff.1 h5
    exact ⟨rfl, rfl⟩
  | wedge =>
    have h : c.length = 6 := by simpa [vertexCount] using h.symm
    obtain ⟨a, c1, rfl, h1⟩ := length_cases h
    obtain ⟨b, c2, rfl, h2⟩ := length_cases h1
    obtain ⟨d, c3, rfl, h3⟩ := length_cases h2
    obtain ⟨e, c4, rfl, h4⟩ := length_cases h3
    obtain ⟨f, c5, rfl, h5⟩ := length_cases h4
    obtain ⟨g, c6, rfl, h6⟩ := length_cases h5
    obtain rfl := List.length_eq_zero_iff.1 h6
    exact ⟨rfl, rfl⟩
  | hexahedron =>
    have h : c.length = 8 := by simpa [vertexCount] using h.symm
    obtain ⟨a, c1, rfl, h1⟩ := length_cases h
    obtain ⟨b, c2, rfl, h2⟩ := length_cases h1
    obtain ⟨d, c3, rfl, h3⟩ := length_cases h2
    obtain ⟨e, c4, rfl, h4⟩ := length_cases h3
    obtain ⟨f, c5, rfl, h5⟩ := length_cases h4
    obtain ⟨g, c6, rfl, h6⟩ := length_cases h5
    obtain ⟨i, c7, rfl, h7⟩ := length_cases h6
    obtain ⟨j, c8, rfl, h8⟩ := length_cases h7
    obtain rfl := List.length_eq_zero_iff.1 h8
    exact ⟨rfl, rfl⟩

theorem blockTypes_eq (cells : List CellBlock) :
    ((cells.map (·.type)).filter fun t => (tecType t).isSome) = tecBlockTypes cells := by
  rw [tecBlockTypes]
  apply List.filter_congr
  intro t _
  exact tecType_isSome t

/-- The name of a zone type. -/
def zoneNames : List Str :=
  ["FETRIANGLE".toList, "FEQUADRILATERAL".toList, "FETETRAHEDRON".toList, "FEBRICK".toList]

theorem tecPlan_ok {cells : List CellBlock} (hne : tecBlockTypes cells ≠ [])
    (hf : (∃ s ∈ tecBlockTypes cells, TecSolid s) → ∀ t ∈ (tecBlockTypes cells).head?, TecSolid t) :
    ∃ ty keep order shape, tecPlan cells = .ok (ty, keep, order) ∧ ty ∈ zoneNames ∧
      dictGet tecTypes ty = .ok shape ∧
      (∀ b ∈ cells, keep b.type = decide (TecWritten cells b.type)) ∧
      (∀ b ∈ cells, TecWritten cells b.type → tecShape (decide (TecUniform cells)) b.type = shape ∧
        ∀ c, vertexCount b.type = some c.length → permute (order b.type) c = .ok (tecVertices shape b.type c)) := by
  have hmem : ∀ b ∈ cells, TecSupported b.type → b.type ∈ tecBlockTypes cells := by
    intro b hb hs
    rw [tecBlockTypes, List.mem_filter]
    exact ⟨List.mem_map_of_mem hb, decide_eq_true hs⟩
  have hsup : ∀ t ∈ tecBlockTypes cells, TecSupported t := by
    intro t ht
    rw [tecBlockTypes, List.mem_filter] at ht
    exact of_decide_eq_true ht.2
  rw [tecPlan, blockTypes_eq]
  cases hts : tecBlockTypes cells with
  | nil => exact absurd hts hne
  | cons t ts =>
    rw [hts] at hf hmem hsup
    simp only
    by_cases hu : ts.all (fun x => decide (x = t)) = true
    · rw [if_pos hu]
      have hall : ∀ x ∈ t :: ts, x = t := by
        intro x hx
        rcases List.mem_cons.1 hx with rfl | hx
        · rfl
        · exact of_decide_eq_true (List.all_eq_true.1 hu x hx)
      have huni : TecUniform cells := by
        rw [TecUniform, hts]
        intro a ha b hb
        rw [hall a ha, hall b hb]
      have ht := hsup t (by simp)
      refine ⟨_, _, _, tecShape true t, rfl, ?_, ?_, ?_, ?_⟩
      · cases t <;> first | decide | (simp [TecSupported] at ht)
      · cases t <;> first | rfl | (simp [TecSupported] at ht)
      · intro b hb
        rw [tecType_isSome]
        apply decide_eq_decide.2
        refine ⟨fun hs => ⟨hs, ?_⟩, fun h => h.1⟩
        rw [hts]
        rintro ⟨s, hs', hsol⟩
        rw [hall _ (hmem b hb hs), ← hall s hs']
        exact hsol
      · intro b hb hw
        have hbt := hall _ (hmem b hb hw.1)
        rw [decide_eq_true huni, hbt]
        exact ⟨rfl, fun c hc => (permute_tec (hsup t (by simp)) hc).1⟩
    · rw [if_neg hu]
      have hnu : ¬ TecUniform cells := by
        intro h
        apply hu
        rw [List.all_eq_true]
        intro x hx
        rw [TecUniform, hts] at h
        exact decide_eq_true (h x (by simp [hx]) t (by simp))
      have ht := hsup t (by simp)
      have hshape : ∀ b ∈ cells, TecWritten cells b.type → (TecSolid b.type ↔ TecSolid t) := by
        intro b hb hw
        constructor
        · intro hs
          exact hf ⟨_, hmem b hb hw.1, hs⟩ t (by simp)
        · intro hs
          exact hw.2 (by rw [hts]; exact ⟨t, by simp, hs⟩)
      refine ⟨_, _, _, tecShape false t, rfl, ?_, ?_, ?_, ?_⟩
      · split <;> decide
      · by_cases h3 : tecDim t = 3
        · have h2 : ¬ tecDim t = 2 := by omega
          rw [if_neg h2, tecShape, if_neg (by simp), if_pos ((tecDim_three ht).1 h3)]
          rfl
        · have h2 : tecDim t = 2 := (tecDim_two t).2 h3
          rw [if_pos h2, tecShape, if_neg (by simp), if_neg (fun h => h3 ((tecDim_three ht).2 h))]
          rfl
      · intro b hb
        rw [tecType_isSome]
        by_cases hs : TecSupported b.type
        · have hbm := hmem b hb hs
          rw [decide_eq_true hs, Bool.true_and, Bool.eq_iff_iff, decide_eq_true_iff]
          rw [TecWritten, hts]
          simp only [Bool.or_eq_true, Bool.not_eq_true', Bool.and_eq_false_iff, List.any_eq_false,
            decide_eq_true_iff]
          constructor
          · rintro ((h | h) | h)
            · refine ⟨hs, fun _ => (tecDim_three hs).1 ?_⟩
              have := h _ hbm
              by_contra h3
              exact this ((tecDim_two _).2 h3)
            · refine ⟨hs, ?_⟩
              rintro ⟨s, hs1, hs2⟩
              exact absurd ((tecDim_three (hsup s hs1)).2 hs2) (h s hs1)
            · exact ⟨hs, fun _ => (tecDim_three hs).1 h⟩
          · rintro ⟨-, h⟩
            by_cases hex : ∃ s ∈ t :: ts, TecSolid s
            · exact .inr ((tecDim_three hs).2 (h hex))
            · left; right
              intro x hx h3
              exact hex ⟨x, hx, (tecDim_three (hsup x hx)).1 h3⟩
        · rw [decide_eq_false hs, Bool.false_and, eq_comm, decide_eq_false_iff_not]
          exact fun h => hs h.1
      · intro b hb hw
        have e : tecShape false b.type = tecShape false t := by
          have := hshape b hb hw
          by_cases h : TecSolid t
          · simp only [tecShape, h, this.2 h, if_true, Bool.false_eq_true, if_false]
          · simp only [tecShape, h, mt this.1 h, if_false, Bool.false_eq_true]
        rw [decide_eq_false hnu, e]
        refine ⟨rfl, fun c hc => ?_⟩
        rw [← e]
        exact (permute_tec hw.1 hc).2

theorem typedCells_cons (b : CellBlock) (bs : List CellBlock) :
    typedCells (b :: bs) = b.data.map (fun c => (b.type, c)) ++ typedCells bs := by
  simp [typedCells]

theorem filter_const {α : Type} {p : α → Bool} {l : List α} {v : Bool} (h : ∀ x ∈ l, p x = v) :
    l.filter p = if v then l else [] := by
  cases v with
  | true => exact List.filter_eq_self.2 h
  | false => exact List.filter_eq_nil_iff.2 fun x hx => by rw [h x hx]; simp

theorem blockRows_eq {α : Type} {keep P : CellType → Bool} {bs : List CellBlock} (hk : ∀ b ∈ bs, keep b.type = P b.type)
    {rows : List α} (hl : rows.length = (typedCells bs).length) :
    blockRows keep bs rows = (((typedCells bs).zip rows).filter fun e => P e.1.1).map (·.2) := by
  induction bs generalizing rows with
  | nil => simp [blockRows, typedCells]
  | cons b bs ih =>
    rw [typedCells_cons, List.length_append, List.length_map] at hl
    have h1 : (rows.take b.data.length).length = (b.data.map fun c => (b.type, c)).length := by
      rw [List.length_take, List.length_map]; omega
    have hz : (typedCells (b :: bs)).zip rows =
        (b.data.map fun c => (b.type, c)).zip (rows.take b.data.length) ++
          (typedCells bs).zip (rows.drop b.data.length) := by
      conv_lhs => rw [← List.take_append_drop b.data.length rows, typedCells_cons]
      exact List.zip_append h1.symm
    rw [blockRows, hz, List.filter_append, List.map_append, hk b (by simp), ih (fun b hb => hk b (by simp [hb]))
      (by rw [List.length_drop]; omega)]
    congr 1
    rw [filter_const (v := P b.type)]
    · split
      · rw [List.map_snd_zip]
        rw [h1]
      · rfl
    · intro x hx
      have := (List.of_mem_zip hx).1
      obtain ⟨c, _, hc⟩ := List.mem_map.1 this
      rw [← hc]

theorem tecRows_eq {α : Type} {keep : CellType → Bool} {cells : List CellBlock}
    (hk : ∀ b ∈ cells, keep b.type = decide (TecWritten cells b.type)) {rows : List α}
    (hl : rows.length = (typedCells cells).length) : blockRows keep cells rows = tecRowsOf cells rows := by
  rw [blockRows_eq (P := fun t => decide (TecWritten cells t)) hk hl]
  rfl

theorem mem_tecRowsOf {α : Type} {cells : List CellBlock} {rows : List α} {r : α} (h : r ∈ tecRowsOf cells rows) :
    r ∈ rows := by
  obtain ⟨e, he, rfl⟩ := List.mem_map.1 h
  exact (List.of_mem_zip (a := e.1) (b := e.2) (List.mem_filter.1 he).1).2

theorem tecRowsOf_length {α : Type} {cells : List CellBlock} {rows : List α}
    (hl : rows.length = (typedCells cells).length) : (tecRowsOf cells rows).length = (tecCells cells).length := by
  rw [tecRowsOf, tecCells, List.length_map]
  generalize typedCells cells = l at *
  have : ∀ (q : CellType × List ℕ → Bool) (l : List (CellType × List ℕ)) (rows : List α), rows.length = l.length →
      ((l.zip rows).filter fun e => q e.1).length = (l.filter q).length := by
    intro q l
    induction l with
    | nil => simp
    | cons x l ih =>
      intro rows hl
      cases rows with
      | nil => simp at hl
      | cons r rows =>
        rw [List.zip_cons_cons, List.filter_cons, List.filter_cons]
        have := ih rows (by simpa using hl)
        split <;> simp [this]
  exact this (fun e => decide (TecWritten cells e.1)) l rows hl

theorem tecCells_blocks {β : Type} {P : CellType → Bool} (f : CellType → List ℕ → β) (bs : List CellBlock) :
    (bs.filter fun b => P b.type).flatMap (fun b => b.data.map (f b.type)) =
      ((typedCells bs).filter fun e => P e.1).map fun e => f e.1 e.2 := by
  induction bs with
  | nil => rfl
  | cons b bs ih =>
    rw [typedCells_cons, List.filter_append, List.map_append, ← ih, List.filter_cons,
      filter_const (l := b.data.map fun c => (b.type, c)) (v := P b.type)]
    · split <;> simp
    · intro x hx
      obtain ⟨c, _, hc⟩ := List.mem_map.1 hx
      rw [← hc]

theorem writtenCells_eq {cells : List CellBlock} {keep : CellType → Bool} {order : CellType → List ℕ}
    {shape : CellType} (hk : ∀ b ∈ cells, keep b.type = decide (TecWritten cells b.type))
    (hp : ∀ b ∈ cells, TecWritten cells b.type →
      ∀ c, vertexCount b.type = some c.length → permute (order b.type) c = .ok (tecVertices shape b.type c))
    (hv : ∀ e ∈ tecCells cells, vertexCount e.1 = some e.2.length) :
    concatM (fun b => b.data.mapM (permute (order b.type))) (cells.filter fun b => keep b.type) =
      .ok ((tecCells cells).map fun e => tecVertices shape e.1 e.2) := by
  rw [tecCells, ← tecCells_blocks (P := fun t => decide (TecWritten cells t))]
  have hf : (cells.filter fun b => keep b.type) = cells.filter fun b => decide (TecWritten cells b.type) :=
    List.filter_congr hk
  rw [hf]
  apply concatM_ok
  intro b hb
  obtain ⟨hb, hw⟩ := List.mem_filter.1 hb
  apply mapM_ok
  intro c hc
  have hm : (b.type, c) ∈ tecCells cells := by
    rw [tecCells, List.mem_filter]
    exact ⟨List.mem_flatMap.2 ⟨b, hb, List.mem_map.2 ⟨c, hc, rfl⟩⟩, hw⟩
  exact hp b hb (of_decide_eq_true hw) c (hv _ hm)

/-! ### variables -/

theorem rowAt_getD {r : List Flt} {i : ℕ} (h : i < r.length) : rowAt r i = .ok (r.getD i .nan) := by
  rw [rowAt, List.getElem?_eq_getElem h]
  simp [List.getD_eq_getElem?_getD, h]

theorem tecColumns_eq {e : Str × NArray} (h : ∀ r ∈ e.2.rows, r.length = e.2.width.getD 1) :
    tecColumns e = .ok (variablesOf e.1 e.2.width e.2.rows) := by
  rw [tecColumns]; unfold variablesOf
  cases hw : e.2.width with
  | none =>
    rw [hw] at h
    simp only
    rw [mapM_ok (g := fun r : List Flt => r.getD 0 .nan), ok_bind]
    intro r hr
    exact rowAt_getD (by rw [h r hr]; decide)
  | some w =>
    rw [hw] at h
    simp only
    apply mapM_ok
    intro i hi
    rw [mapM_ok (g := fun r : List Flt => r.getD i .nan), ok_bind]
    intro r hr
    exact rowAt_getD (by rw [h r hr]; exact List.mem_range.1 hi)

theorem reserved_iff (s : Str) : s ∉ tecReserved ↔ ¬ IsCoordinate s := by
  have : tecReserved = [['X'], ['Y'], ['Z'], ['x'], ['y'], ['z']] := by decide
  rw [this]
  simp [IsCoordinate]

theorem tecData_eq {data : List (Str × NArray)} (h : ∀ e ∈ data, ∀ r ∈ e.2.rows, r.length = e.2.width.getD 1) :
    tecData data = .ok ((data.filter fun e => ¬ IsCoordinate e.1).flatMap fun e =>
      variablesOf e.1 e.2.width e.2.rows) := by
  rw [tecData]
  have hf : (data.filter fun e => decide (e.1 ∉ tecReserved)) = data.filter fun e => decide ¬ IsCoordinate e.1 := by
    apply List.filter_congr
    intro e _
    exact decide_eq_decide.2 (reserved_iff e.1)
  rw [hf]
  apply concatM_ok
  intro e he
  exact tecColumns_eq (h e (List.mem_filter.1 he).1)

theorem cellData_eq {m : AvsMesh} {keep : CellType → Bool}
    (hk : ∀ b ∈ m.cells, keep b.type = decide (TecWritten m.cells b.type))
    (h : ∀ e ∈ m.cellData, e.2.rows.length = (typedCells m.cells).length ∧ ∀ r ∈ e.2.rows, r.length = e.2.width.getD 1) :
    tecData (m.cellData.map fun e => (e.1, ⟨e.2.width, blockRows keep m.cells e.2.rows⟩)) =
      .ok (cellVariables m) := by
  have hm : (m.cellData.map fun e => ((e.1, ⟨e.2.width, blockRows keep m.cells e.2.rows⟩) : Str × NArray)) =
      m.cellData.map fun e => (e.1, ⟨e.2.width, tecRowsOf m.cells e.2.rows⟩) := by
    apply List.map_congr_left
    intro e he
    rw [tecRows_eq hk (h e he).1]
  rw [hm, tecData_eq]
  · rw [cellVariables, List.filter_map, List.flatMap_map]
    rfl
  · intro e he r hr
    obtain ⟨f, hf, rfl⟩ := List.mem_map.1 he
    exact (h f hf).2 r (mem_tecRowsOf hr)

theorem variable_facts {name : Str} {width : Option ℕ} {rows : List (List Flt)} {n : ℕ} (hn : rows.length = n)
    (h : ∀ r ∈ rows, r.length = width.getD 1 ∧ ∀ x ∈ r, IsDouble x) :
    ∀ e ∈ variablesOf name width rows, e.2.length = n ∧ ∀ x ∈ e.2, IsDouble x := by
  have key : ∀ i, i < width.getD 1 → ∀ x ∈ rows.map (fun r => r.getD i .nan), IsDouble x := by
    intro i hi x hx
    obtain ⟨r, hr, rfl⟩ := List.mem_map.1 hx
    obtain ⟨h1, h2⟩ := h r hr
    apply h2
    rw [← h1] at hi
    simp [List.getD_eq_getElem?_getD, hi]
  intro e he
  unfold variablesOf at he
  cases hw : width with
  | none =>
    rw [hw] at he key
    have : e = (name, rows.map fun r => r.getD 0 .nan) := by simpa using he
    rw [this]
    exact ⟨by simp [hn], key 0 (by simp)⟩
  | some w =>
    rw [hw] at he key
    obtain ⟨i, hi, rfl⟩ := List.mem_map.1 he
    exact ⟨by simp [hn], key i (List.mem_range.1 hi)⟩

end Verif.Mesh
