import Verif.Model.Resave
import Verif.Spec.Resave
import Verif.Lemmas.NumFifteen
import Verif.Lemmas.TecplotPoint
import Verif.Props.TecplotMesh

/-!
# Lemmas: mesh files that are loaded and saved
-/

namespace Verif.Mesh
open Verif.Py Verif.Model Verif.Spec

/-! ### AVS-UCD -/

theorem truncates_unique {x : Flt} {a b : ℤ} (ha : Truncates x a) (hb : Truncates x b) : a = b := by
  cases x with
  | nan => exact ha.elim
  | inf neg => exact ha.elim
  | fin neg mag =>
    obtain ⟨a1, a2, a3⟩ := ha
    obtain ⟨b1, b2, b3⟩ := hb
    have h1 : a.natAbs < b.natAbs + 1 := by exact_mod_cast a1.trans_lt b2
    have h2 : b.natAbs < a.natAbs + 1 := by exact_mod_cast b1.trans_lt a2
    cases neg
    · simp only [Bool.false_eq_true, if_false] at a3 b3
      omega
    · simp only [if_true] at a3 b3
      omega

theorem truncates_intFlt (k : ℤ) : Truncates (intFlt k) k := by
  refine ⟨le_refl _, by exact_mod_cast Nat.lt_succ_self _, ?_⟩
  by_cases h : k < 0
  · simp only [h, decide_true, if_true]
    omega
  · simp only [h, decide_false, Bool.false_eq_true, if_false]
    omega

theorem materialsOf_unique {m : AvsMesh} {a b : List ℤ} (ha : MaterialsOf m a) (hb : MaterialsOf m b) : a = b := by
  unfold MaterialsOf at ha hb
  split at ha
  · rename_i he
    rw [he] at hb
    exact ha.trans hb.symm
  · rename_i e es he
    rw [he] at hb
    simp only at hb
    clear he
    generalize e.2.rows = rows at ha hb
    induction ha generalizing b with
    | nil => cases hb; rfl
    | cons h hs ih =>
      cases hb with
      | cons g gs =>
        obtain ⟨x, hx, h1⟩ := h
        obtain ⟨y, hy, g1⟩ := g
        rw [hx] at hy
        obtain rfl := (List.cons.inj hy).1
        rw [truncates_unique h1 g1, ih gs]

theorem materialsOf_length {m : AvsMesh} (h : AvsPlain m) {mats : List ℤ} (hm : MaterialsOf m mats) :
    mats.length = (typedCells m.cells).length := by
  unfold MaterialsOf at hm
  split at hm
  · rw [hm, List.length_replicate]
  · rename_i e es he
    rw [← hm.length_eq]
    refine h.lengths e ?_
    have : e ∈ m.cellData.filter fun e => IsMaterialName e.1 := by rw [he]; exact List.mem_cons_self
    exact (List.mem_filter.1 this).1

theorem dataRead_cols (e : Str × NArray) : (dataRead e).2.width.getD 1 = e.2.width.getD 1 := by
  rw [dataRead]
  by_cases h : e.2.width = some 1
  · simp [h]
  · simp [h]

theorem dataRead_name (e : Str × NArray) : (dataRead e).1 = underscored e.1 := rfl

theorem avsDataLines_read {n : ℕ} {data : List (Str × NArray)} (hn : ∀ e ∈ data, underscored e.1 = e.1)
    (hx : ∀ e ∈ data, ∀ r ∈ e.2.rows, ∀ x ∈ r, InRange x) :
    avsDataLines n (data.map dataRead) = avsDataLines n data := by
  unfold avsDataLines
  by_cases h : data = []
  · rw [h]
    rfl
  · have h1 : (data.map dataRead).map (fun e => natStr (e.2.width.getD 1)) =
        data.map fun e => natStr (e.2.width.getD 1) := by
      rw [List.map_map]
      exact List.map_congr_left fun e _ => congrArg natStr (dataRead_cols e)
    have h2 : (data.map dataRead).map (fun e => e.1 ++ ", real\n".toList) =
        data.map fun e => e.1 ++ ", real\n".toList := by
      rw [List.map_map]
      exact List.map_congr_left fun e he => congrArg (· ++ ", real\n".toList) (hn e he)
    have h3 : ∀ i : ℕ, ((data.map dataRead).flatMap fun e => (e.2.rows[i]?).getD []).map (fmtE 14) =
        (data.flatMap fun e => (e.2.rows[i]?).getD []).map (fmtE 14) := by
      intro i
      rw [List.flatMap_map, List.map_flatMap, List.map_flatMap]
      refine List.flatMap_congr ?_
      intro e he
      have : (dataRead e).2.rows = e.2.rows.map fun r => r.map (quant 14) := rfl
      rw [this, List.getElem?_map]
      cases hr : e.2.rows[i]? with
      | none => rfl
      | some r =>
        have hmem : r ∈ e.2.rows := List.mem_of_getElem? hr
        show (r.map (quant 14)).map (fmtE 14) = r.map (fmtE 14)
        rw [List.map_map]
        exact List.map_congr_left fun x hxr => fmtE_quant_fifteen 14 (le_refl _) x (hx e he r hmem x hxr)
    rw [if_neg h, if_neg (by simpa using h), h1, h2, List.length_map]
    have h4 : ((List.range n).map fun i => blankLine (natStr (i + 1) ::
        ((data.map dataRead).flatMap fun e => (e.2.rows[i]?).getD []).map (fmtE 14))) =
        (List.range n).map fun i => blankLine (natStr (i + 1) ::
          (data.flatMap fun e => (e.2.rows[i]?).getD []).map (fmtE 14)) := by
      refine List.map_congr_left fun i _ => ?_
      rw [h3 i]
    rw [h4]

theorem dataOk_read {n : ℕ} {data : List (Str × NArray)} (h : DataOk n data) (hn : ∀ e ∈ data, underscored e.1 = e.1) :
    DataOk n (data.map dataRead) where
  columns := by
    rcases h.columns with rfl | ⟨e, he, hw⟩
    · exact .inl rfl
    · refine .inr ⟨_, List.mem_map_of_mem he, ?_⟩
      show (if e.2.width = some 1 then none else e.2.width) ≠ some 0
      split
      · simp
      · exact hw
  shape := by
    intro e' he'
    obtain ⟨e, he, rfl⟩ := List.mem_map.1 he'
    obtain ⟨h1, h2⟩ := h.shape e he
    refine ⟨by rw [← h1]; exact List.length_map .., ?_⟩
    intro r' hr'
    obtain ⟨r, hr, rfl⟩ := List.mem_map.1 hr'
    rw [dataRead_cols, List.length_map]
    exact h2 r hr
  names := by
    intro e' he'
    obtain ⟨e, he, rfl⟩ := List.mem_map.1 he'
    rw [dataRead_name, hn e he]
    exact h.names e he
  distinct := by
    rw [List.map_map]
    have : data.map ((fun e => underscored e.1) ∘ dataRead) = data.map fun e => underscored e.1 := by
      refine List.map_congr_left fun e he => ?_
      show underscored (underscored e.1) = underscored e.1
      exact congrArg underscored (hn e he)
    rw [this]
    exact h.distinct

/-- The mesh as it was loaded. -/
def avsLoaded (m : AvsMesh) (cells : List CellBlock) (mats : List ℤ) : AvsMesh :=
  ⟨m.points, cells, m.pointData.map dataRead, (otherData m).map dataRead ++
    [("material".toList, ⟨none, mats.map fun k => [intFlt k]⟩)]⟩

theorem isMaterialName_material : IsMaterialName "material".toList := .inl rfl

theorem filter_material_neg {β : Type} {s : Str} (h : IsMaterialName s) (b : β) :
    [(s, b)].filter (fun e => decide (¬ IsMaterialName e.1)) = [] :=
  List.filter_cons_of_neg (by simpa using h)

theorem filter_material_pos {β : Type} {s : Str} (h : IsMaterialName s) (b : β) :
    [(s, b)].filter (fun e => decide (IsMaterialName e.1)) = [(s, b)] :=
  List.filter_cons_of_pos (by simpa using h)

theorem otherData_name {m : AvsMesh} {e : Str × NArray} (he : e ∈ otherData m) : ¬ IsMaterialName e.1 := by
  rw [otherData, List.mem_filter] at he
  simpa using he.2

theorem otherData_loaded {m : AvsMesh} (hs : AvsSettled m) (cells : List CellBlock) (mats : List ℤ) :
    otherData (avsLoaded m cells mats) = (otherData m).map dataRead := by
  have h1 : ((otherData m).map dataRead).filter (fun e => decide (¬ IsMaterialName e.1)) = (otherData m).map dataRead := by
    refine List.filter_eq_self.2 fun e' he' => ?_
    obtain ⟨e, he, rfl⟩ := List.mem_map.1 he'
    rw [dataRead_name, hs.names e (List.mem_append.2 (.inr he))]
    simpa using otherData_name he
  conv_lhs => unfold otherData avsLoaded
  simp only
  rw [List.filter_append, h1, filter_material_neg isMaterialName_material, List.append_nil]

theorem materials_loaded {m : AvsMesh} (hs : AvsSettled m) (cells : List CellBlock) (mats : List ℤ) :
    (avsLoaded m cells mats).cellData.filter (fun e => IsMaterialName e.1) =
      [("material".toList, ⟨none, mats.map fun k => [intFlt k]⟩)] := by
  have h1 : ((otherData m).map dataRead).filter (fun e => decide (IsMaterialName e.1)) = [] := by
    refine List.filter_eq_nil_iff.2 fun e' he' => ?_
    obtain ⟨e, he, rfl⟩ := List.mem_map.1 he'
    rw [dataRead_name, hs.names e (List.mem_append.2 (.inr he))]
    simpa using otherData_name he
  rw [avsLoaded]
  simp only
  rw [List.filter_append, h1, filter_material_pos isMaterialName_material]
  rfl

theorem avsLoaded_plain {m : AvsMesh} (h : AvsPlain m) (hs : AvsSettled m) {cells : List CellBlock} {mats : List ℤ}
    (hc : typedCells cells = typedCells m.cells) (hne : ∀ b ∈ cells, b.data ≠ []) (hm : MaterialsOf m mats) :
    AvsPlain (avsLoaded m cells mats) where
  points := h.points
  vertices := by
    intro b hb
    have key : ∀ c ∈ b.data, ∃ n, vertexCount b.type = some n ∧ c.length = n ∧ ∀ v ∈ c, v < m.points.length := by
      intro c hcb
      have hmem : (b.type, c) ∈ typedCells m.cells := by
        rw [← hc]
        exact List.mem_flatMap.2 ⟨b, hb, List.mem_map_of_mem hcb⟩
      obtain ⟨b', hb', ht, hcb'⟩ := mem_typedCells hmem
      obtain ⟨n, hn, hv⟩ := h.vertices b' hb'
      exact ⟨n, by rw [show b.type = b'.type from ht]; exact hn, hv c hcb'⟩
    obtain ⟨c0, hc0⟩ := List.exists_mem_of_ne_nil _ (hne b hb)
    obtain ⟨n, hn, -⟩ := key c0 hc0
    refine ⟨n, hn, fun c hcb => ?_⟩
    obtain ⟨k, hk, h1, h2⟩ := key c hcb
    rw [hn] at hk
    obtain rfl := Option.some.inj hk
    exact ⟨h1, h2⟩
  pointData := dataOk_read h.pointData fun e he => hs.names e (List.mem_append.2 (.inl he))
  lengths := by
    intro e he
    show e.2.rows.length = (typedCells cells).length
    rw [hc]
    rcases List.mem_append.1 he with he | he
    · obtain ⟨e, hme, rfl⟩ := List.mem_map.1 he
      rw [← (h.cellData.shape e hme).1]
      exact List.length_map ..
    · rw [List.mem_singleton] at he
      subst he
      rw [← materialsOf_length h hm]
      exact List.length_map ..
  cellData := by
    rw [otherData_loaded hs]
    show DataOk (typedCells cells).length _
    rw [hc]
    exact dataOk_read h.cellData fun e he => hs.names e (List.mem_append.2 (.inr he))
  materials := by
    intro e he hme r hr
    have : e ∈ (avsLoaded m cells mats).cellData.filter (fun e => IsMaterialName e.1) :=
      List.mem_filter.2 ⟨he, by simpa using hme⟩
    rw [materials_loaded hs, List.mem_singleton] at this
    subst this
    obtain ⟨k, -, rfl⟩ := List.mem_map.1 hr
    exact ⟨_, _, rfl⟩
  names := by
    intro e' he'
    rw [otherData_loaded hs] at he'
    obtain ⟨e, he, rfl⟩ := List.mem_map.1 he'
    rw [dataRead_name, hs.names e (List.mem_append.2 (.inr he))]
    exact h.names e he

theorem avsLoaded_materials {m : AvsMesh} (hs : AvsSettled m) (cells : List CellBlock) (mats : List ℤ) :
    MaterialsOf (avsLoaded m cells mats) mats := by
  unfold MaterialsOf
  rw [materials_loaded hs]
  simp only
  rw [List.forall₂_map_left_iff]
  exact List.forall₂_same.2 fun k _ => ⟨_, rfl, truncates_intFlt k⟩

theorem avsLoaded_file {m : AvsMesh} (hs : AvsSettled m) (version : Str) {cells : List CellBlock} (mats : List ℤ)
    (hc : typedCells cells = typedCells m.cells) :
    avsFile version (avsLoaded m cells mats) mats = avsFile version m mats := by
  unfold avsFile
  rw [otherData_loaded hs]
  have hp : (avsLoaded m cells mats).points = m.points := rfl
  have hcs : (avsLoaded m cells mats).cells = cells := rfl
  have hpd : (avsLoaded m cells mats).pointData = m.pointData.map dataRead := rfl
  have hcols : ∀ d : List (Str × NArray), ((d.map dataRead).map fun e => e.2.width.getD 1) = d.map fun e => e.2.width.getD 1 := by
    intro d
    rw [List.map_map]
    exact List.map_congr_left fun e _ => dataRead_cols e
  rw [hp, hcs, hpd, hc, hcols, hcols,
    avsDataLines_read (fun e he => hs.names e (List.mem_append.2 (.inl he)))
      (fun e he => hs.range e (List.mem_append.2 (.inl he))),
    avsDataLines_read (fun e he => hs.names e (List.mem_append.2 (.inr he)))
      (fun e he => hs.range e (List.mem_append.2 (.inr he)))]

theorem avs_again (version : Str) {m : AvsMesh} (h : AvsOk m) (hs : AvsSettled m) :
    ∃ lines r, writeAvs version m = .ok lines ∧ (∀ junk, readAvs junk lines = .ok r) ∧
      saveAvsRead version r = .ok lines := by
  obtain ⟨r, mats, h1, h2, h3, h4, -, h5, h6, h7, h8⟩ := C64_round_trip_partial version h
  obtain ⟨mats', hm', hw⟩ := C64_file version h.toAvsPlain
  obtain rfl := materialsOf_unique hm' h8
  refine ⟨_, r, hw, fun junk => ?_, ?_⟩
  · have := h1 junk
    rwa [hw, ok_bind] at this
  · have hall : r.allCellData = (avsLoaded m r.cells mats').cellData := by
      unfold AvsRead.allCellData avsLoaded
      rw [h6, h7]
    rw [saveAvsRead, h2, h5, hall, C64_space]
    obtain ⟨mats'', hm'', hw'⟩ := C64_file version (avsLoaded_plain h.toAvsPlain hs h3 h4 hm')
    obtain rfl := materialsOf_unique hm'' (avsLoaded_materials hs r.cells mats')
    rw [avsLoaded_file hs version _ h3] at hw'
    exact hw'

/-! ### Tecplot -/

theorem variablesOf_flat {d : List (Str × List Flt)} (hd : ∀ e ∈ d, ¬ IsCoordinate e.1)
    (f : (Str × NArray) → List (List Flt)) (hf : ∀ e ∈ d, f (e.1, ⟨none, e.2.map fun x => [x]⟩) = e.2.map fun x => [x]) :
    (((flatArrays d).filter fun e => ¬ IsCoordinate e.1).flatMap fun e => variablesOf e.1 e.2.width (f e)) = d := by
  have h1 : (flatArrays d).filter (fun e => decide (¬ IsCoordinate e.1)) = flatArrays d := by
    refine List.filter_eq_self.2 fun e' he' => ?_
    obtain ⟨e, he, rfl⟩ := List.mem_map.1 he'
    simpa using hd e he
  rw [h1, flatArrays, List.flatMap_map]
  have h2 : ∀ e ∈ d, variablesOf e.1 none (f (e.1, ⟨none, e.2.map fun x => [x]⟩)) = [e] := by
    intro e he
    rw [hf e he, variablesOf, List.map_map]
    have : e.2.map ((fun r : List Flt => r.getD 0 .nan) ∘ fun x => [x]) = e.2 := by
      conv_rhs => rw [← List.map_id e.2]
      exact List.map_congr_left fun x _ => rfl
    rw [this]
  rw [List.flatMap_congr h2]
  exact List.flatMap_singleton' d

theorem variables_coordinate {name : Str} {w : Option ℕ} {rows : List (List Flt)} (h : ¬ IsCoordinate name) :
    ∀ e ∈ variablesOf name w rows, ¬ IsCoordinate e.1 := by
  intro e he
  unfold variablesOf at he
  split at he
  · rw [List.mem_singleton] at he
    rw [he]
    exact h
  · obtain ⟨i, -, rfl⟩ := List.mem_map.1 he
    intro hc
    have hl : (name ++ '_' :: natStr i).length = 1 := by
      rcases hc with h | h | h | h | h | h <;> exact congrArg List.length h
    have h2 := List.length_pos_of_ne_nil (Verif.Py.natStr_ne_nil i)
    simp only [List.length_append, List.length_cons] at hl
    omega

theorem pointVariables_coordinate (m : AvsMesh) : ∀ e ∈ pointVariables m, ¬ IsCoordinate e.1 := by
  intro e he
  obtain ⟨a, ha, hv⟩ := List.mem_flatMap.1 he
  exact variables_coordinate (of_decide_eq_true (List.mem_filter.1 ha).2) e hv

theorem cellVariables_coordinate (m : AvsMesh) : ∀ e ∈ cellVariables m, ¬ IsCoordinate e.1 := by
  intro e he
  obtain ⟨a, ha, hv⟩ := List.mem_flatMap.1 he
  exact variables_coordinate (of_decide_eq_true (List.mem_filter.1 ha).2) e hv

/-- The shape of cells that are written is one of four. -/
theorem tecShape_cases {u : Bool} {t : CellType} (hs : TecSupported t) :
    tecShape u t ∈ [CellType.triangle, .quad, .tetra, .hexahedron] := by
  cases t with
  | other s => simp [TecSupported] at hs
  | _ => cases u <;> decide

theorem tecShape_same {t : CellType} (h : t ∈ [CellType.triangle, .quad, .tetra, .hexahedron]) :
    TecSupported t ∧ tecShape true t = t := by
  simp only [List.mem_cons, List.not_mem_nil, or_false] at h
  rcases h with rfl | rfl | rfl | rfl <;> decide

theorem tecBlockTypes_single {t : CellType} (h : TecSupported t) (data : List (List ℕ)) :
    tecBlockTypes [⟨t, data⟩] = [t] :=
  List.filter_cons_of_pos (by simpa using h)

theorem typedCells_single (t : CellType) (data : List (List ℕ)) :
    typedCells [⟨t, data⟩] = data.map fun c => (t, c) := by
  rw [typedCells, List.flatMap_cons, List.flatMap_nil, List.append_nil]

theorem tecWritten_single {t : CellType} (h : TecSupported t) (data : List (List ℕ)) :
    TecWritten [⟨t, data⟩] t := by
  refine ⟨h, ?_⟩
  rw [tecBlockTypes_single h]
  rintro ⟨s, hs, h1⟩
  rw [List.mem_singleton] at hs
  rwa [← hs]

theorem tecCells_single {t : CellType} (h : TecSupported t) (data : List (List ℕ)) :
    tecCells [⟨t, data⟩] = data.map fun c => (t, c) := by
  rw [tecCells, typedCells_single]
  refine List.filter_eq_self.2 fun e he => ?_
  obtain ⟨c, -, rfl⟩ := List.mem_map.1 he
  exact decide_eq_true (tecWritten_single h data)

theorem tecRowsOf_single {α : Type} {t : CellType} (h : TecSupported t) {data : List (List ℕ)} {rows : List α}
    (hl : rows.length = data.length) : tecRowsOf [⟨t, data⟩] rows = rows := by
  rw [tecRowsOf, typedCells_single, List.filter_eq_self.2]
  · rw [List.map_snd_zip]
    simp [hl]
  · intro e he
    have := (List.of_mem_zip (a := e.1) (b := e.2) he).1
    obtain ⟨c, -, hc⟩ := List.mem_map.1 this
    rw [← hc]
    exact decide_eq_true (tecWritten_single h data)

/-- The mesh as it was loaded. -/
def tecLoaded (flat : Bool) (m : AvsMesh) (shape : CellType) : AvsMesh :=
  ⟨m.points.map fun p => if flat then ⟨p.x, p.y, .fin false 0⟩ else p,
    [⟨shape, (tecCells m.cells).map fun e => tecVertices shape e.1 e.2⟩],
    flatArrays (pointVariables m), flatArrays (cellVariables m)⟩

section
variable {flat : Bool} {m : AvsMesh} {shape : CellType}

theorem tecLoaded_point : pointVariables (tecLoaded flat m shape) = pointVariables m :=
  variablesOf_flat (pointVariables_coordinate m) (fun e => e.2.rows) fun _ _ => rfl

theorem tecLoaded_cell (h : TecMeshOk m) (hs : TecSupported shape) :
    cellVariables (tecLoaded flat m shape) = cellVariables m := by
  refine variablesOf_flat (cellVariables_coordinate m)
    (fun e => tecRowsOf (tecLoaded flat m shape).cells e.2.rows) fun e he => ?_
  refine tecRowsOf_single hs ?_
  rw [List.length_map, List.length_map]
  exact (cellVariables_facts h e he).1

theorem tecLoaded_cells (hs : TecSupported shape) : tecCells (tecLoaded flat m shape).cells =
    (tecCells m.cells).map fun e => (shape, tecVertices shape e.1 e.2) := by
  rw [tecLoaded, tecCells_single hs, List.map_map]
  rfl

theorem tecLoaded_ok (h : TecMeshOk m)
    (hsh : ∀ e ∈ tecCells m.cells, tecShape (decide (TecUniform m.cells)) e.1 = shape) (hs : TecSupported shape) :
    TecMeshOk (tecLoaded flat m shape) where
  first := by
    obtain ⟨mag, y, z, ps, hp⟩ := h.first
    show ∃ mag y z ps, m.points.map _ = _
    rw [hp]
    cases flat
    · exact ⟨mag, y, z, _, rfl⟩
    · exact ⟨mag, y, _, _, rfl⟩
  points := by
    intro p' hp'
    obtain ⟨p, hp, rfl⟩ := List.mem_map.1 hp'
    have := h.points p hp
    cases flat
    · exact this
    · exact ⟨this.1, this.2.1, by simpa using isDouble_num (n := 0) false (by norm_num)⟩
  cells := by
    rw [tecLoaded_cells hs]
    simpa using h.cells
  vertices := by
    intro e' he'
    rw [tecLoaded_cells hs] at he'
    obtain ⟨e, he, rfl⟩ := List.mem_map.1 he'
    have hsup : TecSupported e.1 := by
      rw [tecCells, List.mem_filter] at he
      exact (of_decide_eq_true he.2).1
    have := (tecVertices_length (u := decide (TecUniform m.cells)) hsup (h.vertices e he)).1
    rwa [hsh e he] at this
  solidFirst := by
    show (∃ s ∈ tecBlockTypes [⟨shape, _⟩], TecSolid s) → ∀ t ∈ (tecBlockTypes [⟨shape, _⟩]).head?, TecSolid t
    rw [tecBlockTypes_single hs]
    rintro ⟨s, hs, h1⟩ t ht
    rw [List.mem_singleton] at hs
    rw [List.head?_cons, Option.mem_some_iff] at ht
    rwa [← ht, ← hs]
  pointShape := by
    intro e' he'
    obtain ⟨e, he, rfl⟩ := List.mem_map.1 he'
    obtain ⟨h1, h2⟩ := allPoint_facts flat h e (List.mem_append.2 (.inr he))
    refine ⟨?_, ?_⟩
    · show (e.2.map fun x => [x]).length = (m.points.map _).length
      rw [List.length_map, List.length_map, h1]
    · intro r hr
      obtain ⟨x, hx, rfl⟩ := List.mem_map.1 hr
      refine ⟨rfl, fun y hy => ?_⟩
      rw [List.mem_singleton] at hy
      rw [hy]
      exact h2 x hx
  cellShape := by
    intro e' he'
    obtain ⟨e, he, rfl⟩ := List.mem_map.1 he'
    obtain ⟨h1, h2⟩ := cellVariables_facts h e he
    refine ⟨?_, ?_⟩
    · show (e.2.map fun x => [x]).length = (typedCells [⟨shape, _⟩]).length
      rw [typedCells_single, List.length_map, List.length_map, List.length_map, h1]
    · intro r hr
      obtain ⟨x, hx, rfl⟩ := List.mem_map.1 hr
      refine ⟨rfl, fun y hy => ?_⟩
      rw [List.mem_singleton] at hy
      rw [hy]
      exact h2 x hx
  names := by
    rw [tecLoaded_point, tecLoaded_cell h hs]
    exact h.names
  distinct := by
    rw [tecLoaded_point, tecLoaded_cell h hs]
    exact h.distinct
  material := by
    rw [tecLoaded_cell h hs]
    exact h.material

theorem tecLoaded_file (h : TecMeshOk m) (hs : TecSupported shape) (version : Str) :
    tecFile flat version (tecLoaded flat m shape) shape = tecFile flat version m shape := by
  have hc : coordVariables flat (tecLoaded flat m shape) = coordVariables flat m := by
    unfold coordVariables
    rw [tecLoaded_point]
    cases flat
    · have : (tecLoaded false m shape).points = m.points := by
        show m.points.map _ = _
        exact List.map_id _
      rw [this]
    · have h1 : (tecLoaded true m shape).points.map (·.x) = m.points.map (·.x) := by
        show (m.points.map _).map _ = _
        rw [List.map_map]
        rfl
      have h2 : (tecLoaded true m shape).points.map (·.y) = m.points.map (·.y) := by
        show (m.points.map _).map _ = _
        rw [List.map_map]
        rfl
      rw [h1, h2]
      rfl
  have hp : (tecLoaded flat m shape).points.length = m.points.length := List.length_map ..
  have hcl : ((tecCells (tecLoaded flat m shape).cells).map fun e => blankLine ((tecVertices shape e.1 e.2).map fun v =>
      natStr (v + 1))) = (tecCells m.cells).map fun e => blankLine ((tecVertices shape e.1 e.2).map fun v =>
      natStr (v + 1)) := by
    rw [tecLoaded_cells hs, List.map_map]
    refine List.map_congr_left fun e _ => ?_
    show blankLine ((tecVertices shape shape (tecVertices shape e.1 e.2)).map fun v => natStr (v + 1)) = _
    have : ∀ c, tecVertices shape shape c = c := by
      intro c
      cases shape <;> rfl
    rw [this]
  have hl : (tecCells (tecLoaded flat m shape).cells).length = (tecCells m.cells).length := by
    rw [tecLoaded_cells hs, List.length_map]
  unfold tecFile
  simp only [hc, hp, hcl, tecLoaded_cell h hs, hl]

end

theorem mapM_tecPointOf (flat : Bool) (ps : List (P3 Flt)) :
    (ps.map fun p => if flat then [p.x, p.y] else [p.x, p.y, p.z]).mapM tecPointOf =
      .ok (ps.map fun p => (if flat then ⟨p.x, p.y, .fin false 0⟩ else p, flat)) := by
  rw [List.mapM_map]
  refine mapM_ok fun p _ => ?_
  cases flat <;> rfl

theorem mapM_vertexOf (cs : List (List ℕ)) :
    (cs.map fun c => c.map fun v : ℕ => (v : ℤ)).mapM (fun c => c.mapM vertexOf) = .ok cs := by
  rw [List.mapM_map]
  refine (mapM_ok (g := id) fun c _ => ?_).trans (by rw [List.map_id])
  show (c.map fun v : ℕ => (v : ℤ)).mapM vertexOf = _
  rw [List.mapM_map]
  refine (mapM_ok (g := id) fun v _ => ?_).trans (by rw [List.map_id]; rfl)
  show vertexOf (v : ℤ) = .ok v
  rw [vertexOf, if_neg (by omega)]
  rfl

theorem tec_again (flat : Bool) (version : Str) {m : AvsMesh} (h : TecMeshOk m) (hs : TecSettled m) :
    ∃ lines r, writeTecMesh flat version m = .ok lines ∧ readTecMesh lines = .ok r ∧
      saveTecRead version r = .ok lines := by
  obtain ⟨r, h1, h2, h3, h4, h5, h6⟩ := C65_round_trip_partial flat version h
  obtain ⟨shape, hsh, hw⟩ := C65_file flat version h
  obtain ⟨e0, he0⟩ := List.exists_mem_of_ne_nil _ h.cells
  have hrt : r.type = shape := (h3 e0 he0).symm.trans (hsh e0 he0)
  have hsup0 : TecSupported e0.1 := by
    rw [tecCells, List.mem_filter] at he0
    exact (of_decide_eq_true he0.2).1
  have hcase := tecShape_cases (u := decide (TecUniform m.cells)) hsup0
  rw [hsh e0 he0] at hcase
  obtain ⟨hsup, hsame⟩ := tecShape_same hcase
  have hjoin : ∀ d : List (Str × List Flt), (∀ e ∈ d, wordsJoined e.1 = e.1) →
      (d.map fun e => (wordsJoined e.1, e.2)) = d := by
    intro d hd
    conv_rhs => rw [← List.map_id d]
    refine List.map_congr_left fun e he => ?_
    rw [hd e he]
    rfl
  rw [hjoin _ fun e he => hs.names e (List.mem_append.2 (.inl he))] at h5
  rw [hjoin _ fun e he => hs.names e (List.mem_append.2 (.inr he)), hs.material] at h6
  refine ⟨_, r, hw, ?_, ?_⟩
  · rwa [hw, ok_bind] at h1
  · rw [hrt] at h4
    have h4' : r.cells = ((tecCells m.cells).map fun e => tecVertices shape e.1 e.2).map fun c => c.map fun v : ℕ => (v : ℤ) := by
      rw [h4, List.map_map]
      rfl
    have hany : (m.points.map fun p => ((if flat then ⟨p.x, p.y, .fin false 0⟩ else p : P3 Flt), flat)).any (·.2) = flat := by
      obtain ⟨mag, y, z, ps, hp⟩ := h.first
      rw [hp]
      cases flat
      · simp
      · simp
    rw [saveTecRead, h2, mapM_tecPointOf, ok_bind, h4', mapM_vertexOf, ok_bind, h5, h6, hrt, hany, List.map_map]
    obtain ⟨shape', hsh', hw'⟩ := C65_file flat version (tecLoaded_ok (flat := flat) h hsh hsup)
    have hs' : shape' = shape := by
      have hm : (shape, tecVertices shape e0.1 e0.2) ∈ tecCells (tecLoaded flat m shape).cells := by
        rw [tecLoaded_cells hsup]
        exact List.mem_map_of_mem he0
      rw [← hsh' _ hm]
      have hu : decide (TecUniform (tecLoaded flat m shape).cells) = true := by
        refine decide_eq_true ?_
        show TecUniform [⟨shape, _⟩]
        unfold TecUniform
        rw [tecBlockTypes_single hsup]
        intro a ha b hb
        rw [List.mem_singleton] at ha hb
        rw [ha, hb]
      rw [hu]
      exact hsame
    rw [hs', tecLoaded_file h hsup] at hw'
    exact hw'

end Verif.Mesh
