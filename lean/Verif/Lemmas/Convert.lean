import Verif.Model.Convert
import Verif.Spec.Convert
import Verif.Lemmas.Resave

/-!
# Lemmas: mesh files that are converted
-/

namespace Verif.Mesh
open Verif.Py Verif.Model Verif.Spec

/-! ### blocks of cells -/

/-- An AVS-UCD file does not depend on how cells are put into blocks. -/
theorem writeAvs_cells (version : Str) {m : AvsMesh} (h : AvsPlain m) {cells : List CellBlock}
    (hc : typedCells cells = typedCells m.cells) (hne : ∀ b ∈ cells, b.data ≠ []) :
    writeAvs version ⟨m.points, cells, m.pointData, m.cellData⟩ = writeAvs version m := by
  have h' : AvsPlain ⟨m.points, cells, m.pointData, m.cellData⟩ :=
    { points := h.points
      vertices := by
        intro b hb
        have key : ∀ c ∈ b.data, ∃ n, vertexCount b.type = some n ∧ c.length = n ∧ ∀ v ∈ c, v < m.points.length := by
          intro c hcb
          have hmem : (b.type, c) ∈ typedCells m.cells := by
            rw [← hc]
            exact List.mem_flatMap.2 ⟨b, hb, List.mem_map_of_mem hcb⟩
          obtain ⟨b', hb', ht, hcb'⟩ := mem_typedCells hmem
          obtain ⟨n, hn, hv⟩ := h.vertices b' hb'
          exact ⟨n, by rw [show b.type = b'.type from ht]; exact hn, hv c hcb'⟩
        obtain ⟨c0, hc0⟩ := List.exists_mem_of_ne_nil _ (hne b hb)
        obtain ⟨n, hn, -⟩ := key c0 hc0
        refine ⟨n, hn, fun c hcb => ?_⟩
        obtain ⟨k, hk, h1, h2⟩ := key c hcb
        rw [hn] at hk
        obtain rfl := Option.some.inj hk
        exact ⟨h1, h2⟩
      pointData := h.pointData
      lengths := by
        intro e he
        show e.2.rows.length = (typedCells cells).length
        rw [hc]
        exact h.lengths e he
      cellData := by
        show DataOk (typedCells cells).length _
        rw [hc]
        exact h.cellData
      materials := h.materials
      names := h.names }
  obtain ⟨mats, hm, hw⟩ := C64_file version h
  obtain ⟨mats', hm', hw'⟩ := C64_file version h'
  have hmm : MaterialsOf m mats' := by
    have : MaterialsOf ⟨m.points, cells, m.pointData, m.cellData⟩ mats' = MaterialsOf m mats' := by
      unfold MaterialsOf
      simp only [hc]
    rwa [← this]
  obtain rfl := materialsOf_unique hm hmm
  rw [hw, hw']
  unfold avsFile
  simp only [hc]
  rfl

theorem mem_tecBlockTypes {cells : List CellBlock} (hne : ∀ b ∈ cells, b.data ≠ []) (t : CellType) :
    t ∈ tecBlockTypes cells ↔ TecSupported t ∧ ∃ c, (t, c) ∈ typedCells cells := by
  rw [tecBlockTypes, List.mem_filter, and_comm]
  refine and_congr (by simp) ⟨fun h => ?_, fun ⟨c, h⟩ => ?_⟩
  · obtain ⟨b, hb, rfl⟩ := List.mem_map.1 h
    obtain ⟨c, hc⟩ := List.exists_mem_of_ne_nil _ (hne b hb)
    exact ⟨c, List.mem_flatMap.2 ⟨b, hb, List.mem_map_of_mem hc⟩⟩
  · obtain ⟨b, hb, h1, -⟩ := mem_typedCells h
    exact List.mem_map.2 ⟨b, hb, h1.symm⟩

theorem tecBlockTypes_head {cells : List CellBlock} (hne : ∀ b ∈ cells, b.data ≠ []) :
    (tecBlockTypes cells).head? = (((typedCells cells).map (·.1)).filter fun t => TecSupported t).head? := by
  induction cells with
  | nil => rfl
  | cons b cells ih =>
    have ih := ih fun b' hb' => hne b' (List.mem_cons_of_mem _ hb')
    obtain ⟨c, cs, hd⟩ := List.exists_cons_of_ne_nil (hne b List.mem_cons_self)
    have h1 : typedCells (b :: cells) = (b.data.map fun c => (b.type, c)) ++ typedCells cells := List.flatMap_cons
    rw [h1, List.map_append, List.filter_append, List.map_map]
    unfold tecBlockTypes at ih ⊢
    rw [List.map_cons]
    by_cases hs : TecSupported b.type
    · rw [List.filter_cons_of_pos (by simpa using hs), hd, List.map_cons, List.filter_cons_of_pos (by simpa using hs)]
      rfl
    · have h2 : (b.data.map ((fun e : CellType × List ℕ => e.1) ∘ fun c => (b.type, c))).filter
          (fun t => decide (TecSupported t)) = [] := by
        refine List.filter_eq_nil_iff.2 fun t ht => ?_
        obtain ⟨c, -, rfl⟩ := List.mem_map.1 ht
        simpa using hs
      rw [List.filter_cons_of_neg (by simpa using hs), ih, h2, List.nil_append]

section
variable {m : AvsMesh} {cells : List CellBlock}

theorem tecBlockTypes_congr (hm : ∀ b ∈ m.cells, b.data ≠ []) (hne : ∀ b ∈ cells, b.data ≠ [])
    (hc : typedCells cells = typedCells m.cells) (t : CellType) :
    t ∈ tecBlockTypes cells ↔ t ∈ tecBlockTypes m.cells := by
  rw [mem_tecBlockTypes hm, mem_tecBlockTypes hne, hc]

theorem tecWritten_congr (hm : ∀ b ∈ m.cells, b.data ≠ []) (hne : ∀ b ∈ cells, b.data ≠ [])
    (hc : typedCells cells = typedCells m.cells) : TecWritten cells = TecWritten m.cells := by
  funext t
  unfold TecWritten
  simp only [tecBlockTypes_congr hm hne hc]

theorem tecCells_congr (hm : ∀ b ∈ m.cells, b.data ≠ []) (hne : ∀ b ∈ cells, b.data ≠ [])
    (hc : typedCells cells = typedCells m.cells) : tecCells cells = tecCells m.cells := by
  unfold tecCells
  rw [hc]
  refine List.filter_congr fun e _ => ?_
  rw [decide_eq_decide, tecWritten_congr hm hne hc]

theorem tecRowsOf_congr {α : Type} (hm : ∀ b ∈ m.cells, b.data ≠ []) (hne : ∀ b ∈ cells, b.data ≠ [])
    (hc : typedCells cells = typedCells m.cells) (rows : List α) : tecRowsOf cells rows = tecRowsOf m.cells rows := by
  unfold tecRowsOf
  rw [hc]
  refine congrArg (List.map _) (List.filter_congr fun e _ => ?_)
  rw [decide_eq_decide, tecWritten_congr hm hne hc]

theorem tecUniform_congr (hm : ∀ b ∈ m.cells, b.data ≠ []) (hne : ∀ b ∈ cells, b.data ≠ [])
    (hc : typedCells cells = typedCells m.cells) : TecUniform cells ↔ TecUniform m.cells := by
  unfold TecUniform
  simp only [tecBlockTypes_congr hm hne hc]

theorem cellVariables_congr (hm : ∀ b ∈ m.cells, b.data ≠ []) (hne : ∀ b ∈ cells, b.data ≠ [])
    (hc : typedCells cells = typedCells m.cells) :
    cellVariables ⟨m.points, cells, m.pointData, m.cellData⟩ = cellVariables m := by
  unfold cellVariables
  simp only [tecRowsOf_congr hm hne hc]

/-- A Tecplot file does not depend on how cells are put into blocks, if no block is empty. -/
theorem writeTecMesh_cells (flat : Bool) (version : Str) (h : TecMeshOk m) (hm : ∀ b ∈ m.cells, b.data ≠ [])
    (hne : ∀ b ∈ cells, b.data ≠ []) (hc : typedCells cells = typedCells m.cells) :
    writeTecMesh flat version ⟨m.points, cells, m.pointData, m.cellData⟩ = writeTecMesh flat version m := by
  have hcv := cellVariables_congr hm hne hc
  have htc := tecCells_congr hm hne hc
  have h' : TecMeshOk ⟨m.points, cells, m.pointData, m.cellData⟩ :=
    { first := h.first
      points := h.points
      cells := by
        show tecCells cells ≠ []
        rw [htc]
        exact h.cells
      vertices := by
        show ∀ e ∈ tecCells cells, _
        rw [htc]
        exact h.vertices
      solidFirst := by
        show (∃ s ∈ tecBlockTypes cells, TecSolid s) → ∀ t ∈ (tecBlockTypes cells).head?, TecSolid t
        rw [tecBlockTypes_head hne, hc, ← tecBlockTypes_head hm]
        simp only [tecBlockTypes_congr hm hne hc]
        exact h.solidFirst
      pointShape := h.pointShape
      cellShape := by
        intro e he
        show e.2.rows.length = (typedCells cells).length ∧ _
        rw [hc]
        exact h.cellShape e he
      names := by
        rw [hcv]
        exact h.names
      distinct := by
        rw [hcv]
        exact h.distinct
      material := by
        rw [hcv]
        exact h.material }
  obtain ⟨shape, hsh, hw⟩ := C65_file flat version h
  obtain ⟨shape', hsh', hw'⟩ := C65_file flat version h'
  obtain ⟨e, he⟩ := List.exists_mem_of_ne_nil _ h.cells
  have hs : shape' = shape := by
    rw [← hsh e he, ← hsh' e (by show e ∈ tecCells cells; rwa [htc])]
    show tecShape (decide (TecUniform cells)) e.1 = _
    rw [decide_eq_decide.2 (tecUniform_congr hm hne hc)]
  rw [hw, hw', hs]
  unfold tecFile
  simp only [hcv, htc]
  rfl

end

/-! ### from AVS-UCD to Tecplot -/

theorem dataRead_kept {e : Str × NArray} (hn : underscored e.1 = e.1) (hw : e.2.width ≠ some 1)
    (hx : ∀ r ∈ e.2.rows, ∀ x ∈ r, quant 14 x = x) : dataRead e = e := by
  obtain ⟨s, w, rows⟩ := e
  unfold dataRead
  simp only at hn hw hx ⊢
  rw [hn, if_neg hw]
  have : (rows.map fun r => r.map (quant 14)) = rows := by
    conv_rhs => rw [← List.map_id rows]
    refine List.map_congr_left fun r hr => ?_
    conv_rhs => rw [id, ← List.map_id r]
    exact List.map_congr_left fun x hx' => hx r hr x hx'
  rw [this]

theorem map_dataRead_kept {d : List (Str × NArray)} (h : ∀ e ∈ d, dataRead e = e) : d.map dataRead = d := by
  conv_rhs => rw [← List.map_id d]
  exact List.map_congr_left fun e he => h e he

theorem materialsOf_kept {m : AvsMesh} {mats : List ℤ} (h : m.cellData = otherData m ++
    [("material".toList, ⟨none, mats.map fun k => [.fin (decide (k < 0)) k.natAbs]⟩)]) : MaterialsOf m mats := by
  have h1 : m.cellData.filter (fun e => decide (IsMaterialName e.1)) =
      [("material".toList, ⟨none, mats.map fun k => [.fin (decide (k < 0)) k.natAbs]⟩)] := by
    rw [h, List.filter_append, filter_material_pos isMaterialName_material, List.filter_eq_nil_iff.2, List.nil_append]
    intro e he
    simpa using otherData_name he
  unfold MaterialsOf
  rw [h1]
  simp only
  rw [List.forall₂_map_left_iff]
  exact List.forall₂_same.2 fun k _ => ⟨_, rfl, truncates_intFlt k⟩

theorem avs_to_tec (version : Str) {m : AvsMesh} (h : AvsOk m) (ht : TecMeshOk m) (hk : AvsKept m) :
    ∃ lines r, writeAvs version m = .ok lines ∧ (∀ junk, readAvs junk lines = .ok r) ∧
      saveAvsAsTec version r = writeTecMesh false version m := by
  obtain ⟨r, mats, h1, h2, h3, h4, -, h5, h6, h7, h8⟩ := C64_round_trip_partial version h
  obtain ⟨mats', hm', hw⟩ := C64_file version h.toAvsPlain
  have hd : ∀ e ∈ m.pointData ++ otherData m, dataRead e = e := fun e he =>
    dataRead_kept (hk.names e he) (hk.columns e he) (hk.digits e he)
  rw [map_dataRead_kept fun e he => hd e (List.mem_append.2 (.inl he))] at h5
  rw [map_dataRead_kept fun e he => hd e (List.mem_append.2 (.inr he))] at h6
  obtain ⟨ks, hks⟩ := hk.material
  obtain rfl := materialsOf_unique h8 (materialsOf_kept hks)
  refine ⟨_, r, hw, fun junk => ?_, ?_⟩
  · have := h1 junk
    rwa [hw, ok_bind] at this
  · have hall : r.allCellData = m.cellData := by
      unfold AvsRead.allCellData
      rw [h6, h7, hks]
      rfl
    have hp := mapM_tecPointOf false m.points
    simp only [Bool.false_eq_true, if_false] at hp
    have hany : (m.points.map fun p => (p, false)).any (·.2) = false := by simp
    have hfst : (m.points.map fun p => (p, false)).map (·.1) = m.points := by
      rw [List.map_map]
      exact List.map_id _
    rw [saveAvsAsTec, h2, hp, ok_bind, hany, hfst, h5, hall]
    exact writeTecMesh_cells false version ht hk.blocks h4 h3

/-! ### from Tecplot to AVS-UCD -/

theorem tecWritten_all {m : AvsMesh} {t : CellType} (ht : TecSupported t) (h : ∀ b ∈ m.cells, b.type = t) :
    ∀ e ∈ typedCells m.cells, TecWritten m.cells e.1 := by
  intro e he
  obtain ⟨b, hb, h1, -⟩ := mem_typedCells he
  rw [h1, h b hb]
  refine ⟨ht, ?_⟩
  rintro ⟨s, hs, hss⟩
  rw [tecBlockTypes, List.mem_filter] at hs
  obtain ⟨b', hb', rfl⟩ := List.mem_map.1 hs.1
  rwa [h b' hb'] at hss

theorem flat_variables {d : List (Str × NArray)} (hw : ∀ e ∈ d, e.2.width = none)
    (hc : ∀ e ∈ d, ¬ IsCoordinate e.1) (hr : ∀ e ∈ d, ∀ r ∈ e.2.rows, r.length = 1)
    (f : (Str × NArray) → List (List Flt)) (hf : ∀ e ∈ d, f e = e.2.rows) :
    flatArrays ((d.filter fun e => ¬ IsCoordinate e.1).flatMap fun e => variablesOf e.1 e.2.width (f e)) = d := by
  rw [List.filter_eq_self.2 fun e he => by simpa using hc e he]
  have key : ∀ e ∈ d, flatArrays (variablesOf e.1 e.2.width (f e)) = [e] := by
    intro e he
    rw [hf e he, hw e he]
    have hrows : (e.2.rows.map fun r => [r.getD 0 .nan]) = e.2.rows := by
      conv_rhs => rw [← List.map_id e.2.rows]
      refine List.map_congr_left fun r hr' => ?_
      obtain ⟨x, rfl⟩ := List.length_eq_one_iff.1 (hr e he r hr')
      rfl
    show [(e.1, (⟨none, (e.2.rows.map fun r => r.getD 0 .nan).map fun x => [x]⟩ : NArray))] = [e]
    rw [List.map_map]
    have h2 : ((fun x : Flt => [x]) ∘ fun r : List Flt => r.getD 0 .nan) = fun r => [r.getD 0 .nan] := rfl
    rw [h2, hrows, ← hw e he]
  clear hw hc hr hf
  induction d with
  | nil => rfl
  | cons e d ih =>
    rw [List.flatMap_cons]
    have h1 := key e List.mem_cons_self
    have h2 := ih fun e' he' => key e' (List.mem_cons_of_mem _ he')
    unfold flatArrays at h1 h2 ⊢
    rw [List.map_append, h1, h2]
    rfl

theorem tecVertices_self (t : CellType) (c : List ℕ) : tecVertices t t c = c := by
  cases t <;> rfl

theorem tec_to_avs (flat : Bool) (version : Str) {m : AvsMesh} (h : TecMeshOk m) (hs : TecSettled m)
    (ha : AvsPlain m) (hk : TecKept flat m) :
    ∃ lines r, writeTecMesh flat version m = .ok lines ∧ readTecMesh lines = .ok r ∧
      saveTecAsAvs version r = writeAvs version m := by
  obtain ⟨r, h1, h2, h3, h4, h5, h6⟩ := C65_round_trip_partial flat version h
  obtain ⟨shape, hsh, hw⟩ := C65_file flat version h
  obtain ⟨t, ht, hbt⟩ := hk.shape
  obtain ⟨hsup, hsame⟩ := tecShape_same ht
  have hjoin : ∀ d : List (Str × List Flt), (∀ e ∈ d, wordsJoined e.1 = e.1) →
      (d.map fun e => (wordsJoined e.1, e.2)) = d := by
    intro d hd
    conv_rhs => rw [← List.map_id d]
    refine List.map_congr_left fun e he => ?_
    rw [hd e he]
    rfl
  rw [hjoin _ fun e he => hs.names e (List.mem_append.2 (.inl he))] at h5
  rw [hjoin _ fun e he => hs.names e (List.mem_append.2 (.inr he)), hs.material] at h6
  have hwr := tecWritten_all hsup hbt
  have hty : ∀ e ∈ typedCells m.cells, e.1 = t := by
    intro e he
    obtain ⟨b, hb, h1, -⟩ := mem_typedCells he
    rw [h1, hbt b hb]
  have htc : tecCells m.cells = typedCells m.cells :=
    List.filter_eq_self.2 fun e he => decide_eq_true (hwr e he)
  have hrows : ∀ e ∈ m.cellData, tecRowsOf m.cells e.2.rows = e.2.rows := by
    intro e he
    rw [tecRowsOf, List.filter_eq_self.2, List.map_snd_zip]
    · rw [(h.cellShape e he).1]
    · intro q hq
      exact decide_eq_true (hwr q.1 (List.of_mem_zip (a := q.1) (b := q.2) hq).1)
  have hu : decide (TecUniform m.cells) = true := by
    refine decide_eq_true fun a ha b hb => ?_
    rw [tecBlockTypes, List.mem_filter] at ha hb
    obtain ⟨b1, hb1, rfl⟩ := List.mem_map.1 ha.1
    obtain ⟨b2, hb2, rfl⟩ := List.mem_map.1 hb.1
    rw [hbt b1 hb1, hbt b2 hb2]
  obtain ⟨e0, he0⟩ := List.exists_mem_of_ne_nil _ h.cells
  have hrt : r.type = t := by
    rw [← h3 e0 he0, hu, hty e0 (by rwa [← htc]), hsame]
  have hcells : r.cells = ((typedCells m.cells).map (·.2)).map fun c => c.map fun v : ℕ => (v : ℤ) := by
    rw [h4, htc, List.map_map, hrt]
    refine List.map_congr_left fun e he => ?_
    rw [hty e he, tecVertices_self]
    rfl
  have hone : ∀ e ∈ m.pointData ++ m.cellData, ∀ r ∈ e.2.rows, r.length = 1 := by
    intro e he r hr
    have hw := hk.columns e he
    rcases List.mem_append.1 he with he | he
    · have := ((h.pointShape e he).2 r hr).1
      rwa [hw] at this
    · have := ((h.cellShape e he).2 r hr).1
      rwa [hw] at this
  have hpd : flatArrays (pointVariables m) = m.pointData :=
    flat_variables (fun e he => hk.columns e (List.mem_append.2 (.inl he)))
      (fun e he => hk.coordinates e (List.mem_append.2 (.inl he)))
      (fun e he => hone e (List.mem_append.2 (.inl he))) (fun e => e.2.rows) fun _ _ => rfl
  have hcd : flatArrays (cellVariables m) = m.cellData :=
    flat_variables (fun e he => hk.columns e (List.mem_append.2 (.inr he)))
      (fun e he => hk.coordinates e (List.mem_append.2 (.inr he)))
      (fun e he => hone e (List.mem_append.2 (.inr he))) (fun e => tecRowsOf m.cells e.2.rows) hrows
  have hps : (m.points.map fun p => if flat then [p.x, p.y] else [p.x, p.y, p.z]).mapM spacePoint = .ok m.points := by
    rw [List.mapM_map]
    refine (mapM_ok (g := id) fun p hp => ?_).trans (by rw [List.map_id])
    cases flat
    · rfl
    · show spacePoint [p.x, p.y] = .ok p
      rw [← show (⟨p.x, p.y, .fin false 0⟩ : P3 Flt) = p by rw [← hk.plane rfl p hp]]
      rfl
  have htyped : typedCells [⟨t, (typedCells m.cells).map (·.2)⟩] = typedCells m.cells := by
    rw [typedCells_single, List.map_map]
    conv_rhs => rw [← List.map_id (typedCells m.cells)]
    refine List.map_congr_left fun e he => ?_
    show (t, e.2) = e
    rw [← hty e he]
  refine ⟨_, r, hw, ?_, ?_⟩
  · rwa [hw, ok_bind] at h1
  · rw [saveTecAsAvs, hcells, mapM_vertexOf, ok_bind, h2, h5, h6, hpd, hcd, hrt, writeAvsRows, hps, ok_bind]
    refine writeAvs_cells version ha htyped fun b hb => ?_
    rw [List.mem_singleton] at hb
    rw [hb]
    show (typedCells m.cells).map (·.2) ≠ []
    rw [htc] at he0
    exact fun h0 => List.ne_nil_of_mem he0 (List.map_eq_nil_iff.1 h0)

end Verif.Mesh
