import Verif.Spec.MeshAgain
import Verif.Lemmas.MeshWrite
import Verif.Lemmas.AgainMesh
import Verif.Lemmas.Tools

/-! Helper lemmas: the two writers of MESH and INCON. -/

set_option linter.unusedSimpArgs false

namespace Verif.Model
open Verif.Py Verif.Spec Verif.Props

theorem sameLine_record (fmt : List Tok) (vs : List Val) :
    SameLine (plainOf fmt vs) (lineOf fmt vs) := by
  unfold plainOf lineOf plainRecord writeRecord
  cases h : recText fmt vs with
  | error e => exact .inl rfl
  | ok t =>
    refine .inr ⟨by simp [bind, Except.bind], ?_⟩
    show recLine t = padRight 80 (t ++ ['\n']).dropLast ++ ['\n']
    rw [List.dropLast_concat, recLine]

theorem sameFile_block (l : Str) {a b : List Str} (h : SameFile a b) :
    SameFile (l :: (a ++ [['\n']])) (l :: (b ++ [['\n']])) :=
  .cons (.inl rfl) (List.rel_append h (.cons (.inl rfl) .nil))

theorem sameFile_append {a b c d : List Str} (h : SameFile a b) (h' : SameFile c d) :
    SameFile (a ++ c) (b ++ d) := List.rel_append h h'

/-! ### MESH -/

variable {L : ℕ} {names : List (Material × Material)} {ends : List Material} {coord : Bool}
  {cells : List MeshCell} {conns : List MeshConn}

/-- The file of a mesh and the same parts of an input file. -/
theorem meshParts_same {p : Params} (hp : GivesMesh names ends coord cells conns p)
    (hn : ∀ e ∈ names, Filled e.1 ∧ bare e.2 = e.2) (he : ∀ m ∈ ends, Filled m)
    (hl : LabelsOk L (cells.map (·.label))) (hf : ∀ c ∈ cells, CellFits names coord c)
    (hc : ConnsGood L conns) (hcf : ∀ c ∈ conns, MeshConnFits c) :
    ∃ lines lines', meshFile names ends coord cells conns = .ok lines ∧
      concatM id (meshParts p) = .ok lines' ∧ SameFile lines lines' := by
  obtain ⟨g1, g2⟩ := elemEntries_fit (names := names) (ends := ends) hl hf
  obtain ⟨m1, -⟩ := meshEleme_eq hn he hl hf
  obtain ⟨c1, -⟩ := meshConne_eq hc hcf
  have w1 := writeEleme_eq g1 g2
  have w3 := writeConne_eq (connEntries_fit hc) (fun e hm => by
    obtain ⟨c, hc', rfl⟩ := List.mem_map.1 hm
    exact connFits_conn (L := L) (hcf c hc'))
  have hne : elemEntries names ends cells ≠ [] := by
    intro h0
    exact (fileOrder_labels hl ends).2.2 (List.map_eq_nil_iff.1 h0)
  have hnc : connEntries conns ≠ [] := fun h0 => hc.some (List.map_eq_nil_iff.1 h0)
  have hparts : meshParts p = [writeEleme none (elemEntries names ends cells),
      onlyIf coord (writeCoord none (elemEntries names ends cells)),
      writeConne none (connEntries conns)] := by
    show [onlyIf (p.elements ≠ []) (writeEleme p.elementsOrder p.elements),
      onlyIf p.coordinates (writeCoord p.elementsOrder p.elements),
      onlyIf (p.connections ≠ []) (writeConne p.connectionsOrder p.connections)] = _
    rw [hp.elements, hp.elementsOrder, hp.coordinates, hp.connections, hp.connectionsOrder]
    show [onlyIf (elemEntries names ends cells ≠ []) _, _, onlyIf (connEntries conns ≠ []) _] = _
    unfold onlyIf
    rw [if_pos (decide_eq_true hne), if_pos (decide_eq_true hnc)]
    rfl
  have s1 : SameFile ((fileOrder ends cells).map fun c =>
        plainOf (elemFmt L) (elemVals (.str c.label) (cellElem names c)))
      ((elemEntries names ends cells).map fun e => lineOf (elemFmt L) (elemVals e.1 e.2)) := by
    rw [elemEntries, List.map_map]
    exact forall₂_maps fun c _ => sameLine_record _ _
  have s3 : SameFile (conns.map fun c =>
        plainOf (connFmt L) (connVals (.str (c.label1 ++ c.label2)) (connEntry c)))
      ((connEntries conns).map fun e => lineOf (connFmt L) (connVals e.1 e.2)) := by
    rw [connEntries, List.map_map]
    exact forall₂_maps fun c _ => sameLine_record _ _
  rw [hparts, meshFile]
  cases coord with
  | false =>
    refine ⟨_, _, ?_, ?_, sameFile_append (sameFile_block (headLine "ELEME") s1)
      (sameFile_block (headLine "CONNE") s3)⟩
    · simp [m1, c1, concatM, bind, Except.bind]
    · simp [w1, w3, concatM, onlyIf, bind, Except.bind]
  | true =>
    have hcen : ∀ e ∈ elemEntries names ends cells, CenterFits e.2.center := by
      intro e hm
      obtain ⟨c, hc', rfl⟩ := List.mem_map.1 hm
      exact centerFits_cell (hf c (mem_fileOrder.1 hc'))
    obtain ⟨x1, -⟩ := meshCoord_eq he hf
    have w2 := writeCoord_eq g1.2.2.1 hcen
    have s2 : SameFile ((fileOrder ends cells).map fun c =>
          plainOf Fmt.coord [.flt c.x, .flt c.y, .flt c.z])
        ((elemEntries names ends cells).map fun e => lineOf Fmt.coord (centerOf e.2.center)) := by
      rw [elemEntries, List.map_map]
      exact forall₂_maps fun c _ => sameLine_record _ _
    refine ⟨_, _, ?_, ?_, sameFile_append (sameFile_append (sameFile_block (headLine "ELEME") s1)
      (sameFile_block (headLine "COORD") s2)) (sameFile_block (headLine "CONNE") s3)⟩
    · simp [m1, x1, c1, concatM, bind, Except.bind]
    · simp [w1, w2, w3, concatM, onlyIf, bind, Except.bind]

theorem elemTame_cell {c : MeshCell} (h : CellTame coord c) : ElemTame coord (cellElem names c) := by
  obtain ⟨h1, h2, h3⟩ := h
  refine ⟨?_, ?_⟩
  · intro v hv
    simp only [cellElem, centerOf, List.mem_append, List.mem_cons, List.not_mem_nil, or_false] at hv
    rcases hv with (rfl | rfl | rfl | rfl | rfl) | rfl | rfl | rfl
    · trivial
    · trivial
    · exact h1
    · trivial
    · trivial
    · exact h2 _ (by simp)
    · exact h2 _ (by simp)
    · exact h2 _ (by simp)
  · intro hb v hv
    simp only [cellElem, centerOf, List.mem_cons, List.not_mem_nil, or_false] at hv
    rcases hv with rfl | rfl | rfl
    · exact h3 hb _ (by simp)
    · exact h3 hb _ (by simp)
    · exact h3 hb _ (by simp)

theorem connTame_conn {c : MeshConn} (h : MeshConnTame c) : ConnTame (connEntry c) := by
  obtain ⟨h1, h2⟩ := h
  intro v hv
  simp only [connEntry, pairOf, List.mem_append, List.mem_cons, List.not_mem_nil, or_false] at hv
  rcases hv with ((rfl | rfl | rfl | rfl | rfl) | rfl | rfl) | rfl | rfl
  · trivial
  · exact h1
  · exact h2 _ (by simp)
  · exact h2 _ (by simp)
  · trivial
  · trivial
  · trivial
  · exact h2 _ (by simp)
  · exact h2 _ (by simp)

/-- Saving what was read is saving what was written. -/
theorem meshParts_again {p : Params} (hp : GivesMesh names ends coord cells conns p)
    (hl : LabelsOk L (cells.map (·.label))) (hf : ∀ c ∈ cells, CellFits names coord c)
    (hc : ConnsGood L conns) (hcf : ∀ c ∈ conns, MeshConnFits c)
    (ht : ∀ c ∈ cells, CellTame coord c) (hct : ∀ c ∈ conns, MeshConnTame c) :
    meshParts ({ FileRead.empty with
        elements := some (meshElems names ends coord cells)
        coordinates := some coord
        connections := some (meshConns conns) } : FileRead).params = meshParts p := by
  obtain ⟨g1, g2⟩ := elemEntries_fit (names := names) (ends := ends) hl hf
  have hLm : L ∈ labelLengths := by
    have := hl.lower
    have := hl.upper
    interval_cases L <;> decide
  have hrows : ∀ e ∈ p.elements, ∃ c ∈ cells, e = (.str c.label, cellElem names c) := by
    intro e hm
    rw [hp.elements] at hm
    obtain ⟨c, hc, rfl⟩ := List.mem_map.1 hm
    exact ⟨c, mem_fileOrder.1 hc, rfl⟩
  have hne : p.elements ≠ [] := by
    rw [hp.elements]
    intro h0
    exact (fileOrder_labels hl ends).2.2 (List.map_eq_nil_iff.1 h0)
  have hnc : p.connections ≠ [] := by
    rw [hp.connections]
    exact fun h0 => hc.some (List.map_eq_nil_iff.1 h0)
  have hcr : ∀ e ∈ p.connections, ∃ c ∈ conns, e = (.str (c.label1 ++ c.label2), connEntry c) := by
    intro e hm
    rw [hp.connections] at hm
    obtain ⟨c, hc, rfl⟩ := List.mem_map.1 hm
    exact ⟨c, hc, rfl⟩
  have hE : ElemsOk (some L) p := by
    refine ⟨?_, .inr ⟨L, hLm, ?_, ?_, .inl rfl⟩, ?_⟩
    · rw [hp.elementsOrder]; rintro o ho; cases ho
    · rw [hp.elements]; exact g1
    · rw [hp.elements]; exact g2
    · intro hb
      refine ⟨hne, fun e hm => ?_⟩
      obtain ⟨c, hc, rfl⟩ := hrows e hm
      rw [hp.coordinates] at hb
      subst hb
      exact centerFits_cell (hf c hc)
  have hC : ConnsOk (some L) p := by
    refine ⟨?_, .inr ⟨L, hLm, ?_, ?_, .inl rfl⟩⟩
    · rw [hp.connectionsOrder]; rintro o ho; cases ho
    · rw [hp.connections]; exact connEntries_fit hc
    · intro e hm
      obtain ⟨c, hc', rfl⟩ := hcr e hm
      exact connFits_conn (L := L) (hcf c hc')
  obtain ⟨a1, a2⟩ := again_eleme hE (by rw [hp.elementsOrder]; rintro o ho; cases ho) (by
    intro e hm
    obtain ⟨c, hc, rfl⟩ := hrows e hm
    rw [hp.coordinates]
    exact elemTame_cell (ht c hc))
  have a3 := again_conne hC (by rw [hp.connectionsOrder]; rintro o ho; cases ho) (by
    intro e hm
    obtain ⟨c, hc', rfl⟩ := hcr e hm
    exact connTame_conn (hct c hc'))
  have b1 : (fileBack p).elements = some (meshElems names ends coord cells) := by
    simp only [fileBack, elemsBack, nonEmpty, hne, if_false, hp.elementsOrder, rowsFor]
    rw [hp.elements, hp.coordinates]
    simp [meshElems, List.map_map, Function.comp_def]
  have b2 : (fileBack p).coordinates = some coord := by
    simp only [fileBack, nonEmpty, hne, if_false, hp.coordinates]
  have b3 : (fileBack p).connections = some (meshConns conns) := by
    simp only [fileBack, connsBack, nonEmpty, hnc, if_false, hp.connectionsOrder, rowsFor]
    rw [hp.connections]
    simp [meshConns, List.map_map, Function.comp_def]
  have key : ∀ r : FileRead, r.elements = (fileBack p).elements → r.coordinates = (fileBack p).coordinates →
      r.connections = (fileBack p).connections → meshParts r.params = meshParts p := by
    intro r e1 e2 e3
    have f1 : r.params.elements = (fileBack p).params.elements := by simp only [FileRead.params, e1]
    have f2 : r.params.elementsOrder = (fileBack p).params.elementsOrder := by
      simp only [FileRead.params, e1]
    have f3 : r.params.coordinates = (fileBack p).params.coordinates := by
      simp only [FileRead.params, e2]
    have f4 : r.params.connections = (fileBack p).params.connections := by
      simp only [FileRead.params, e3]
    have f5 : r.params.connectionsOrder = (fileBack p).params.connectionsOrder := by
      simp only [FileRead.params, e3]
    show [onlyIf (r.params.elements ≠ []) (writeEleme r.params.elementsOrder r.params.elements),
      onlyIf r.params.coordinates (writeCoord r.params.elementsOrder r.params.elements),
      onlyIf (r.params.connections ≠ [])
        (writeConne r.params.connectionsOrder r.params.connections)] =
      [onlyIf (p.elements ≠ []) (writeEleme p.elementsOrder p.elements),
        onlyIf p.coordinates (writeCoord p.elementsOrder p.elements),
        onlyIf (p.connections ≠ []) (writeConne p.connectionsOrder p.connections)]
    rw [f1, f2, f3, f4, f5, a1, a2, a3]
  exact key _ b1.symm b2.symm b3.symm

/-! ### INCON -/

variable {inits : List MeshIncon}

theorem inconFits_spec {c : MeshIncon} (h : MeshInconFits c) : InconFits (inconEntry c) := by
  obtain ⟨h1, -, h3, h4, h5, h6, h7⟩ := inconFits_entry h
  have e1 : (inconEntry c).porosity = (inconEntry' c).porosity := by
    unfold inconEntry inconEntry' inconPhi
    cases c.porosity <;> rfl
  have e2 : (inconEntry c).values = (inconEntry' c).values := rfl
  refine ⟨e1 ▸ h1, by simp [inconEntry], ?_, ?_, e2 ▸ h5, e2 ▸ h6, e2 ▸ h7⟩
  · unfold inconEntry
    cases hu : c.userx with
    | none => simp
    | some u => simpa using (h.2.1 u hu).1
  · unfold inconEntry
    cases hu : c.userx with
    | none => simp
    | some u =>
      intro v hv
      obtain ⟨w, hw, rfl⟩ := List.mem_map.1 (show v ∈ u.map Val.flt from hv)
      exact (h.2.1 u hu).2 w hw

/-- Missing user fields are written as blanks. -/
theorem inconLines_spec (hL : 5 ≤ L ∧ L ≤ 9) {c : MeshIncon} (hk : NameFits L (.str c.label))
    (h : MeshInconFits c) :
    inconLines L (.str c.label, inconEntry c) = inconLines L (.str c.label, inconEntry' c) := by
  have e1 : (inconEntry c).porosity = (inconEntry' c).porosity := by
    unfold inconEntry inconEntry' inconPhi
    cases c.porosity <;> rfl
  have e2 : (inconEntry c).values = (inconEntry' c).values := rfl
  have e3 : Alike (List.replicate 5 (eCol 10 3)) ((inconEntry c).userx.getD [])
      ((inconEntry' c).userx.getD []) := by
    unfold inconEntry inconEntry' inconUserx
    cases c.userx with
    | none => exact alike_nones row_kind (Alike.refl _ []) 3
    | some u => exact Alike.refl _ _
  have hr : writeRecord (inconFmt L) (inconVals (.str c.label) (inconEntry' c)) =
      writeRecord (inconFmt L) (inconVals (.str c.label) (inconEntry c)) :=
    writeRecord_alike (formatFor_incon hL).2.1 (allFit_incon hk (inconFits_spec h))
      ⟨rfl, rfl, rfl, by rw [e1], e3⟩
  have hlo : lineOf (inconFmt L) (inconVals (.str c.label) (inconEntry c)) =
      lineOf (inconFmt L) (inconVals (.str c.label) (inconEntry' c)) := by
    rw [writeRecord_eq (allFit_incon hk (inconFits_entry h)),
      writeRecord_eq (allFit_incon hk (inconFits_spec h))] at hr
    injection hr with hr
    exact hr.symm
  unfold inconLines
  simp only [hlo, e2]

theorem inconKeys (hl : LabelsOk L (inits.map (·.label))) (hs : ∃ c ∈ inits, HasIncon c) :
    LabelsFit L ((inits.filter fun c => decide (HasIncon c)).map fun c => Val.str c.label) := by
  refine labelsFit_wf ⟨hl.lower, hl.upper⟩ ?_
    (fun c hc => hl.formed _ (List.mem_map_of_mem (List.mem_of_mem_filter hc))) ?_
  · exact hl.nodup.sublist (List.filter_sublist.map _)
  · obtain ⟨c, hc, hi⟩ := hs
    exact List.ne_nil_of_mem (List.mem_filter.2 ⟨hc, by simpa using hi⟩)

theorem inconParts_same {p : Params} (hp : GivesIncon inits p)
    (hl : LabelsOk L (inits.map (·.label))) (hf : ∀ c ∈ inits, MeshInconFits c)
    (hn : ∀ c ∈ inits, ∀ v ∈ c.values, NotNegative v) (hs : ∃ c ∈ inits, HasIncon c) :
    ∃ lines lines', meshIncon inits = .ok lines ∧
      concatM id (inconParts p) = .ok lines' ∧ SameFile lines lines' := by
  obtain ⟨m1, -⟩ := meshIncon_eq hl hf hn
  have hk := inconKeys hl hs
  set rows := inits.filter fun c => decide (HasIncon c) with hrows
  have hw : ∀ c ∈ rows, NameFits L (.str c.label) ∧ MeshInconFits c := fun c hc =>
    ⟨wf_name (hl.formed _ (List.mem_map_of_mem (List.mem_of_mem_filter hc))),
      hf c (List.mem_of_mem_filter hc)⟩
  have w1 := writeIncon_eq (L := L) (ics := rows.map fun c => (.str c.label, inconEntry c))
    (by simpa [List.map_map, Function.comp_def] using hk) (fun e hm => by
      obtain ⟨c, hc, rfl⟩ := List.mem_map.1 hm
      exact inconFits_spec (hw c hc).2)
  have hne : p.initialConditions ≠ [] := by
    rw [hp.entries]
    intro h0
    obtain ⟨c, hc, hi⟩ := hs
    exact List.ne_nil_of_mem (List.mem_filter.2 ⟨hc, by simpa using hi⟩) (List.map_eq_nil_iff.1 h0)
  have hparts : inconParts p = [writeIncon none (rows.map fun c => (.str c.label, inconEntry c))] := by
    show [onlyIf (p.initialConditions ≠ []) (writeIncon p.initialConditionsOrder p.initialConditions)] = _
    unfold onlyIf
    rw [if_pos (decide_eq_true hne), hp.entries, hp.order]
  have s1 : SameFile (rows.flatMap (meshInconLines L))
      ((rows.map fun c => ((.str c.label : Val), inconEntry c)).flatMap (inconLines L)) := by
    rw [List.flatMap_map]
    have : ∀ l : List MeshIncon, (∀ c ∈ l, c ∈ rows) →
        SameFile (l.flatMap (meshInconLines L)) (l.flatMap fun c => inconLines L (.str c.label, inconEntry c)) := by
      intro l hm
      induction l with
      | nil => exact .nil
      | cons c l ih =>
        rw [List.flatMap_cons, List.flatMap_cons]
        refine sameFile_append ?_ (ih fun x hx => hm x (by simp [hx]))
        rw [inconLines_spec ⟨hl.lower, hl.upper⟩ (hw c (hm c (by simp))).1 (hw c (hm c (by simp))).2]
        unfold meshInconLines inconLines
        refine .cons (sameLine_record _ _) (.cons (sameLine_record _ _) ?_)
        show SameFile _ (if 4 < (c.values.map inconVal).length then
          [lineOf Fmt.incon0 ((c.values.map inconVal).drop 4)] else [])
        split
        · exact .cons (sameLine_record _ _) .nil
        · exact .nil
    exact this rows fun _ h => h
  rw [hparts]
  refine ⟨_, _, m1, ?_, sameFile_block (headLine "INCON") s1⟩
  simp [w1, concatM, bind, Except.bind]

theorem inconTame_spec {c : MeshIncon} (h : MeshInconTame c) : InconTame (inconEntry c) := by
  obtain ⟨h1, h2, h3⟩ := h
  intro v hv
  simp only [inconEntry, Option.getD_some, List.mem_cons, List.mem_append] at hv
  rcases hv with rfl | hv | hv
  · cases hp : c.porosity with
    | none => trivial
    | some x => exact h1 x hp
  · cases hu : c.userx with
    | none => rw [hu] at hv; simp at hv
    | some u =>
      rw [hu] at hv
      obtain ⟨w, hw, rfl⟩ := List.mem_map.1 (show v ∈ u.map Val.flt from hv)
      exact h2 u hu w hw
  · obtain ⟨w, hw, rfl⟩ := List.mem_map.1 hv
    by_cases hd : IsDefined w
    · rw [if_pos hd]; exact h3 w hw hd
    · rw [if_neg hd]; trivial

theorem inconParts_again {p : Params} (hp : GivesIncon inits p) {n : ℕ}
    (hl : LabelsOk L (inits.map (·.label))) (hv : ∀ c ∈ inits, c.values.length = n)
    (hf : ∀ c ∈ inits, MeshInconFits c) (hs : ∃ c ∈ inits, HasIncon c)
    (ht : ∀ c ∈ inits, MeshInconTame c) :
    inconParts ({ FileRead.empty with initialConditions := some (meshIncons inits) } : FileRead).params =
      inconParts p := by
  have hLm : L ∈ labelLengths := by
    have := hl.lower
    have := hl.upper
    interval_cases L <;> decide
  have hne : p.initialConditions ≠ [] := by
    rw [hp.entries]
    intro h0
    obtain ⟨c, hc, hi⟩ := hs
    exact List.ne_nil_of_mem (List.mem_filter.2 ⟨hc, by simpa using hi⟩) (List.map_eq_nil_iff.1 h0)
  have hrows : ∀ e ∈ p.initialConditions, ∃ c ∈ inits, e = (.str c.label, inconEntry c) := by
    intro e hm
    rw [hp.entries] at hm
    obtain ⟨c, hc, rfl⟩ := List.mem_map.1 hm
    exact ⟨c, List.mem_of_mem_filter hc, rfl⟩
  have hlen : ∀ e ∈ p.initialConditions, (e.2.values.getD []).length = n := by
    intro e hm
    obtain ⟨c, hc, rfl⟩ := hrows e hm
    simpa [inconEntry] using hv c hc
  have hI : InconsOk (some L) p := by
    refine ⟨?_, .inr ⟨L, hLm, ?_, ?_, ?_, .inl rfl⟩⟩
    · rw [hp.order]; rintro o ho; cases ho
    · have := inconKeys hl hs
      rw [hp.entries]
      simpa [List.map_map, Function.comp_def] using this
    · intro e hm
      obtain ⟨c, hc, rfl⟩ := hrows e hm
      exact ⟨wf_inconLabel hl.lower (hl.formed _ (List.mem_map_of_mem hc)), inconFits_spec (hf c hc)⟩
    · rw [hp.order]
      refine List.Pairwise.imp_of_mem (R := fun _ _ => True) ?_ (List.pairwise_of_forall (by simp))
      intro a b ha hb _
      rw [hlen a ha, hlen b hb]
      exact id
  have a1 := again_incon hI (by rw [hp.order]; rintro o ho; cases ho) (by
    intro e hm
    obtain ⟨c, hc, rfl⟩ := hrows e hm
    exact inconTame_spec (ht c hc))
  have b1 : (fileBack p).initialConditions = some (meshIncons inits) := by
    simp only [fileBack, inconsBack, nonEmpty, hne, if_false, hp.order, rowsFor]
    rw [hp.entries]
    simp [meshIncons, List.map_map, Function.comp_def]
  have key : ∀ r : FileRead, r.initialConditions = (fileBack p).initialConditions →
      inconParts r.params = inconParts p := by
    intro r e1
    have f1 : r.params.initialConditions = (fileBack p).params.initialConditions := by
      simp only [FileRead.params, e1]
    have f2 : r.params.initialConditionsOrder = (fileBack p).params.initialConditionsOrder := by
      simp only [FileRead.params, e1]
    show [onlyIf (r.params.initialConditions ≠ [])
        (writeIncon r.params.initialConditionsOrder r.params.initialConditions)] =
      [onlyIf (p.initialConditions ≠ []) (writeIncon p.initialConditionsOrder p.initialConditions)]
    rw [f1, f2, a1]
  exact key _ b1.symm

end Verif.Model
