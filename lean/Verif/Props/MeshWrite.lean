import Verif.Lemmas.MeshWrite
import Verif.Props.Labels
import Verif.Props.File

/-!
# Properties of the files written for a mesh (C61, C62)
-/

set_option linter.unusedSimpArgs false

namespace Verif.Props
open Verif.Py Verif.Model Verif.Spec

/-! ## C61: the MESH file -/

/-- C61, partial (missing: names of materials in `material_name` or `material_end` that
have not been filled up to five characters, see `C61_short_name_violated`). The file
written for a mesh is read back as: every cell under its label, the cells with a
material of `material_end` after the others and otherwise in the order of the mesh, with
the material of `material_name` if there is one, volume (multiplied by 1e50 for cells
with a boundary condition) and centre (with fourteen digits if COORD is written); and
every connection under the labels of its cells with direction, distances, area and
angle. The labels are those of `labeler`, see `C61_labels`. -/
theorem C61_file_partial (given : Option ℕ) (L : ℕ) (hg : given = none ∨ given = some L)
    (names : List (Material × Material)) (ends : List Material) (coord : Bool)
    (cells : List MeshCell) (conns : List MeshConn)
    (hn : ∀ e ∈ names, Filled e.1 ∧ bare e.2 = e.2) (he : ∀ m ∈ ends, Filled m)
    (hl : LabelsOk L (cells.map (·.label))) (hf : ∀ c ∈ cells, CellFits names coord c)
    (hc : ConnsGood L conns) (hcf : ∀ c ∈ conns, MeshConnFits c) :
    ∃ lines, meshFile names ends coord cells conns = .ok lines ∧
      readFile given lines = .ok { FileRead.empty with
        elements := some (meshElems names ends coord cells)
        coordinates := some coord
        connections := some (meshConns conns) } := by
  have hgL : ∀ n ∈ given, 5 ≤ n ∧ n < 10 := by
    have := hl.lower
    have := hl.upper
    rcases hg with rfl | rfl
    · simp
    · intro n hn
      simp at hn
      omega
  have hgiven : ∀ P : Prop, P → (given = some L ∨ given = none ∧ P) := fun P h =>
    hg.elim (fun h' => Or.inr ⟨h', h⟩) Or.inl
  obtain ⟨g1, g2⟩ := elemEntries_fit (names := names) (ends := ends) hl hf
  obtain ⟨m1, m2⟩ := meshEleme_eq hn he hl hf
  have hrows : ∀ e ∈ elemEntries names ends cells, ∃ c ∈ cells, e = (.str c.label, cellElem names c) := by
    intro e hm
    obtain ⟨c, hc, rfl⟩ := List.mem_map.1 hm
    exact ⟨c, mem_fileOrder.1 hc, rfl⟩
  have hok : OrderOk none ((elemEntries names ends cells).map (·.1)) := by
    rintro o ho
    cases ho
  -- ELEME
  obtain ⟨body, w1, r1⟩ := C24_eleme_round_trip_partial L given none (elemEntries names ends cells) g1
    hok g2 (hgiven _ fun e hm => by
      obtain ⟨c, hc, rfl⟩ := hrows e (List.mem_of_mem_head? hm)
      exact wf_detectable (hl.formed _ (List.mem_map_of_mem hc)) (by simp [cellElem, seqText]))
  rw [writeEleme_eq g1 g2] at w1
  injection w1 with w1
  injection w1 with _ w1
  subst w1
  have hE : Chain given (fun _ => True) FileRead.empty [meshEleme names ends cells]
      { FileRead.empty with
        elements := some ((elemEntries names ends cells).map (fun e => (e.1, elemBack e.2)),
          (elemEntries names ends cells).map (·.1))
        coordinates := some false } := by
    refine Chain.block heads_true (kw := "ELEME") (by decide) (by decide) m1 fun rest _ => ?_
    at_head
    rw [trail_readEleme (trail_newline m2) (r1 rest), store, ok_bind]
    rfl
  -- COORD
  have hX : Chain given (fun _ => True)
      { FileRead.empty with
        elements := some ((elemEntries names ends cells).map (fun e => (e.1, elemBack e.2)),
          (elemEntries names ends cells).map (·.1))
        coordinates := some false } [if coord then meshCoord ends cells else .ok []]
      { FileRead.empty with
        elements := some (meshElems names ends coord cells)
        coordinates := some coord } := by
    cases coord with
    | false =>
      have : (⟨(elemEntries names ends cells).map (fun e => (e.1, elemBack e.2)),
          (elemEntries names ends cells).map (·.1)⟩ : Table Elem) =
          meshElems names ends false cells := by
        unfold meshElems
        rw [elemEntries_keys, elemEntries, List.map_map]
        rfl
      rw [this]
      exact Chain.skip rfl
    | true =>
      have hcf : ∀ e ∈ elemEntries names ends cells, CenterFits e.2.center := by
        intro e hm
        obtain ⟨c, hc, rfl⟩ := hrows e hm
        exact centerFits_cell (hf c hc)
      obtain ⟨x1, x2⟩ := meshCoord_eq he hf
      obtain ⟨body, cs, w2, r2, -, hset⟩ := C25_coord_round_trip none (elemEntries names ends cells)
        g1.2.2.1 hok hcf
      rw [writeCoord_eq g1.2.2.1 hcf] at w2
      injection w2 with w2
      injection w2 with _ w2
      subst w2
      refine Chain.block heads_true (kw := "COORD") (by decide) (by decide) x1 fun rest _ => ?_
      at_head
      rw [caseCoord, trail_readCoord (trail_newline x2) (r2 rest), ok_bind]
      simp only [getKey, ok_bind]
      have := hset fun e => elemBack e.2
      simp only [rowsFor] at this
      rw [this, ok_bind]
      have e : (⟨(elemEntries names ends cells).map fun e =>
            (e.1, { elemBack e.2 with center := .list ((centerOf e.2.center).map (num 13)) }),
          (elemEntries names ends cells).map (·.1)⟩ : Table Elem) = meshElems names ends true cells := by
        unfold meshElems
        rw [elemEntries_keys, elemEntries, List.map_map]
        rfl
      rw [e]
  -- CONNE
  have hC : Chain given (fun _ => True)
      { FileRead.empty with
        elements := some (meshElems names ends coord cells)
        coordinates := some coord } [meshConne conns]
      { FileRead.empty with
        elements := some (meshElems names ends coord cells)
        coordinates := some coord
        connections := some (meshConns conns) } := by
    obtain ⟨y1, y2⟩ := meshConne_eq hc hcf
    have k1 := connEntries_fit hc
    have k2 : ∀ e ∈ connEntries conns, ConnFits L e.2 := by
      intro e hm
      obtain ⟨c, hc, rfl⟩ := List.mem_map.1 hm
      exact connFits_conn (hcf c hc)
    obtain ⟨body, w3, r3⟩ := C26_conne_round_trip L given none (connEntries conns) k1
      (by rintro o ho; cases ho) k2 (hgiven _ fun e hm => by
        obtain ⟨c, hc', rfl⟩ := List.mem_map.1 (List.mem_of_mem_head? hm)
        have hw := hc.formed c hc'
        refine ⟨(wf_pair hw.1 hw.2).2.2.1, ?_⟩
        have := hc.lower
        show L < (c.label1 ++ c.label2).length
        rw [List.length_append, hw.1.1, hw.2.1]
        omega)
    rw [writeConne_eq k1 k2] at w3
    injection w3 with w3
    injection w3 with _ w3
    subst w3
    refine Chain.block heads_true (kw := "CONNE") (by decide) (by decide) y1 fun rest _ => ?_
    at_head
    rw [trail_readConne (trail_newline y2) (r3 rest), store, ok_bind]
    have e : (⟨(rowsFor none (connEntries conns)).map (fun e => (e.1, connBack e.2)),
        (rowsFor none (connEntries conns)).map (·.1)⟩ : Table Conn) = meshConns conns := by
      unfold meshConns connEntries rowsFor
      simp only [List.map_map]
      rfl
    rw [e]
  obtain ⟨lines, hw, -, hr⟩ := Chain.cons hE (Chain.cons hX hC)
  refine ⟨lines, ?_, ?_⟩
  · unfold meshFile
    simp only [concatM, id, bind_eq_ok] at hw
    obtain ⟨a, ha, b, ⟨x, hx, y, ⟨z, hz, w, hw', hw''⟩, hy⟩, hb⟩ := hw
    injection hw' with hw'
    injection hw'' with hw''
    injection hy with hy
    subst hw'; subst hw''; subst hy
    rw [ha, ok_bind, hx, ok_bind, hz, ok_bind]
    simpa using hb
  · obtain ⟨b, rfl⟩ := head_of_concat (kw := "ELEME") (fun l hl' => by
      rw [m1] at hl'
      injection hl' with hl'
      exact ⟨_, hl'.symm⟩) lines hw
    have hd := (hr [] trivial).eof
    rw [List.append_nil] at hd
    rw [readFile, if_pos (given_all hgL), readBuffer, readTitle_opener (by decide), ok_bind]
    rw [show ({ FileRead.empty with title := none } : FileRead) = FileRead.empty from rfl, hd]
    rfl

/-- Three cells with labels as generated, two materials and a boundary condition. -/
def threeCells : List MeshCell :=
  [⟨"A1100".toList, .name "SAND".toList, .fin false 1000, true, .fin false 0, .fin true (5 / 2), .fin false 0⟩,
    ⟨"A1101".toList, .name "CLAYS".toList, .fin false 20, false, .fin false 1, .fin true (5 / 2), .fin false 0⟩,
    ⟨"A1102".toList, .number 7, .fin false (1 / 3), false, .fin false 2, .fin true (5 / 2), .fin false 0⟩]

/-- Their connections. -/
def twoConns : List MeshConn :=
  [⟨"A1100".toList, "A1101".toList, 1, .fin false (1 / 2), .fin false (1 / 2), .fin false 1, .fin false 0⟩,
    ⟨"A1101".toList, "A1102".toList, 1, .fin false (1 / 2), .fin false (1 / 2), .fin false 1, .fin true 0⟩]

/-- Labels of cells, to check that a text is well formed. -/
theorem wellFormed_of {L : ℕ} {a b c : Char} {d : Str} (hl : (a :: b :: c :: d).length = L)
    (h : IsUpper a ∧ (IsPosDigit b ∨ IsUpper b) ∧ (IsPosDigit c ∨ IsUpper c) ∧ ∀ x ∈ d, IsDec x) :
    WellFormed L (a :: b :: c :: d) := ⟨hl, a, b, c, d, rfl, h⟩

theorem threeCells_formed : ∀ s ∈ ["A1100".toList, "A1101".toList, "A1102".toList], WellFormed 5 s := by
  intro s hs
  simp only [List.mem_cons, List.not_mem_nil, or_false] at hs
  rcases hs with rfl | rfl | rfl <;>
    exact wellFormed_of rfl (by unfold IsUpper IsPosDigit IsDec; decide)

example : let names := [(Material.name "CLAYS".toList, Material.name "ROCK".toList)]
    let ends := [Material.name "SAND ".toList]
    (∀ e ∈ names, Filled e.1 ∧ bare e.2 = e.2) ∧ (∀ m ∈ ends, Filled m) ∧
      LabelsOk 5 (threeCells.map (·.label)) ∧ (∀ c ∈ threeCells, CellFits names true c) ∧
      ConnsGood 5 twoConns ∧ (∀ c ∈ twoConns, MeshConnFits c) ∧
      (fileOrder ends threeCells).map (·.label) =
        ["A1101".toList, "A1102".toList, "A1100".toList] := by
  refine ⟨by decide, by decide, ⟨by decide, by decide, by decide, threeCells_formed, by decide⟩,
    by decide +kernel, ⟨by decide, by decide, by decide, ?_, by decide⟩, by decide +kernel,
    by decide⟩
  intro c hc
  have := threeCells_formed
  simp only [twoConns, List.mem_cons, List.not_mem_nil, or_false] at hc
  rcases hc with rfl | rfl
  · exact ⟨this _ (by simp), this _ (by simp)⟩
  · exact ⟨this _ (by simp), this _ (by simp)⟩

/-- C61. The labels that a mesh of up to 31850000000 cells is given (`labeler`) are as
required above. -/
theorem C61_labels (n : ℕ) (hn : 0 < n) (hc : n ≤ capacity 9) :
    ∃ L ls, labeler n none = .ok ls ∧ ls.length = n ∧ LabelsOk L ls := by
  have h10 : capacity 9 ≤ capacity 10 := by decide
  obtain ⟨h5, h6, h7⟩ := C35_minimal n (hc.trans h10)
  obtain ⟨ls, h1, h2, h3, h4⟩ := C35_labels n (hc.trans h10)
  refine ⟨autoLength n, ls, h1, h2, h5, h7 9 (by decide) hc, h3, h4, ?_⟩
  rintro rfl
  simp at h2
  omega

example : (0 : ℕ) < 3185001 ∧ 3185001 ≤ capacity 9 := by decide

/-- C61, violated. A name shorter than five characters in `material_name` or
`material_end` is never found, because it is compared with the name of the cell's
material filled up to five characters: whatever the mesh, the file is the same as
without it. -/
theorem C61_short_name_violated (s : Str) (h : s.length < 5) (v : Material) (coord : Bool)
    (cells : List MeshCell) (conns : List MeshConn) :
    meshFile [(.name s, v)] [] coord cells conns = meshFile [] [] coord cells conns ∧
    meshFile [] [.name s] coord cells conns = meshFile [] [] coord cells conns := by
  have hne : ∀ m : Material, padMaterial m ≠ .name s := by
    intro m hm
    cases m with
    | name t =>
      simp only [padMaterial, Material.name.injEq] at hm
      have := congrArg List.length hm
      rw [padRight_length] at this
      omega
    | number i => cases hm
  have hr : ∀ m, renameMaterial [(.name s, v)] (padMaterial m) = renameMaterial [] (padMaterial m) := by
    intro m
    have : (padMaterial m == Material.name s) = false := beq_eq_false_iff_ne.2 (hne m)
    simp [renameMaterial, List.lookup_cons, this]
  have he : ∀ (rec : MeshCell → Except PyErr Str) recs, cells.mapM (withMaterial rec) = .ok recs →
      endLast [.name s] recs = endLast [] recs := by
    intro rec recs hm
    have hx : ∀ r ∈ recs, r.1 ≠ .name s := by
      intro r hr
      obtain ⟨c, -, hc⟩ : ∃ c ∈ cells, withMaterial rec c = .ok r := by
        have hf := mapM_eq_ok hm
        clear * - hf hr
        induction hf with
        | nil => cases hr
        | cons h1 _ ih =>
          rcases List.mem_cons.1 hr with rfl | hr
          · exact ⟨_, List.mem_cons_self, h1⟩
          · obtain ⟨c, hc, h⟩ := ih hr
            exact ⟨c, List.mem_cons_of_mem _ hc, h⟩
      obtain ⟨t, -, e⟩ := bind_eq_ok.1 hc
      injection e with e
      subst e
      exact hne _
    unfold endLast
    congr 1
    congr 1
    · apply List.filter_congr
      intro r hr
      simp [hx r hr]
    · apply List.filter_congr
      intro r hr
      simp [hx r hr]
  constructor
  · have : ∀ fmt, elemeRecord [(.name s, v)] fmt = elemeRecord [] fmt := by
      intro fmt
      funext c
      unfold elemeRecord
      rw [hr]
    unfold meshFile meshEleme
    simp only [this]
  · have e1 : meshEleme [] [.name s] cells = meshEleme [] [] cells := by
      unfold meshEleme
      cases cells with
      | nil => rfl
      | cons c cs =>
        simp only
        congr 1
        cases formatFor Fmt.eleme c.label.length with
        | error e => rfl
        | ok fmt =>
          simp only [ok_bind]
          cases hm : (c :: cs).mapM (withMaterial (elemeRecord [] fmt)) with
          | error e => rfl
          | ok recs => simp only [ok_bind, he _ recs hm]
    have e2 : meshCoord [.name s] cells = meshCoord [] cells := by
      unfold meshCoord
      congr 1
      cases hm : cells.mapM (withMaterial coordRecord) with
      | error e => rfl
      | ok recs => simp only [ok_bind, he _ recs hm]
    unfold meshFile
    rw [e1, e2]

example : "SAND".toList.length < 5 ∧
    fileOrder [.name "SAND".toList] threeCells ≠ fileOrder [] threeCells ∧
    shownMaterial [(.name "SAND".toList, .name "ROCK".toList)] (.name "SAND".toList) =
      .name "ROCK".toList := by decide

/-- C61. A mesh without connections cannot be written. -/
theorem C61_no_connection (names : List (Material × Material)) (ends : List Material) (coord : Bool)
    (cells : List MeshCell) (lines : List Str) :
    meshFile names ends coord cells [] ≠ .ok lines := by
  intro h
  unfold meshFile at h
  obtain ⟨a, -, h⟩ := bind_eq_ok.1 h
  obtain ⟨b, -, h⟩ := bind_eq_ok.1 h
  obtain ⟨c, h, -⟩ := bind_eq_ok.1 h
  cases h

/-! ## C62: the INCON file -/

/-- C62, partial (missing: cells whose defined primary variables are all negative, which
are left out, see `C62_negative_violated`; cells with more than four primary variables
none of which is defined after the fourth, see `C62_blank_third_violated`). The file
written for a mesh is read back as: every cell of which something is known, in the order
of the mesh, under its label with porosity, user fields and primary variables, where an
undefined variable is missing. -/
theorem C62_file_partial (given : Option ℕ) (L : ℕ) (hg : given = none ∨ given = some L)
    (cells : List MeshIncon) (n : ℕ) (hl : LabelsOk L (cells.map (·.label)))
    (hv : ∀ c ∈ cells, c.values.length = n) (hf : ∀ c ∈ cells, MeshInconFits c)
    (hn : ∀ c ∈ cells, ∀ v ∈ c.values, NotNegative v) (hs : ∃ c ∈ cells, HasIncon c) :
    ∃ lines, meshIncon cells = .ok lines ∧
      readFile given lines =
        .ok { FileRead.empty with initialConditions := some (meshIncons cells) } := by
  have hgL : ∀ n ∈ given, 5 ≤ n ∧ n < 10 := by
    have := hl.lower
    have := hl.upper
    rcases hg with rfl | rfl
    · simp
    · intro n hn
      simp at hn
      omega
  have hw : ∀ c ∈ cells, WellFormed L c.label := fun c hc => hl.formed _ (List.mem_map_of_mem hc)
  obtain ⟨m1, m2⟩ := meshIncon_eq hl hf hn
  have hrows : ∀ e ∈ inconEntries cells, ∃ c ∈ cells, e = (.str c.label, inconEntry' c) := by
    intro e hm
    obtain ⟨c, hc, rfl⟩ := List.mem_map.1 hm
    exact ⟨c, List.mem_of_mem_filter hc, rfl⟩
  have hkeys : (inconEntries cells).map (·.1) =
      (cells.filter fun c => decide (HasIncon c)).map fun c => Val.str c.label := by
    simp [inconEntries, Function.comp_def]
  have g1 : LabelsFit L ((inconEntries cells).map (·.1)) := by
    rw [hkeys]
    refine labelsFit_wf ⟨hl.lower, hl.upper⟩ ?_ (fun c hc => hw c (List.mem_of_mem_filter hc)) ?_
    · exact hl.nodup.sublist (List.filter_sublist.map _)
    · obtain ⟨c, hc, hi⟩ := hs
      exact List.ne_nil_of_mem (List.mem_filter.2 ⟨hc, by simpa using hi⟩)
  have g2 : ∀ e ∈ inconEntries cells, InconFits e.2 := by
    intro e hm
    obtain ⟨c, hc, rfl⟩ := hrows e hm
    exact inconFits_entry (hf c hc)
  have hlen : ∀ e ∈ inconEntries cells, (e.2.values.getD []).length = n := by
    intro e hm
    obtain ⟨c, hc, rfl⟩ := hrows e hm
    simpa [inconEntry'] using hv c hc
  obtain ⟨body, w1, r1⟩ := C27_incon_round_trip_partial L given none (inconEntries cells) g1
    (by
      intro e hm
      obtain ⟨c, hc, rfl⟩ := hrows e hm
      exact wf_inconLabel hl.lower (hw c hc))
    (by rintro o ho; cases ho) g2
    (by
      refine List.Pairwise.imp_of_mem (R := fun _ _ => True) ?_ (List.pairwise_of_forall (by simp))
      intro a b ha hb _
      rw [hlen a ha, hlen b hb]
      exact id)
    (by
      rcases hg with rfl | rfl
      · refine Or.inr ⟨rfl, fun e hm => ?_⟩
        obtain ⟨c, hc, rfl⟩ := hrows e (List.mem_of_mem_head? hm)
        exact wf_detectable (hw c hc) (by simp)
      · exact Or.inl rfl)
  rw [writeIncon_eq g1 g2] at w1
  injection w1 with w1
  injection w1 with _ w1
  subst w1
  have hI : Chain given (fun _ => True) FileRead.empty [meshIncon cells]
      { FileRead.empty with initialConditions := some (meshIncons cells) } := by
    refine Chain.block heads_true (kw := "INCON") (by decide) (by decide) m1 fun rest _ => ?_
    at_head
    rw [trail_readIncon (trail_newline m2) (r1 rest), store, ok_bind]
    have e : (⟨(rowsFor none (inconEntries cells)).map (fun e => (e.1, inconBack e.2)),
        (rowsFor none (inconEntries cells)).map (·.1)⟩ : Table Incon) = meshIncons cells := by
      unfold meshIncons inconEntries rowsFor
      simp only [List.map_map, Function.comp_def, inconBack_entry]
    rw [e]
  obtain ⟨lines, hw, -, hr⟩ := hI
  refine ⟨lines, ?_, ?_⟩
  · simp only [concatM, id, bind_eq_ok] at hw
    obtain ⟨a, ha, b, hb, hc⟩ := hw
    injection hb with hb
    subst hb
    rw [ha]
    simpa using hc
  · obtain ⟨b, rfl⟩ := head_of_concat (kw := "INCON") (fun l hl' => by
      rw [m1] at hl'
      injection hl' with hl'
      exact ⟨_, hl'.symm⟩) lines hw
    have hd := (hr [] trivial).eof
    rw [List.append_nil] at hd
    rw [readFile, if_pos (given_all hgL), readBuffer, readTitle_opener (by decide), ok_bind]
    rw [show ({ FileRead.empty with title := none } : FileRead) = FileRead.empty from rfl, hd]
    rfl

/-- A value of a primary variable that is not defined. -/
def undefinedVar : Flt := .fin true (10 ^ 9)

/-- Cells with five primary variables, one without any. -/
def threeIncons : List MeshIncon :=
  [⟨"A1100".toList, [.fin false 100000, undefinedVar, .fin false 20, undefinedVar, .fin false 1], none,
      some [.fin false (1 / 10)]⟩,
    ⟨"A1101".toList, List.replicate 4 undefinedVar ++ [.fin false (1 / 3)], some (.fin false (1 / 5)), none⟩,
    ⟨"A1102".toList, [.fin false 7, undefinedVar, undefinedVar, undefinedVar, .fin false 0], none, none⟩]

example : LabelsOk 5 (threeIncons.map (·.label)) ∧ (∀ c ∈ threeIncons, c.values.length = 5) ∧
    (∀ c ∈ threeIncons, MeshInconFits c) ∧ (∀ c ∈ threeIncons, ∀ v ∈ c.values, NotNegative v) ∧
    (∃ c ∈ threeIncons, HasIncon c) :=
  ⟨⟨by decide, by decide, by decide, threeCells_formed, by decide⟩, by decide, by decide +kernel,
    by decide +kernel, by decide +kernel⟩

/-- C62, violated. A cell without porosity and user fields whose primary variables are
all at most -1e-9 is left out, although such variables are defined. -/
theorem C62_negative_violated (n : ℕ) (c : MeshIncon) (h1 : c.porosity = none) (h2 : c.userx = none)
    (h3 : ∀ v ∈ c.values, gtNeg (rnd64q (1 / 10 ^ 9)) v = false) : inconRow n c = .ok [] := by
  have : c.values.any (gtNeg (rnd64q (1 / 10 ^ 9))) = false := by
    rw [List.any_eq_false]
    intro v hv
    rw [h3 v hv]
    decide
  have hw : inconWritten c = false := by
    unfold inconWritten
    rw [this, h1, h2]
    rfl
  unfold inconRow
  rw [hw]
  rfl

example : let c : MeshIncon := ⟨"A1100".toList, [.fin true 5, .fin true (1 / 2)], none, none⟩
    c.porosity = none ∧ c.userx = none ∧
      (∀ v ∈ c.values, gtNeg (rnd64q (1 / 10 ^ 9)) v = false) ∧ HasIncon c := by
  decide +kernel

/-- C62, violated. If the primary variables after the fourth are not defined, the blank
third record ends the block for the reader: the second cell of this file is lost. -/
theorem C62_blank_third_violated : ∃ (cells : List MeshIncon) (lines : List Str),
    meshIncon cells = .ok lines ∧ cells.length = 2 ∧ (∀ c ∈ cells, HasIncon c) ∧
      ∃ s t, readFile none lines = .ok s ∧ s.initialConditions = some t ∧ t.2 = [.str "A1100".toList] := by
  let c1 : MeshIncon := ⟨"A1100".toList, .fin false 1 :: List.replicate 4 undefinedVar, none, none⟩
  let c2 : MeshIncon := ⟨"A1101".toList, List.replicate 5 (.fin false 1), none, none⟩
  let lines := headLine "INCON" :: (meshInconLines 5 c1 ++ meshInconLines 5 c2 ++ [['\n']])
  refine ⟨[c1, c2], lines, by decide +kernel, rfl, by decide +kernel, ?_⟩
  have this : (readFile none lines).map (fun s => s.initialConditions.map (·.2)) =
    .ok (some [.str "A1100".toList]) := by decide +kernel
  cases h : readFile none lines with
  | error e => rw [h] at this; cases this
  | ok s =>
    rw [h] at this
    simp only [Except.map] at this
    injection this with this
    cases hi : s.initialConditions with
    | none => rw [hi] at this; cases this
    | some t =>
      rw [hi] at this
      injection this with this
      exact ⟨s, t, rfl, hi, this⟩

/-- C62. If no primary variable is given, no INCON file is written, even if porosities
or permeabilities are given. -/
theorem C62_not_wanted (names : List (Material × Material)) (ends : List Material)
    (coord incon : Bool) (cells : List MeshCell) (conns : List MeshConn) (ics : List MeshIncon)
    (h : ∀ c ∈ ics, ∀ v ∈ c.values, v = .fin true (10 ^ 9)) :
    meshFiles names ends coord incon cells conns ics =
      (meshFile names ends coord cells conns).map fun m => (m, none) := by
  have : checkIncon incon ics = false := by
    unfold checkIncon
    rw [Bool.and_eq_false_iff]
    right
    rw [Bool.not_eq_false', List.all_eq_true]
    intro c hc
    rw [List.all_eq_true]
    intro v hv
    simpa using h c hc v hv
  unfold meshFiles
  rw [this]
  cases meshFile names ends coord cells conns <;> rfl

/-- C62. Otherwise INCON is written if it is asked for. -/
theorem C62_wanted (names : List (Material × Material)) (ends : List Material)
    (coord : Bool) (cells : List MeshCell) (conns : List MeshConn) (ics : List MeshIncon)
    (h : ∃ c ∈ ics, ∃ v ∈ c.values, v ≠ .fin true (10 ^ 9)) (m i : List Str)
    (hm : meshFile names ends coord cells conns = .ok m) (hi : meshIncon ics = .ok i) :
    meshFiles names ends coord true cells conns ics = .ok (m, some i) ∧
      meshFiles names ends coord false cells conns ics = .ok (m, none) := by
  have : checkIncon true ics = true := by
    unfold checkIncon
    obtain ⟨c, hc, v, hv, hne⟩ := h
    rw [Bool.true_and, Bool.not_eq_true', List.all_eq_false]
    refine ⟨c, hc, ?_⟩
    rw [Bool.not_eq_true, List.all_eq_false]
    exact ⟨v, hv, by simpa using hne⟩
  unfold meshFiles
  rw [this, hm, hi]
  exact ⟨rfl, rfl⟩

example : (∃ c ∈ threeIncons, ∃ v ∈ c.values, v ≠ Flt.fin true (10 ^ 9)) ∧
    ∀ c ∈ [(⟨"A1100".toList, [undefinedVar], some (.fin false 1), none⟩ : MeshIncon)],
      ∀ v ∈ c.values, v = Flt.fin true (10 ^ 9) := by
  decide +kernel

end Verif.Props
