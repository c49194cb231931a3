import Verif.Lemmas.MeshTough
import Verif.Lemmas.ReadOutput
import Verif.Props.Geometry
import Verif.Props.MeshWrite

/-!
# C80: writing a mesh for TOUGH
-/

namespace Verif.Props
open Verif.Py Verif.Model Verif.Mesh Verif.Spec

/-- From the rows of the connections to the lines of the files. -/
theorem write_of {D : Type} {fl : ℝ → Flt} {a : ToughArgs} {m : Mesh.Mesh ℝ D} {fs : List (List (List ℕ))}
    {mats : Option (List ℤ)} {boundary : Option (List Bool)} {inconData : List (Str × Arr)} {incon : Option (List Str)}
    {volsOf : Except PyErr (List ℝ)} {areasOf : List (List (List ℕ)) → Except PyErr (List (List ℝ))} {vols : List ℝ}
    {nodes : List (P3 ℝ)} {normals : List (List (P3 ℝ))} {areas : List (List ℝ)} {rows : List ConnRow}
    (hfs : faces m.cells = .ok fs) (hd : ∀ c ∈ allCells m.cells, c.Nodup) (hp : ProperFaces fs)
    (hc : ∃ i j, Neighbours fs i j) (hn : nCells m.cells ≤ capacity 9)
    (hmats : ∀ l, mats = some l → l.length = nCells m.cells)
    (hbounds : ∀ l, boundary = some l → l.length = nCells m.cells)
    (hnames : ∀ e ∈ a.names, Filled e.1 ∧ bare e.2 = e.2) (hends : ∀ x ∈ a.ends, Filled x)
    (hincon : meshInconFile a.incon (nCells m.cells) none inconData = .ok incon)
    (hvols : volsOf = .ok vols) (hvl : vols.length = nCells m.cells)
    (hnodes : centers m = .ok nodes) (hnl : nodes.length = nCells m.cells)
    (hnormals : faceNormals m.points fs = .ok normals) (hareas : areasOf fs = .ok areas)
    (hr : connRowsOf a.nodal m.points nodes fs normals areas
      (boundary.getD (List.replicate (nCells m.cells) false)) = .ok rows)
    (hr1 : rows.map (fun r => (r.cell1, r.cell2)) =
      (writtenConnections (connectionsOf fs)).map (fun w => (w.1, w.2.1)))
    (hr2 : ∀ r ∈ rows, r.cell1 < nCells m.cells ∧ r.cell2 < nCells m.cells) :
    ∃ (labels : List Str) (cells : List MeshCell) (conns : List MeshConn),
      labeler (nCells m.cells) none = .ok labels ∧ cells.map (·.label) = labels ∧
      (∀ (i : ℕ) c, cells[i]? = some c →
        (materialList (materials (nCells m.cells) mats m.fieldData))[i]? = some c.material ∧
        (∃ v, vols[i]? = some v ∧ c.volume = fl v) ∧
        (boundary.getD (List.replicate (nCells m.cells) false))[i]? = some c.bound ∧
        ∃ p, nodes[i]? = some p ∧ c.x = fl p.x ∧ c.y = fl p.y ∧ c.z = fl p.z) ∧
      (conns.map fun c => (c.label1, c.label2)).Nodup ∧
      (∀ l1 l2, (l1, l2) ∈ conns.map (fun c => (c.label1, c.label2)) ↔
        ∃ i j, Neighbours fs i j ∧ labels[i]? = some l1 ∧ labels[j]? = some l2) ∧
      List.Forall₂ (fun r (c : MeshConn) => labels[r.cell1]? = some c.label1 ∧ labels[r.cell2]? = some c.label2 ∧
        c.isot = r.isot ∧ c.d1 = fl r.d1 ∧ c.d2 = fl r.d2 ∧ c.area = fl r.area ∧ c.angle = fl r.angle) rows conns ∧
      ((∀ c ∈ cells, CellFits a.names a.coord c) → (∀ c ∈ conns, MeshConnFits c) →
        ∃ lines, writeToughOf fl a m volsOf areasOf none mats boundary inconData = .ok (lines, incon) ∧
          readFile none lines = .ok { FileRead.empty with
            elements := some (meshElems a.names a.ends a.coord cells)
            coordinates := some a.coord
            connections := some (meshConns conns) }) := by
  have hrows := faces_rows hfs
  have hlen : fs.length = nCells m.cells := by
    rw [← hrows.length_eq, typedCells_length]
  have hpos : 0 < nCells m.cells := by
    obtain ⟨i, j, -, a', b, -, f, g, ⟨row, hr, -⟩, -⟩ := hc
    rw [← hlen]
    exact lt_of_le_of_lt (Nat.zero_le i) (List.getElem?_eq_some_iff.1 hr).1
  obtain ⟨L, labels, hl1, hl2, hl3⟩ := C61_labels _ hpos hn
  generalize hbd : boundary.getD (List.replicate (nCells m.cells) false) = bounds at hr ⊢
  have hbl : bounds.length = nCells m.cells := by
    subst hbd
    cases boundary with
    | none => simp
    | some l => exact hbounds l rfl
  generalize hmt : materialList (materials (nCells m.cells) mats m.fieldData) = ms
  have hml : ms.length = nCells m.cells := by
    subst hmt
    cases mats with
    | none => simp [materials, materialList]
    | some l =>
      have hl := hmats l rfl
      unfold materials
      simp only
      split
      · split
        · rename_i l' hl'
          have := (mapM_eq_ok hl').length_eq
          simp only [materialList, List.length_map]
          omega
        · simpa [materialList] using hl
      · simpa [materialList] using hl
  obtain ⟨hcl, hcc⟩ := toughCells_ok (fl := fl) hl2 hml hvl hbl hnl
  obtain ⟨hpn, hpm⟩ := C42_pairs_once m.cells fs hfs hd hp.two hp.once
  have hrow : ∀ r ∈ rows, ∃ l1 l2, labels[r.cell1]? = some l1 ∧ labels[r.cell2]? = some l2 := by
    intro r hr'
    obtain ⟨i1, i2⟩ := hr2 r hr'
    exact ⟨_, _, List.getElem?_eq_getElem (by omega), List.getElem?_eq_getElem (by omega)⟩
  obtain ⟨conns, hconns⟩ := mapM_exists (f := toughConn fl labels) (xs := rows) (by
    intro r hr'
    obtain ⟨l1, l2, g1, g2⟩ := hrow r hr'
    unfold toughConn
    rw [itemAt_some g1, itemAt_some g2]
    exact ⟨_, rfl⟩)
  have hrc : List.Forall₂ (fun r (c : MeshConn) => labels[r.cell1]? = some c.label1 ∧ labels[r.cell2]? = some c.label2 ∧
      c.isot = r.isot ∧ c.d1 = fl r.d1 ∧ c.d2 = fl r.d2 ∧ c.area = fl r.area ∧ c.angle = fl r.angle) rows conns := by
    refine forall₂_mem (mapM_eq_ok hconns) fun r c hr' hrc => ?_
    obtain ⟨l1, l2, g1, g2⟩ := hrow r hr'
    unfold toughConn at hrc
    rw [itemAt_some g1, itemAt_some g2] at hrc
    cases hrc
    exact ⟨g1, g2, rfl, rfl, rfl, rfl, rfl⟩
  have hinj : ∀ (i j : ℕ) l, labels[i]? = some l → labels[j]? = some l → i = j := by
    intro i j l g1 g2
    have i1 := (List.getElem?_eq_some_iff.1 g1).1
    exact (List.getElem?_inj i1 hl3.nodup).1 (g1.trans g2.symm)
  have hpairs : ∀ l1 l2, (l1, l2) ∈ conns.map (fun c => (c.label1, c.label2)) ↔
      ∃ i j, Neighbours fs i j ∧ labels[i]? = some l1 ∧ labels[j]? = some l2 := by
    intro l1 l2
    constructor
    · intro hx
      obtain ⟨c, hc', he⟩ := List.mem_map.1 hx
      obtain ⟨r, hr', g1, g2, -⟩ := forall₂_mem_right hrc hc'
      cases he
      refine ⟨r.cell1, r.cell2, (hpm _ _).1 ?_, g1, g2⟩
      rw [← hr1]
      exact List.mem_map.2 ⟨r, hr', rfl⟩
    · rintro ⟨i, j, hij, g1, g2⟩
      have := (hpm i j).2 hij
      rw [← hr1] at this
      obtain ⟨r, hr', he⟩ := List.mem_map.1 this
      cases he
      obtain ⟨c, hc', k1, k2, -⟩ := forall₂_mem_left hrc hr'
      refine List.mem_map.2 ⟨c, hc', ?_⟩
      rw [g1] at k1
      rw [g2] at k2
      cases k1
      cases k2
      rfl
  have hnod : (conns.map fun c => (c.label1, c.label2)).Nodup := by
    have hq : (rows.map fun r => (r.cell1, r.cell2)).Nodup := hr1 ▸ hpn
    clear hpairs hconns
    clear hr hr1 hr2 hrow
    induction hrc with
    | nil => exact List.nodup_nil
    | @cons r c rows conns hx hf ih =>
      rw [List.map_cons, List.nodup_cons] at hq ⊢
      refine ⟨fun hmem => ?_, ih hq.2⟩
      obtain ⟨c', hc', he⟩ := List.mem_map.1 hmem
      obtain ⟨r', hr', k1, k2, -⟩ := forall₂_mem_right hf hc'
      simp only [Prod.mk.injEq] at he
      rw [he.1] at k1
      rw [he.2] at k2
      apply hq.1
      rw [hinj _ _ _ hx.1 k1, hinj _ _ _ hx.2.1 k2]
      exact List.mem_map.2 ⟨r', hr', rfl⟩
  refine ⟨labels, toughCells fl labels ms vols bounds nodes, conns, hl1, hcl, hcc, hnod, hpairs, hrc, ?_⟩
  intro hf1 hf2
  have hgood : ConnsGood L conns := by
    refine ⟨hl3.lower, hl3.upper, hnod, ?_, ?_⟩
    · intro c hc'
      obtain ⟨r, -, g1, g2, -⟩ := forall₂_mem_right hrc hc'
      exact ⟨hl3.formed _ (List.mem_of_getElem? g1), hl3.formed _ (List.mem_of_getElem? g2)⟩
    · rintro rfl
      obtain ⟨i, j, hij⟩ := hc
      have := (hpm i j).2 hij
      rw [← hr1, List.forall₂_nil_right_iff.1 hrc] at this
      simp at this
  obtain ⟨lines, k1, k2⟩ := C61_file_partial none L (.inl rfl) a.names a.ends a.coord
    (toughCells fl labels ms vols bounds nodes) conns hnames hends (hcl.symm ▸ hl3) hf1 hgood hf2
  refine ⟨lines, ?_, k2⟩
  unfold writeToughOf
  simp only
  rw [hl1, ok_bind, hnodes, ok_bind, hvols, ok_bind, hfs, ok_bind, hnormals, ok_bind, hareas, ok_bind, hincon, ok_bind, hbd, if_neg (not_not.2 hbl),
    hr, ok_bind, hconns, ok_bind, hmt, k1]
  rfl

/-- C80, partial (missing as in C61: names that are not filled up to five characters). The MESH
file of a mesh with two neighbouring cells is read back as: an element for each cell, under the
label generated for it, with its material, volume and centre, and a connection for each pair of
neighbours, and for no other, under their labels, with the quantities of the common face. -/
theorem C80_write_partial {D : Type} (fl : ℝ → Flt) (a : ToughArgs) (m : Mesh.Mesh ℝ D) (fs : List (List (List ℕ)))
    (mats : Option (List ℤ)) (boundary : Option (List Bool)) (inconData : List (Str × Arr)) (incon : Option (List Str))
    (hm : SolidMesh m.points m.cells) (hfs : faces m.cells = .ok fs) (hp : ProperFaces fs)
    (hc : ∃ i j, Neighbours fs i j) (hn : nCells m.cells ≤ capacity 9)
    (hmats : ∀ l, mats = some l → l.length = nCells m.cells)
    (hbounds : ∀ l, boundary = some l → l.length = nCells m.cells)
    (hnames : ∀ e ∈ a.names, Filled e.1 ∧ bare e.2 = e.2) (hends : ∀ x ∈ a.ends, Filled x)
    (hincon : meshInconFile a.incon (nCells m.cells) none inconData = .ok incon) :
    ∃ (labels : List Str) (vols : List ℝ) (cells : List MeshCell) (conns : List MeshConn),
      let bounds := boundary.getD (List.replicate (nCells m.cells) false)
      labeler (nCells m.cells) none = .ok labels ∧ volumes m = .ok vols ∧ cells.map (·.label) = labels ∧
      (∀ (i : ℕ) c, cells[i]? = some c → CellOf fl m.points m.cells
        (materialList (materials (nCells m.cells) mats m.fieldData)) vols bounds i c) ∧
      (conns.map fun c => (c.label1, c.label2)).Nodup ∧
      (∀ l1 l2, (l1, l2) ∈ conns.map (fun c => (c.label1, c.label2)) ↔
        ∃ i j, Neighbours fs i j ∧ labels[i]? = some l1 ∧ labels[j]? = some l2) ∧
      (∀ c ∈ conns, ConnOf fl a.nodal m.points m.cells fs labels bounds c) ∧
      ((∀ c ∈ cells, CellFits a.names a.coord c) → (∀ c ∈ conns, MeshConnFits c) →
        ∃ lines, writeTough fl a m none mats boundary inconData = .ok (lines, incon) ∧
          readFile none lines = .ok { FileRead.empty with
            elements := some (meshElems a.names a.ends a.coord cells)
            coordinates := some a.coord
            connections := some (meshConns conns) }) := by
  have hrows := faces_rows hfs
  have hlen : fs.length = nCells m.cells := by
    rw [← hrows.length_eq, typedCells_length]
  have hd : ∀ c ∈ allCells m.cells, c.Nodup := by
    intro c hc
    rw [allCells_typed] at hc
    obtain ⟨tc, htc, rfl⟩ := List.mem_map.1 hc
    exact hm.distinct tc htc
  have hv : ValidCells m.points m.cells := by
    intro c hc
    rw [allCells_typed] at hc
    obtain ⟨tc, htc, rfl⟩ := List.mem_map.1 hc
    refine ⟨?_, hm.inside tc htc⟩
    obtain ⟨ps, h1, h2⟩ := hm.solid tc htc
    intro h0
    rw [h0] at h2
    have : ps = [] := List.eq_nil_of_length_eq_zero h2
    subst this
    generalize tc.1 = ty at h1
    cases ty <;> simp [reference] at h1
  obtain ⟨vols, hvols⟩ := volumes_exist hm
  obtain ⟨nodes, hnodes⟩ := centers_total hm.any hv
  have hcen := centers_ok (fun c hc => (hv c hc).1) hnodes
  have hall : (allCells m.cells).length = nCells m.cells := by
    rw [allCells_typed, List.length_map, typedCells_length]
  have hnl : nodes.length = nCells m.cells := by rw [← hcen.length_eq, hall]
  have hvl : vols.length = nCells m.cells := by
    rw [(Lemmas.volumes_parts hvols).1, ← hall]
    rfl
  generalize hbd : boundary.getD (List.replicate (nCells m.cells) false) = bounds
  have hbl : bounds.length = nCells m.cells := by
    subst hbd
    cases boundary with
    | none => simp
    | some l => exact hbounds l rfl
  obtain ⟨hpn, hpm⟩ := C42_pairs_once m.cells fs hfs hd hp.two hp.once
  have hws : writtenConnections (connectionsOf fs) ≠ [] := by
    intro h0
    obtain ⟨i, j, hij⟩ := hc
    have := (hpm i j).2 hij
    rw [h0] at this
    simp at this
  have hinside : ∀ row ∈ fs, ∀ f ∈ row, ∀ v ∈ f, v < m.points.length := by
    intro row hr f hf v hv'
    obtain ⟨tc, htc, t, -, h2⟩ := forall₂_mem_right hrows hr
    obtain ⟨idx, -, h3⟩ := forall₂_mem_right h2 hf
    obtain ⟨k, -, h4⟩ := forall₂_mem_right (rowsAt_ok h3) hv'
    exact hm.inside tc htc v (List.mem_of_getElem? h4)
  obtain ⟨rows, hr⟩ := C59_total_partial a.nodal m.cells fs hfs hd m.points nodes bounds hinside (hnl.trans hlen.symm)
    (hbl.trans hlen.symm) hws
  obtain ⟨hr1, hr2⟩ := C59_rows a.nodal m.cells fs hfs hd m.points nodes bounds rows hr
  have hrr := hr
  unfold conneRows at hrr
  obtain ⟨normals, hnormals, hrr⟩ := bind_eq_ok.1 hrr
  obtain ⟨areas, hareas, hrr⟩ := bind_eq_ok.1 hrr
  obtain ⟨labels, cells, conns, k1, k2, k3, k4, k5, k6, k7⟩ := write_of (areasOf := faceAreas m.points) hfs hd hp hc hn hmats
    hbounds hnames hends hincon hvols hvl hnodes hnl hnormals hareas (hbd ▸ hrr) hr1 (by
      intro r hr'
      obtain ⟨w, -, f, v, b, ps, p, q, s, e1, e2, e3, e4, -⟩ := forall₂_mem_right hr2 hr'
      rw [e1, e2, ← hnl]
      exact ⟨(List.getElem?_eq_some_iff.1 e3).1, (List.getElem?_eq_some_iff.1 e4).1⟩)
  rw [hbd] at k3
  refine ⟨labels, vols, cells, conns, k1, hvols, k2, ?_, k4, k5, ?_, k7⟩
  · intro i c hc'
    obtain ⟨g1, g2, g3, p, g4, g5⟩ := k3 i c hc'
    refine ⟨g1, g2, g3, ?_⟩
    have hi : i < (allCells m.cells).length := by
      rw [hcen.length_eq]
      exact (List.getElem?_eq_some_iff.1 g4).1
    exact ⟨_, p, List.getElem?_eq_getElem hi, forall₂_entry hcen (List.getElem?_eq_getElem hi) g4, g5⟩
  · intro c hc'
    obtain ⟨r, hr', g1, g2, g3, g4, g5, g6, g7⟩ := forall₂_mem_right k6 hc'
    obtain ⟨w, hw, f, v, b, ps, p, q, s, e1, e2, e3, e4, e5, e6, e7, e8, e9, e10, e11, e12, e13, e14, e15, e16⟩ :=
      forall₂_mem_right hr2 hr'
    have hlt : w.1 < w.2.1 := (((C42_written m.cells fs hfs hd).2 w.1 w.2.1 w.2.2).1 hw).2
    have i1 : w.1 < (allCells m.cells).length := by
      rw [hcen.length_eq]
      exact (List.getElem?_eq_some_iff.1 e3).1
    have i2 : w.2.1 < (allCells m.cells).length := by
      rw [hcen.length_eq]
      exact (List.getElem?_eq_some_iff.1 e4).1
    rw [e1] at g1
    rw [e2] at g2
    refine ⟨w.1, w.2.1, w.2.2, b, f, v, ps, p, q, s, _, _, r.area, g1, g2, hlt, e7, List.getElem?_eq_getElem i1,
      forall₂_entry hcen (List.getElem?_eq_getElem i1) e3, List.getElem?_eq_getElem i2,
      forall₂_entry hcen (List.getElem?_eq_getElem i2) e4, e5, e6, e8, e9, e10, g6, e11, e12, e13, ?_, ?_, ?_, ?_⟩
    · rw [g3, e14]
    · rw [g7, e15]
    · rw [g4, ← e16]
    · rw [g5, ← e16]

/-- The faces of the sample of C42 are shared as required. -/
theorem sampleFaces_proper : ProperFaces sampleFaces ∧ Neighbours sampleFaces 0 1 := by
  have hn : ∀ r ∈ sampleFaces, r.length ≤ 6 := by decide
  have d1 : ∀ i ∈ List.range 3, ∀ a ∈ List.range 6, ∀ j ∈ List.range 3, ∀ b ∈ List.range 6,
      sharedB sampleFaces i a j b = true →
      ((i, a), j, b) ∈ [((0, 3), 1, 5), ((1, 5), 0, 3), ((1, 1), 2, 2), ((2, 2), 1, 1)] := by decide +kernel
  have d2 : ∀ i a j b, Shared sampleFaces i a j b →
      ((i, a), j, b) ∈ [((0, 3), 1, 5), ((1, 5), 0, 3), ((1, 1), 2, 2), ((2, 2), 1, 1)] := by
    intro i a j b h
    obtain ⟨h1, h2, h3, h4⟩ := shared_bounds hn h
    exact d1 i (List.mem_range.2 h1) a (List.mem_range.2 h2) j (List.mem_range.2 h3) b (List.mem_range.2 h4) ((sharedB_iff _ _ _ _ _).2 h)
  refine ⟨⟨?_, ?_⟩, by decide, 3, 5, (sharedB_iff _ _ _ _ _).1 (by decide +kernel)⟩
  · intro i a j b k c h1 h2
    have e1 := d2 _ _ _ _ h1
    have e2 := d2 _ _ _ _ h2
    simp only [List.mem_cons, Prod.mk.injEq, List.not_mem_nil, or_false] at e1 e2
    rw [Prod.mk.injEq]
    omega
  · intro i a b j c d h1 h2
    have e1 := d2 _ _ _ _ h1
    have e2 := d2 _ _ _ _ h2
    simp only [List.mem_cons, Prod.mk.injEq, List.not_mem_nil, or_false] at e1 e2
    omega

/-- The mesh of that sample, with its points (C58). -/
noncomputable def sampleMesh : Mesh.Mesh ℝ ℤ := ⟨samplePoints, sampleCells, [], [], [("SAND".toList, 1, 3)]⟩

theorem sampleMesh_solid : SolidMesh sampleMesh.points sampleMesh.cells := by
  have hl : samplePoints.length = 14 := rfl
  have ht : typedCells sampleCells = [(.hexahedron, [0, 1, 2, 3, 4, 5, 6, 7]), (.hexahedron, [1, 8, 9, 2, 5, 10, 11, 6]),
      (.wedge, [5, 10, 12, 6, 11, 13])] := by decide
  refine ⟨by decide, by decide, ?_, ?_, ?_⟩
  · intro tc htc
    change tc ∈ typedCells sampleCells at htc
    rw [ht] at htc
    simp only [List.mem_cons, List.not_mem_nil, or_false] at htc
    rcases htc with rfl | rfl | rfl <;> exact ⟨_, rfl, rfl⟩
  · intro tc htc
    change tc ∈ typedCells sampleCells at htc
    rw [ht] at htc
    revert tc
    decide
  · intro tc htc
    change tc ∈ typedCells sampleCells at htc
    change ∀ v ∈ tc.2, v < samplePoints.length
    rw [hl]
    rw [ht] at htc
    revert tc
    decide

example : SolidMesh sampleMesh.points sampleMesh.cells ∧ faces sampleMesh.cells = .ok sampleFaces ∧
    ProperFaces sampleFaces ∧ (∃ i j, Neighbours sampleFaces i j) ∧ nCells sampleMesh.cells ≤ capacity 9 ∧
    (∀ l, some [1, 1, 2] = some l → l.length = nCells sampleMesh.cells) ∧
    meshInconFile false (nCells sampleMesh.cells) none [] = .ok none := by
  refine ⟨sampleMesh_solid, rfl, sampleFaces_proper.1, ⟨0, 1, sampleFaces_proper.2⟩, by decide, ?_,
    by decide +kernel⟩
  intro l h
  cases h
  decide

example : CellFits [] true ⟨"A1100".toList, .name "SAND".toList, .fin false 1, false, .fin false 1, .fin false 1, .fin false 1⟩ ∧
    MeshConnFits ⟨"A1100".toList, "A1101".toList, 1, .fin false 1, .fin false 1, .fin false 1, .fin false 1⟩ := by
  decide +kernel

/-- C80. Boundary conditions that are not one for each cell are refused. -/
theorem C80_boundary_refused {D : Type} (fl : ℝ → Flt) (a : ToughArgs) (m : Mesh.Mesh ℝ D) (len : Option ℤ)
    (mats : Option (List ℤ)) (l : List Bool) (inconData : List (Str × Arr)) (h : l.length ≠ nCells m.cells) :
    ∃ e, writeTough fl a m len mats (some l) inconData = .error e := by
  cases hr : writeTough fl a m len mats (some l) inconData with
  | error e => exact ⟨e, rfl⟩
  | ok r =>
    exfalso
    unfold writeTough writeToughOf at hr
    simp only at hr
    obtain ⟨labels, -, hr⟩ := bind_eq_ok.1 hr
    obtain ⟨nodes, -, hr⟩ := bind_eq_ok.1 hr
    obtain ⟨vols, -, hr⟩ := bind_eq_ok.1 hr
    obtain ⟨fs, -, hr⟩ := bind_eq_ok.1 hr
    obtain ⟨_, -, hr⟩ := bind_eq_ok.1 hr
    obtain ⟨_, -, hr⟩ := bind_eq_ok.1 hr
    obtain ⟨i, -, hr⟩ := bind_eq_ok.1 hr
    rw [Option.getD_some, if_pos h] at hr
    cases hr

example : ([true] : List Bool).length ≠ nCells sampleMesh.cells := by decide

/-- C80. A mesh with cells that are not solid is refused. -/
theorem C80_flat_refused {D : Type} (fl : ℝ → Flt) (a : ToughArgs) (m : Mesh.Mesh ℝ D) (len : Option ℤ)
    (mats : Option (List ℤ)) (boundary : Option (List Bool)) (inconData : List (Str × Arr))
    (h : ∃ tc ∈ typedCells m.cells, reference tc.1 = none) :
    ∃ e, writeTough fl a m len mats boundary inconData = .error e := by
  cases hr : writeTough fl a m len mats boundary inconData with
  | error e => exact ⟨e, rfl⟩
  | ok r =>
    exfalso
    unfold writeTough writeToughOf at hr
    simp only at hr
    obtain ⟨labels, -, hr⟩ := bind_eq_ok.1 hr
    obtain ⟨nodes, -, hr⟩ := bind_eq_ok.1 hr
    obtain ⟨vols, -, hr⟩ := bind_eq_ok.1 hr
    obtain ⟨fs, hfs, hr⟩ := bind_eq_ok.1 hr
    obtain ⟨tc, htc, h0⟩ := h
    obtain ⟨row, -, t, ht, -⟩ := forall₂_mem_left (faces_rows hfs) htc
    generalize tc.1 = ty at h0 ht
    cases ty <;> simp [reference] at h0 <;> cases ht

example : ∃ tc ∈ typedCells [⟨.quad, [[0, 1, 2, 3]]⟩], reference tc.1 = none := ⟨_, List.mem_cons_self, rfl⟩

end Verif.Props
