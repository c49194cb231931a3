import Verif.Lemmas.CylTough

/-!
# C82: connections of cylindrical grids
-/

namespace Verif.Props
open Verif.Py Verif.Model Verif.Mesh Verif.Spec

/-- The areas in the table of a cylindrical grid, for the faces of its connections. -/
theorem cyl_areas {dr dz : List ℝ} {oz : Option ℝ} {layer : Bool} {material : Str} {m : CylMesh ℝ} (h0 : dr ≠ [])
    (h : cylindricGrid dr dz oz layer material = .ok m) {fs : List (List (List ℕ))} (hfs : faces m.mesh.cells = .ok fs) :
    ∃ areas, cylFaceAreas Real.pi m = .ok areas ∧ ∀ w ∈ writtenConnections (connectionsOf fs), ∃ (c : GridAxis)
      (u v : ℕ × ℕ × ℕ) (row : List ℝ), (listing layer dr.length 1 dz.length)[w.1]? = some u ∧
        (listing layer dr.length 1 dz.length)[w.2.1]? = some v ∧ Linked c u v ∧ areas[w.1]? = some row ∧
        row[w.2.2]? = some (mantle dr dz c u) := by
  obtain ⟨hg, -, -⟩ := cyl_form h
  obtain ⟨areas, ha, hA⟩ := C41_face_areas Real.pi dr dz oz layer material m h0 h
  obtain ⟨g1, -, -⟩ := grid_form hg
  obtain ⟨-, -, hd, -⟩ := grid_cells hg
  obtain ⟨hn, -, -⟩ := C39_listing layer dr.length 1 dz.length
  have hb : ∀ v ∈ listing layer dr.length 1 dz.length, v.1 < dr.length ∧ v.2.1 < 1 ∧ v.2.2 < dz.length :=
    fun v hv => mem_listing.1 hv
  refine ⟨areas, ha, ?_⟩
  rintro ⟨i, j, a⟩ hw
  obtain ⟨k1, hij⟩ := ((C42_written m.mesh.cells fs hfs hd).2 i j a).1 hw
  have hia : i < fs.length ∧ a < 6 := by
    by_contra hia
    rw [entry_connectionsOf_none i a hia] at k1
    cases k1
  obtain ⟨b, hs, -⟩ := ((C42_entry m.mesh.cells fs hfs i a hia.1 hia.2).1 j).1 k1
  rw [g1, faces_grid] at hfs
  cases hfs
  obtain ⟨u, v, hu, hv, hf⟩ := (shared_grid hn hb i a j b).1 hs
  have hno : ∀ c, ¬ Linked c v u := fun c hc => absurd (linked_before hn hv hu hc) (by omega)
  have hil : i < areas.length := by
    rw [← hA.length_eq]
    exact lt_of_get hu
  obtain ⟨r, z, e1, e2, e3⟩ := forall₂_entry hA hu (List.getElem?_eq_getElem hil)
  have d1 := getD_get _ _ _ e1
  have d2 := getD_get _ _ _ e2
  rcases hf with ⟨rfl, -, hl⟩ | ⟨-, -, hl⟩ | ⟨rfl, -, hl⟩ | ⟨-, -, hl⟩ | ⟨rfl, -, hl⟩ | ⟨-, -, hl⟩
  · refine ⟨.x, u, v, _, hu, hv, hl, List.getElem?_eq_getElem hil, ?_⟩
    rw [e3, mantle, d2]
    rfl
  · exact absurd hl (hno _)
  · refine ⟨.y, u, v, _, hu, hv, hl, List.getElem?_eq_getElem hil, ?_⟩
    rw [e3, mantle, d1, d2]
    rfl
  · exact absurd hl (hno _)
  · refine ⟨.z, u, v, _, hu, hv, hl, List.getElem?_eq_getElem hil, ?_⟩
    rw [e3, mantle]
    rfl
  · exact absurd hl (hno _)

/-- Two cells are next to each other on one axis only. -/
theorem linked_axis {a b : GridAxis} {v w : ℕ × ℕ × ℕ} (h1 : Linked a v w) (h2 : Linked b v w) : a = b := by
  obtain ⟨i, j, k⟩ := v
  obtain ⟨i', j', k'⟩ := w
  cases a <;> cases b <;> simp only [Linked, Prod.mk.injEq] at h1 h2 <;> first | rfl | (exfalso; omega)

/-- C82. The connections written for a cylindrical grid: one for each two cells next to each other,
each just once, either along the radius, with the mantle between them as area and halves of their
radial sizes as distances, or downwards, with their ring as area and halves of their heights as
distances. -/
theorem C82_rows (opt : NodalDistance) (dr dz : List ℝ) (oz : Option ℝ) (layer : Bool) (material : Str) (m : CylMesh ℝ)
    (h : cylindricGrid dr dz oz layer material = .ok m) (h2 : 2 ≤ dr.length * dz.length) (bounds : List Bool)
    (hb : bounds.length = dr.length * dz.length) :
    let L := listing layer dr.length 1 dz.length
    ∃ fs nodes normals areas rows, faces m.mesh.cells = .ok fs ∧ centers m.mesh = .ok nodes ∧
      faceNormals m.mesh.points fs = .ok normals ∧ cylFaceAreas Real.pi m = .ok areas ∧
      connRowsOf opt m.mesh.points nodes fs normals areas bounds = .ok rows ∧
      (rows.map fun r => (r.cell1, r.cell2)).Nodup ∧
      (∀ p q, (p, q) ∈ rows.map (fun r => (r.cell1, r.cell2)) ↔
        ∃ a v w, L[p]? = some v ∧ L[q]? = some w ∧ Linked a v w) ∧
      rows.length = (dr.length - 1) * dz.length + dr.length * (dz.length - 1) ∧
      ∀ r ∈ rows, ∃ (v w : ℕ × ℕ × ℕ) (b1 b2 : Bool), L[r.cell1]? = some v ∧ L[r.cell2]? = some w ∧
        bounds[r.cell1]? = some b1 ∧ bounds[r.cell2]? = some b2 ∧
        ((w = (v.1 + 1, v.2) ∧ r.isot = 1 ∧ r.angle = 0 ∧
            r.area = 2 * Real.pi * plane dr (v.1 + 1) * dz.getD v.2.2 0 ∧
            r.d1 = (if b1 then 1e-9 else dr.getD v.1 0 / 2) ∧ r.d2 = (if b2 then 1e-9 else dr.getD w.1 0 / 2)) ∨
          (v = (w.1, w.2.1, w.2.2 + 1) ∧ r.isot = 3 ∧ r.angle = 1 ∧
            r.area = Real.pi * (plane dr (v.1 + 1) ^ 2 - plane dr v.1 ^ 2) ∧
            r.d1 = (if b1 then 1e-9 else dz.getD v.2.2 0 / 2) ∧ r.d2 = (if b2 then 1e-9 else dz.getD w.2.2 0 / 2))) := by
  intro L
  obtain ⟨hg, p1, p2⟩ := cyl_form h
  have h0 : dr ≠ [] := by rintro rfl; simp at h2
  have hl1 : ([1] : List ℝ).length = 1 := rfl
  obtain ⟨fs, nodes, rows, hfs, hc, hr⟩ := C81_total opt dr [1] dz _ layer material m.mesh hg (by rw [hl1, mul_one]; exact h2)
    bounds (by rw [hl1, mul_one]; exact hb)
  obtain ⟨-, -, hd, -⟩ := grid_cells hg
  obtain ⟨fs', hfs', hp, hnb⟩ := C81_neighbours dr [1] dz _ layer material m.mesh hg
  rw [hfs] at hfs'
  cases hfs'
  have hrr := hr
  unfold conneRows at hrr
  obtain ⟨normals, hnorm, hrr⟩ := bind_eq_ok.1 hrr
  obtain ⟨as, -, hrr⟩ := bind_eq_ok.1 hrr
  obtain ⟨areas, ha, hA⟩ := cyl_areas h0 h hfs
  obtain ⟨rows', hr', hR⟩ := connRows_areas hrr (areas' := areas) (by
    intro w hw
    obtain ⟨c, u, v, row, -, -, -, k1, k2⟩ := hA w hw
    exact ⟨row, _, k1, k2⟩)
  have hmap : rows'.map (fun r => (r.cell1, r.cell2)) = rows.map (fun r => (r.cell1, r.cell2)) := by
    clear * - hR
    induction hR with
    | nil => rfl
    | cons e _ ih =>
      obtain ⟨w, -, -, -, rfl⟩ := e
      rw [List.map_cons, List.map_cons, ih]
  obtain ⟨hw1, -⟩ := C59_rows opt m.mesh.cells fs hfs hd m.mesh.points nodes bounds rows hr
  obtain ⟨q1, q2, q3⟩ := C81_pairs dr [1] dz _ layer material m.mesh hg fs hfs
  refine ⟨fs, nodes, normals, areas, rows', hfs, hc, hnorm, ha, hr', ?_, ?_, ?_, ?_⟩
  · rw [hmap, hw1]
    exact q1
  · rw [hmap, hw1]
    exact q2
  · have := congrArg List.length (hmap.trans hw1)
    rw [List.length_map, q3] at this
    rw [this]
    simp
  · intro r' hr''
    obtain ⟨r, hrm, w, hw, e1, e2, rfl⟩ := forall₂_mem_right hR hr''
    obtain ⟨c, v, w', b1, b2, l1, l2, l3, l4, l5, l6, l7, -, l9, l10⟩ := C81_rows opt dr [1] dz _ layer material m.mesh hg
      p1 (by simp) p2 fs hfs nodes hc bounds rows hr r hrm
    obtain ⟨c', u, v', row, k1, k2, k3, k4, k5⟩ := hA w hw
    rw [e1] at l1 l4
    rw [e2] at l2 l5
    rw [hl1] at l1 l2
    rw [l1] at k1
    rw [l2] at k2
    cases k1
    cases k2
    obtain rfl := linked_axis k3 l3
    refine ⟨v, w', b1, b2, by rw [e1]; exact l1, by rw [e2]; exact l2, by rw [e1]; exact l4, by rw [e2]; exact l5, ?_⟩
    have har : areaIn areas w = mantle dr dz c' v := areaIn_eq k4 k5
    have hb1 := mem_listing.1 (show (v.1, v.2.1, v.2.2) ∈ _ from List.mem_of_getElem? l1)
    have hb2 := mem_listing.1 (show (w'.1, w'.2.1, w'.2.2) ∈ _ from List.mem_of_getElem? l2)
    obtain ⟨i, j, k⟩ := v
    obtain ⟨i', j', k'⟩ := w'
    simp only at hb1 hb2 l9 l10
    cases c'
    · exact Or.inl ⟨l3, l6, l7, har, l9, l10⟩
    · exfalso
      simp only [Linked, Prod.mk.injEq] at l3
      omega
    · exact Or.inr ⟨l3, l6, l7, har, l9, l10⟩

example : (∃ m, cylindricGrid [(1 : ℝ), 2] [1, 4] none false "rock".toList = .ok m) ∧
    2 ≤ [(1 : ℝ), 2].length * [(1 : ℝ), 4].length ∧
    (listing false 2 1 2)[1]? = some (0, 0, 0) ∧ (listing false 2 1 2)[3]? = some (1, 0, 0) := by
  refine ⟨?_, by decide, by decide, by decide⟩
  obtain ⟨m, _, h, -⟩ := C39_grid_3d [(1 : ℝ), 2] [1] [1, 4] (some ⟨0, -(1 / 2), -[(1 : ℝ), 4].sum⟩) false "rock".toList
  refine ⟨⟨m, [1, 2], [4, 1], false⟩, ?_⟩
  unfold cylindricGrid
  rw [if_neg (not_not.2 (by simp)), if_neg (not_not.2 (by simp))]
  simp only
  rw [Option.map_some] at h
  rw [h]
  rfl

/-- C82. From the sizes of a cylindrical grid to its MESH file (names in the arguments are filled
up to five characters, the others are the subject of C61): it is read back as one element for each
cell, with the volume of its ring and its middle as centre, and one connection for each two cells
next to each other, with the quantities of C82_rows. -/
theorem C82_file (fl : ℝ → Flt) (a : ToughArgs) (dr dz : List ℝ) (oz : Option ℝ) (layer : Bool)
    (material : Str) (m : CylMesh ℝ) (h : cylindricGrid dr dz oz layer material = .ok m)
    (h2 : 2 ≤ dr.length * dz.length) (hcap : dr.length * dz.length ≤ capacity 9)
    (hnames : ∀ e ∈ a.names, Filled e.1 ∧ bare e.2 = e.2) (hends : ∀ x ∈ a.ends, Filled x)
    (inconData : List (Str × Arr)) (incon : Option (List Str))
    (hincon : meshInconFile a.incon (nCells m.mesh.cells) none inconData = .ok incon) :
    let L := listing layer dr.length 1 dz.length
    let mats := List.replicate (dr.length * dz.length) (1 : ℤ)
    m.mesh.cellData = [("material".toList, mats)] ∧
    ∃ (labels : List Str) (cells : List MeshCell) (conns : List MeshConn),
      labeler (dr.length * dz.length) none = .ok labels ∧ cells.map (·.label) = labels ∧
      cells.length = dr.length * dz.length ∧
      (∀ (i : ℕ) c, cells[i]? = some c → ∃ v, L[i]? = some v ∧ c.material = .name material ∧ c.bound = false ∧
        c.volume = fl (Real.pi * (plane dr (v.1 + 1) ^ 2 - plane dr v.1 ^ 2) * dz.getD v.2.2 0) ∧
        c.x = fl (plane dr v.1 + dr.getD v.1 0 / 2) ∧ c.y = fl 0 ∧
        c.z = fl (oz.getD (-dz.sum) + plane dz v.2.2 + dz.getD v.2.2 0 / 2)) ∧
      (conns.map fun c => (c.label1, c.label2)).Nodup ∧
      (∀ l1 l2, (l1, l2) ∈ conns.map (fun c => (c.label1, c.label2)) ↔
        ∃ (i j : ℕ) (x : GridAxis) (v w : ℕ × ℕ × ℕ), L[i]? = some v ∧ L[j]? = some w ∧ Linked x v w ∧
          labels[i]? = some l1 ∧ labels[j]? = some l2) ∧
      (∀ c ∈ conns, ∃ (i j : ℕ) (v w : ℕ × ℕ × ℕ), L[i]? = some v ∧ L[j]? = some w ∧
        labels[i]? = some c.label1 ∧ labels[j]? = some c.label2 ∧
        ((w = (v.1 + 1, v.2) ∧ c.isot = 1 ∧ c.angle = fl 0 ∧
            c.area = fl (2 * Real.pi * plane dr (v.1 + 1) * dz.getD v.2.2 0) ∧
            c.d1 = fl (dr.getD v.1 0 / 2) ∧ c.d2 = fl (dr.getD w.1 0 / 2)) ∨
          (v = (w.1, w.2.1, w.2.2 + 1) ∧ c.isot = 3 ∧ c.angle = fl 1 ∧
            c.area = fl (Real.pi * (plane dr (v.1 + 1) ^ 2 - plane dr v.1 ^ 2)) ∧
            c.d1 = fl (dz.getD v.2.2 0 / 2) ∧ c.d2 = fl (dz.getD w.2.2 0 / 2)))) ∧
      ((∀ c ∈ cells, CellFits a.names a.coord c) → (∀ c ∈ conns, MeshConnFits c) →
        ∃ lines, writeCylTough fl a m none (some mats) none inconData = .ok (lines, incon) ∧
          readFile none lines = .ok { FileRead.empty with
            elements := some (meshElems a.names a.ends a.coord cells)
            coordinates := some a.coord
            connections := some (meshConns conns) }) := by
  intro L mats
  obtain ⟨hg, p1, p2⟩ := cyl_form h
  have h0 : dr ≠ [] := by rintro rfl; simp at h2
  have hl1 : ([1] : List ℝ).length = 1 := rfl
  obtain ⟨g1, g2, g3, g4⟩ := grid_form hg
  obtain ⟨e1, e2, e3, e4⟩ := grid_cells hg
  rw [hl1, mul_one] at e2
  obtain ⟨fs, nodes, normals, areas, rows, hfs, hnodes, hnorm, hareas, hr, r1, r2, -, r4⟩ := C82_rows a.nodal dr dz oz layer
    material m h h2 (List.replicate (dr.length * dz.length) false) (List.length_replicate ..)
  obtain ⟨fs', hfs', hp, hnb⟩ := C81_neighbours dr [1] dz _ layer material m.mesh hg
  rw [hfs] at hfs'
  cases hfs'
  have hLl : L.length = dr.length * dz.length := by
    rw [show L.length = _ from (C39_listing layer dr.length 1 dz.length).2.1, mul_one]
  refine ⟨by rw [g3, (C39_listing layer _ _ _).2.1, hl1, mul_one], ?_⟩
  obtain ⟨vols, hvols, hvol⟩ := C41_volumes Real.pi dr dz oz layer material m h0 h
  have hcen := C81_centers dr [1] dz _ layer material m.mesh hg
  rw [hnodes] at hcen
  injection hcen with hcen
  have hnl : nodes.length = dr.length * dz.length := by
    rw [hcen, List.length_map, (C39_listing layer _ _ _).2.1, hl1, mul_one]
  have hnw : rows.map (fun r => (r.cell1, r.cell2)) =
      (writtenConnections (connectionsOf fs)).map (fun w => (w.1, w.2.1)) := by
    unfold connRowsOf at hr
    simp only at hr
    obtain ⟨is, hi, hr⟩ := bind_eq_ok.1 hr
    have hF := mapM_eq_ok hi
    split at hr
    · cases hr
    cases hr
    generalize writtenConnections (connectionsOf fs) = ws at hF
    clear * - hF
    induction hF with
    | nil => rfl
    | cons _ _ ih => simp only [List.zipWith_cons_cons, List.map_cons, ih]
  obtain ⟨labels, cells, conns, k1, k2, k3, k4, k5, k6, k7⟩ := write_of (fl := fl) (mats := some mats) (boundary := none)
    (areasOf := fun _ => cylFaceAreas Real.pi m) hfs e3 hp
    (grid_two hg hfs (by rw [hl1, mul_one]; exact h2)) (by rw [e2]; exact hcap)
    (by
      intro l hl
      cases hl
      rw [List.length_replicate, e2])
    (by intro l hl; cases hl) hnames hends hincon hvols
    (by rw [← hvol.length_eq, (C39_listing layer _ _ _).2.1, mul_one, e2]) hnodes (by rw [hnl, e2]) hnorm hareas
    (by rw [Option.getD_none, e2]; exact hr) hnw (by
      intro r hr'
      obtain ⟨v, w, b1, b2, i1, i2, -⟩ := r4 r hr'
      rw [e2, ← hLl]
      exact ⟨lt_of_get i1, lt_of_get i2⟩)
  rw [e2] at k1
  have hlabels : labels.length = dr.length * dz.length := Lemmas.labeler_length k1
  have hcl : cells.length = dr.length * dz.length := by rw [← hlabels, ← k2, List.length_map]
  have hmats : materialList (materials (dr.length * dz.length) (some mats) m.mesh.fieldData) =
      List.replicate (dr.length * dz.length) (.name material) := by
    rw [g4]
    unfold materials
    simp only [ne_eq, List.cons_ne_self, not_false_eq_true, if_true]
    have : mats.mapM (dictGet (fieldDict [(material, 1, 3)])) =
        .ok (List.replicate (dr.length * dz.length) material) := by
      rw [mapM_eq_map (g := fun _ => material)]
      · rw [List.map_replicate]
      · intro x hx
        rw [List.eq_of_mem_replicate hx]
        rfl
    rw [this]
    simp [materialList]
  refine ⟨labels, cells, conns, k1, k2, hcl, ?_, k4, ?_, ?_, k7⟩
  · intro i c hc
    have hi : i < L.length := by rw [hLl, ← hcl]; exact lt_of_get hc
    obtain ⟨q1, ⟨vol, q2, q3⟩, q4, p, q5, q6, q7, q8⟩ := k3 i c hc
    have hv : (listing layer dr.length 1 dz.length)[i]? = some L[i] := List.getElem?_eq_getElem hi
    refine ⟨L[i], hv, ?_, ?_, ?_, ?_⟩
    · rw [e2, hmats] at q1
      exact List.eq_of_mem_replicate (List.mem_of_getElem? q1)
    · exact List.eq_of_mem_replicate (List.mem_of_getElem? q4)
    · obtain ⟨z, v1, v2⟩ := forall₂_entry hvol hv q2
      rw [q3, v2, getD_get _ _ _ v1]
    · have hb := mem_listing.1 (show (L[i].1, L[i].2.1, L[i].2.2) ∈ _ from List.mem_of_getElem? hv)
      rw [hcen, hl1, List.getElem?_map, hv, Option.map_some] at q5
      cases q5
      have hj : L[i].2.1 = 0 := by omega
      refine ⟨?_, ?_, ?_⟩
      · rw [q6]
        simp [cellMiddle, origin3]
      · rw [q7]
        simp only [cellMiddle, origin3, hj]
        norm_num [plane]
      · rw [q8]
        simp [cellMiddle, origin3]
  · intro l1 l2
    rw [k5]
    constructor
    · rintro ⟨i, j, hij, l1, l2⟩
      obtain ⟨x, v, w, hv, hw, hl⟩ := (hnb i j).1 hij
      exact ⟨i, j, x, v, w, hv, hw, hl, l1, l2⟩
    · rintro ⟨i, j, x, v, w, hv, hw, hl, l1, l2⟩
      exact ⟨i, j, (hnb i j).2 ⟨x, v, w, hv, hw, hl⟩, l1, l2⟩
  · intro c hc
    obtain ⟨r, hr', s1, s2, s3, s4, s5, s6, s7⟩ := forall₂_mem_right k6 hc
    obtain ⟨v, w, b1, b2, t1, t2, t3, t4, t5⟩ := r4 r hr'
    have f1 : b1 = false := List.eq_of_mem_replicate (List.mem_of_getElem? t3)
    have f2 : b2 = false := List.eq_of_mem_replicate (List.mem_of_getElem? t4)
    rw [f1, f2] at t5
    simp only [Bool.false_eq_true, if_false] at t5
    refine ⟨r.cell1, r.cell2, v, w, t1, t2, s1, s2, ?_⟩
    rcases t5 with ⟨u1, u2, u3, u4, u5, u6⟩ | ⟨u1, u2, u3, u4, u5, u6⟩
    · exact Or.inl ⟨u1, by rw [s3, u2]; rfl, by rw [s7, u3], by rw [s6, u4], by rw [s4, u5], by rw [s5, u6]⟩
    · exact Or.inr ⟨u1, by rw [s3, u2]; rfl, by rw [s7, u3], by rw [s6, u4], by rw [s4, u5], by rw [s5, u6]⟩

example : 2 ≤ [(1 : ℝ), 2].length * [(1 : ℝ), 4].length ∧ [(1 : ℝ), 2].length * [(1 : ℝ), 4].length ≤ capacity 9 ∧
    meshInconFile false 4 none [] = .ok none := by
  refine ⟨by decide, ?_, by decide +kernel⟩
  show 4 ≤ capacity 9
  decide

end Verif.Props
