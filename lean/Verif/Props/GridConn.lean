import Verif.Lemmas.GridRows
import Verif.Props.MeshTough
import Verif.Props.Grid

/-!
# C81: connections of structured grids
-/

namespace Verif.Props
open Verif.Py Verif.Model Verif.Mesh Verif.Spec

/-- Points, cells and groups of a 3D grid. -/
theorem grid_form {K : Type} [Field K] [LinearOrder K] {dx dy dz : List K} {o : Option (P3 K)} {layer : Bool}
    {material : Str} {m : Mesh.Mesh K ℤ}
    (h : structuredGrid dx dy (some dz) (o.map fun p => [p.x, p.y, p.z]) layer material = .ok m) :
    let G := index3 (if layer then .F else .C) (dx.length + 1) (dy.length + 1) (dz.length + 1)
    m.cells = [⟨.hexahedron, (listing layer dx.length dy.length dz.length).map fun v => (meshVertices3 v).map G⟩] ∧
    (∀ a b c, a ≤ dx.length → b ≤ dy.length → c ≤ dz.length →
      m.points[G (a, b, c)]? = some (corner dx dy dz (origin3 dz o) a b c)) ∧
    m.cellData = [("material".toList, List.replicate (listing layer dx.length dy.length dz.length).length 1)] ∧
    m.fieldData = [(material, 1, 3)] := by
  unfold structuredGrid at h
  simp only at h
  rw [grid3d_ok] at h
  cases o with
  | none =>
    cases h
    exact ⟨rfl, fun a b c ha hb hc => point_get _ dx dy dz ⟨0, 0, -dz.sum⟩ a b c ha hb hc, by simp [gridMesh], rfl⟩
  | some p =>
    cases h
    exact ⟨rfl, fun a b c ha hb hc => point_get _ dx dy dz p a b c ha hb hc, by simp [gridMesh], rfl⟩

/-- C81. In a structured grid a face belongs to at most two cells, two cells have at most one
face in common, and they have one just if they are next to each other on an axis: the first one
of them in the list is that with the smaller coordinate on the first two axes, and the upper one
on the third. -/
theorem C81_neighbours {K : Type} [Field K] [LinearOrder K] (dx dy dz : List K) (o : Option (P3 K)) (layer : Bool)
    (material : Str) (m : Mesh.Mesh K ℤ)
    (h : structuredGrid dx dy (some dz) (o.map fun p => [p.x, p.y, p.z]) layer material = .ok m) :
    ∃ fs, faces m.cells = .ok fs ∧ ProperFaces fs ∧ ∀ p q, Neighbours fs p q ↔
      ∃ a v w, (listing layer dx.length dy.length dz.length)[p]? = some v ∧
        (listing layer dx.length dy.length dz.length)[q]? = some w ∧ Linked a v w := by
  obtain ⟨h1, -, -⟩ := grid_form h
  obtain ⟨hn, -, hm⟩ := C39_listing layer dx.length dy.length dz.length
  have hb : ∀ v ∈ listing layer dx.length dy.length dz.length,
      v.1 < dx.length ∧ v.2.1 < dy.length ∧ v.2.2 < dz.length := fun v hv => mem_listing.1 hv
  rw [h1]
  refine ⟨_, faces_grid _ _, proper_grid hn hb, fun p q => ?_⟩
  constructor
  · rintro ⟨hpq, a, b, hs⟩
    obtain ⟨v, w, hv, hw, hf⟩ := (shared_grid hn hb p a q b).1 hs
    have hno : ∀ c, ¬ Linked c w v := fun c hc => absurd (linked_before hn hw hv hc) (by omega)
    rcases hf with ⟨-, -, hl⟩ | ⟨-, -, hl⟩ | ⟨-, -, hl⟩ | ⟨-, -, hl⟩ | ⟨-, -, hl⟩ | ⟨-, -, hl⟩
    · exact ⟨_, v, w, hv, hw, hl⟩
    · exact absurd hl (hno _)
    · exact ⟨_, v, w, hv, hw, hl⟩
    · exact absurd hl (hno _)
    · exact ⟨_, v, w, hv, hw, hl⟩
    · exact absurd hl (hno _)
  · rintro ⟨a, v, w, hv, hw, hl⟩
    refine ⟨linked_before hn hv hw hl, ?_⟩
    cases a
    · exact ⟨3, 5, (shared_grid hn hb p _ q _).2 ⟨v, w, hv, hw, Or.inl ⟨rfl, rfl, hl⟩⟩⟩
    · exact ⟨4, 2, (shared_grid hn hb p _ q _).2 ⟨v, w, hv, hw, Or.inr (Or.inr (Or.inl ⟨rfl, rfl, hl⟩))⟩⟩
    · exact ⟨0, 1, (shared_grid hn hb p _ q _).2
        ⟨v, w, hv, hw, Or.inr (Or.inr (Or.inr (Or.inr (Or.inl ⟨rfl, rfl, hl⟩))))⟩⟩

example : ∃ m, structuredGrid [(1 : ℚ), 2] [1] (some [1, 1]) none false "rock".toList = .ok m ∧
    (listing false 2 1 2)[0]? = some (0, 0, 1) ∧ (listing false 2 1 2)[1]? = some (0, 0, 0) ∧
    Linked .z (0, 0, 1) (0, 0, 0) := by
  obtain ⟨m, _, h, -⟩ := C39_grid_3d [(1 : ℚ), 2] [1] [1, 1] none false "rock".toList
  exact ⟨m, h, by decide, by decide, by decide⟩

/-- The cells of a grid and their vertices. -/
theorem grid_cells {K : Type} [Field K] [LinearOrder K] {dx dy dz : List K} {o : Option (P3 K)} {layer : Bool}
    {material : Str} {m : Mesh.Mesh K ℤ}
    (h : structuredGrid dx dy (some dz) (o.map fun p => [p.x, p.y, p.z]) layer material = .ok m) :
    let G := index3 (if layer then .F else .C) (dx.length + 1) (dy.length + 1) (dz.length + 1)
    allCells m.cells = (listing layer dx.length dy.length dz.length).map (fun v => (meshVertices3 v).map G) ∧
    nCells m.cells = dx.length * dy.length * dz.length ∧
    (∀ c ∈ allCells m.cells, c.Nodup) ∧ ValidCells m.points m.cells := by
  intro G
  obtain ⟨h1, h2, -⟩ := grid_form h
  have e1 : allCells m.cells =
      (listing layer dx.length dy.length dz.length).map (fun v => (meshVertices3 v).map G) := by
    rw [h1]
    simp only [allCells, List.flatMap_cons, List.flatMap_nil, List.append_nil]
    rfl
  obtain ⟨D, hD⟩ := index3_unique (if layer then .F else .C) (dx.length + 1) (dy.length + 1) (dz.length + 1)
  refine ⟨e1, ?_, ?_, ?_⟩
  · rw [h1, ← (C39_listing layer _ _ _).2.1]
    simp [nCells]
  · intro c hc
    rw [e1] at hc
    obtain ⟨v, hv, rfl⟩ := List.mem_map.1 hc
    have hb := mem_listing.1 (show (v.1, v.2.1, v.2.2) ∈ _ from hv)
    refine List.Nodup.map_on ?_ (by obtain ⟨i, j, k⟩ := v; simp [meshVertices3])
    intro s hs t ht hst
    have b1 := mem_meshVertices3 hs
    have b2 := mem_meshVertices3 ht
    rw [← hD s (by omega) (by omega) (by omega), ← hD t (by omega) (by omega) (by omega)]
    exact congrArg D hst
  · intro c hc
    rw [e1] at hc
    obtain ⟨v, hv, rfl⟩ := List.mem_map.1 hc
    have hb := mem_listing.1 (show (v.1, v.2.1, v.2.2) ∈ _ from hv)
    refine ⟨by obtain ⟨i, j, k⟩ := v; simp [meshVertices3], ?_⟩
    intro i hi
    obtain ⟨t, ht, rfl⟩ := List.mem_map.1 hi
    have b1 := mem_meshVertices3 ht
    exact lt_of_get (h2 t.1 t.2.1 t.2.2 (by omega) (by omega) (by omega))

/-- C81. The centre of a cell of a structured grid is in the middle between its planes. -/
theorem C81_centers (dx dy dz : List ℝ) (o : Option (P3 ℝ)) (layer : Bool) (material : Str) (m : Mesh.Mesh ℝ ℤ)
    (h : structuredGrid dx dy (some dz) (o.map fun p => [p.x, p.y, p.z]) layer material = .ok m) :
    centers m = .ok ((listing layer dx.length dy.length dz.length).map (cellMiddle dx dy dz (origin3 dz o))) := by
  obtain ⟨h1, h2, -⟩ := grid_form h
  obtain ⟨e1, -, -, e4⟩ := grid_cells h
  obtain ⟨cs, hcs⟩ := centers_total (by rw [h1]; simp) e4
  have := centers_ok (fun c hc => (e4 c hc).1) hcs
  rw [hcs]
  congr 1
  rw [e1, List.forall₂_map_left_iff] at this
  have hb : ∀ v ∈ listing layer dx.length dy.length dz.length,
      v.1 < dx.length ∧ v.2.1 < dy.length ∧ v.2.2 < dz.length := fun v hv => mem_listing.1 hv
  clear hcs e1
  generalize listing layer dx.length dy.length dz.length = L at this hb
  induction this with
  | nil => rfl
  | cons a _ ih =>
    rw [List.map_cons, ← ih fun v hv => hb v (List.mem_cons_of_mem _ hv), ← center_grid h2 (hb _ List.mem_cons_self) a]

example : ∃ m, structuredGrid [(1 : ℝ), 2] [1] (some [1, 1]) none false "rock".toList = .ok m ∧
    cellMiddle [(1 : ℝ), 2] [1] [1, 1] (origin3 [1, 1] none) (1, 0, 0) = ⟨2, 1 / 2, -(3 / 2)⟩ := by
  obtain ⟨m, _, h, -⟩ := C39_grid_3d [(1 : ℝ), 2] [1] [1, 1] none false "rock".toList
  refine ⟨m, h, ?_⟩
  simp [cellMiddle, origin3, plane]
  norm_num

/-- The cells of a connection, as cells of the grid. -/
theorem grid_link (opt : NodalDistance) {dx dy dz : List ℝ} {o : Option (P3 ℝ)} {layer : Bool} {material : Str}
    {m : Mesh.Mesh ℝ ℤ} {fs : List (List (List ℕ))}
    (h : structuredGrid dx dy (some dz) (o.map fun p => [p.x, p.y, p.z]) layer material = .ok m)
    (hfs : faces m.cells = .ok fs) (px : ∀ x ∈ dx, 0 < x) (py : ∀ y ∈ dy, 0 < y) (pz : ∀ z ∈ dz, 0 < z)
    {i j a b : ℕ} {f : Interface} {u : List ℕ} {ps : List (P3 ℝ)} {p q s : P3 ℝ} {vs ws : List ℕ} {A : ℝ}
    (hij : i < j) (hs : Shared fs i a j b)
    (g1 : (allCells m.cells)[i]? = some vs) (g2 : IsCenter m.points vs f.c1)
    (g3 : (allCells m.cells)[j]? = some ws) (g4 : IsCenter m.points ws f.c2)
    (g5 : FaceAt fs i a u) (g6 : FaceVertices m.points u ps) (g7 : IsArea ps A)
    (g8 : ps.take 3 = [p, q, s]) (g9 : f.point = p) (g10 : ¬ IsTriangleArea p q s 0 → IsNormal p q s f.normal) :
    ∃ (c : GridAxis) (v w : ℕ × ℕ × ℕ), (listing layer dx.length dy.length dz.length)[i]? = some v ∧
      (listing layer dx.length dy.length dz.length)[j]? = some w ∧ Linked c v w ∧
      isot f.line = c.number ∧ angle f.line = (if c = .z then 1 else 0) ∧ A = across c (cellSizes dx dy dz v) ∧
      nodalDistances opt f =
        (if f.bound1 then 1e-9 else onAxis c (cellSizes dx dy dz v) / 2,
          if f.bound2 then 1e-9 else onAxis c (cellSizes dx dy dz w) / 2) := by
  obtain ⟨h1, h2, -⟩ := grid_form h
  obtain ⟨e1, -, -, -⟩ := grid_cells h
  obtain ⟨hn, -, -⟩ := C39_listing layer dx.length dy.length dz.length
  have hb : ∀ v ∈ listing layer dx.length dy.length dz.length,
      v.1 < dx.length ∧ v.2.1 < dy.length ∧ v.2.2 < dz.length := fun v hv => mem_listing.1 hv
  obtain ⟨fs', hfs', -, hnb⟩ := C81_neighbours dx dy dz o layer material m h
  rw [hfs] at hfs'
  cases hfs'
  obtain ⟨c, v, w, hv, hw, hl⟩ := (hnb i j).1 ⟨hij, a, b, hs⟩
  rw [h1, faces_grid] at hfs
  cases hfs
  obtain ⟨v', w', hv', hw', hab⟩ := (shared_grid hn hb i a j b).1 hs
  rw [hv] at hv'
  rw [hw] at hw'
  cases hv'
  cases hw'
  rw [e1, List.getElem?_map, hv, Option.map_some] at g1
  rw [e1, List.getElem?_map, hw, Option.map_some] at g3
  cases g1
  cases g3
  obtain ⟨row, k1, k2⟩ := g5
  rw [List.getElem?_map, hv, Option.map_some] at k1
  cases k1
  rw [List.getElem?_map, Option.map_eq_some_iff] at k2
  obtain ⟨face, k2, rfl⟩ := k2
  exact ⟨c, v, w, hv, hw, hl, link_grid opt h2 px py pz (hb v (List.mem_of_getElem? hv)) (hb w (List.mem_of_getElem? hw))
    hl hab k2 g6 g7 g8 g9 g10 g2 g4⟩

/-- C81. The connections written for a structured grid with positive sizes: the direction is the
axis on which the cells are next to each other, the area the product of their sizes on the other
axes, the distances are half of their sizes on this axis (with both ways to calculate them), and
the angle is zero between cells at the same height and one between one cell and that below. -/
theorem C81_rows (opt : NodalDistance) (dx dy dz : List ℝ) (o : Option (P3 ℝ)) (layer : Bool) (material : Str)
    (m : Mesh.Mesh ℝ ℤ) (h : structuredGrid dx dy (some dz) (o.map fun p => [p.x, p.y, p.z]) layer material = .ok m)
    (px : ∀ x ∈ dx, 0 < x) (py : ∀ y ∈ dy, 0 < y) (pz : ∀ z ∈ dz, 0 < z)
    (fs : List (List (List ℕ))) (hfs : faces m.cells = .ok fs) (nodes : List (P3 ℝ)) (hnodes : centers m = .ok nodes)
    (bounds : List Bool) (rows : List ConnRow) (hr : conneRows opt m.points nodes fs bounds = .ok rows) :
    ∀ r ∈ rows, ∃ (c : GridAxis) (v w : ℕ × ℕ × ℕ) (b1 b2 : Bool),
      (listing layer dx.length dy.length dz.length)[r.cell1]? = some v ∧
      (listing layer dx.length dy.length dz.length)[r.cell2]? = some w ∧ Linked c v w ∧
      bounds[r.cell1]? = some b1 ∧ bounds[r.cell2]? = some b2 ∧
      r.isot = c.number ∧ r.angle = (if c = .z then 1 else 0) ∧ r.area = across c (cellSizes dx dy dz v) ∧
      r.d1 = (if b1 then 1e-9 else onAxis c (cellSizes dx dy dz v) / 2) ∧
      r.d2 = (if b2 then 1e-9 else onAxis c (cellSizes dx dy dz w) / 2) := by
  intro r hr'
  obtain ⟨e1, -, hd, hv⟩ := grid_cells h
  obtain ⟨fs', hfs', hp, -⟩ := C81_neighbours dx dy dz o layer material m h
  rw [hfs] at hfs'
  cases hfs'
  have hcen := centers_ok (fun c hc => (hv c hc).1) hnodes
  obtain ⟨hr1, hr2⟩ := C59_rows opt m.cells fs hfs hd m.points nodes bounds rows hr
  obtain ⟨w, hw, f, u, b, ps, p, q, s, k1, k2, k3, k4, k5, k6, k7, k8, k9, k10, k11, k12, k13, k14, k15, k16⟩ :=
    forall₂_mem_right hr2 hr'
  have hlt : w.1 < w.2.1 := by
    have := (C42_pairs_once m.cells fs hfs hd hp.two hp.once).2 w.1 w.2.1
    exact (this.1 (List.mem_map.2 ⟨w, hw, rfl⟩)).1
  have cell : ∀ {i : ℕ} {c : P3 ℝ}, nodes[i]? = some c → ∃ vs, (allCells m.cells)[i]? = some vs ∧ IsCenter m.points vs c := by
    intro i c hc
    have hi : i < (allCells m.cells).length := by
      rw [hcen.length_eq]
      exact lt_of_get hc
    exact ⟨_, List.getElem?_eq_getElem hi, forall₂_entry hcen (List.getElem?_eq_getElem hi) hc⟩
  obtain ⟨vs, g1, g2⟩ := cell k3
  obtain ⟨ws, g3, g4⟩ := cell k4
  obtain ⟨c, v, w', l1, l2, l3, l4, l5, l6, l7⟩ := grid_link opt h hfs px py pz hlt k7 g1 g2 g3 g4 k8 k9 k10 k11 k12 k13
  rw [k1, k2]
  have e := k16.trans l7
  rw [Prod.mk.injEq] at e
  exact ⟨c, v, w', f.bound1, f.bound2, l1, l2, l3, k5, k6, k14.trans l4, k15.trans l5, l6, e.1, e.2⟩

/-- C81. Such a grid has a connection for each two cells next to each other, each just once:
`(nx - 1) * ny * nz` along the first axis, `nx * (ny - 1) * nz` along the second one and
`nx * ny * (nz - 1)` along the third one. -/
theorem C81_pairs {K : Type} [Field K] [LinearOrder K] (dx dy dz : List K) (o : Option (P3 K)) (layer : Bool)
    (material : Str) (m : Mesh.Mesh K ℤ)
    (h : structuredGrid dx dy (some dz) (o.map fun p => [p.x, p.y, p.z]) layer material = .ok m)
    (fs : List (List (List ℕ))) (hfs : faces m.cells = .ok fs) :
    let pairs := (writtenConnections (connectionsOf fs)).map fun w => (w.1, w.2.1)
    pairs.Nodup ∧
    (∀ p q, (p, q) ∈ pairs ↔ ∃ a v w, (listing layer dx.length dy.length dz.length)[p]? = some v ∧
      (listing layer dx.length dy.length dz.length)[q]? = some w ∧ Linked a v w) ∧
    pairs.length = (dx.length - 1) * dy.length * dz.length + dx.length * (dy.length - 1) * dz.length +
      dx.length * dy.length * (dz.length - 1) := by
  intro pairs
  obtain ⟨e1, -, hd, -⟩ := grid_cells h
  obtain ⟨fs', hfs', hp, hnb⟩ := C81_neighbours dx dy dz o layer material m h
  rw [hfs] at hfs'
  cases hfs'
  obtain ⟨hn, hm⟩ := C42_pairs_once m.cells fs hfs hd hp.two hp.once
  have hmem : ∀ p q, (p, q) ∈ pairs ↔ ∃ a v w, (listing layer dx.length dy.length dz.length)[p]? = some v ∧
      (listing layer dx.length dy.length dz.length)[q]? = some w ∧ Linked a v w :=
    fun p q => (hm p q).trans (hnb p q)
  refine ⟨hn, hmem, ?_⟩
  have hn : pairs.Nodup := hn
  exact linked_count (C39_listing layer _ _ _).1 (C39_listing true) hn hmem

example : ∃ m fs, structuredGrid [(1 : ℚ), 2] [1] (some [1, 1]) none false "rock".toList = .ok m ∧
    faces m.cells = .ok fs ∧ (0, 1) ∈ (writtenConnections (connectionsOf fs)).map fun w => (w.1, w.2.1) := by
  obtain ⟨m, _, h, -⟩ := C39_grid_3d [(1 : ℚ), 2] [1] [1, 1] none false "rock".toList
  obtain ⟨fs, hfs, -⟩ := C81_neighbours _ _ _ _ _ _ _ h
  exact ⟨m, fs, h, hfs, ((C81_pairs _ _ _ _ _ _ _ h fs hfs).2.1 0 1).2
    ⟨.z, (0, 0, 1), (0, 0, 0), by decide, by decide, by decide⟩⟩

/-- A grid of more than one cell has cells next to each other. -/
theorem grid_two {K : Type} [Field K] [LinearOrder K] {dx dy dz : List K} {o : Option (P3 K)} {layer : Bool}
    {material : Str} {m : Mesh.Mesh K ℤ}
    (h : structuredGrid dx dy (some dz) (o.map fun p => [p.x, p.y, p.z]) layer material = .ok m)
    {fs : List (List (List ℕ))} (hfs : faces m.cells = .ok fs) (h2 : 2 ≤ dx.length * dy.length * dz.length) :
    ∃ i j, Neighbours fs i j := by
  obtain ⟨fs', hfs', -, hnb⟩ := C81_neighbours dx dy dz o layer material m h
  rw [hfs] at hfs'
  cases hfs'
  have key : ∀ a v w, v ∈ listing layer dx.length dy.length dz.length → w ∈ listing layer dx.length dy.length dz.length →
      Linked a v w → ∃ i j, Neighbours fs i j := by
    intro a v w hv hw hl
    obtain ⟨p, hp⟩ := List.getElem?_of_mem hv
    obtain ⟨q, hq⟩ := List.getElem?_of_mem hw
    exact ⟨p, q, (hnb p q).2 ⟨a, v, w, hp, hq, hl⟩⟩
  have x1 : 0 < dx.length := Nat.pos_of_ne_zero fun h0 => by rw [h0] at h2; omega
  have y1 : 0 < dy.length := Nat.pos_of_ne_zero fun h0 => by rw [h0] at h2; omega
  have z1 : 0 < dz.length := Nat.pos_of_ne_zero fun h0 => by rw [h0] at h2; omega
  by_cases hx : 1 < dx.length
  · exact key .x (0, 0, 0) (1, 0, 0) (mem_listing.2 ⟨x1, y1, z1⟩) (mem_listing.2 ⟨hx, y1, z1⟩) rfl
  by_cases hy : 1 < dy.length
  · exact key .y (0, 0, 0) (0, 1, 0) (mem_listing.2 ⟨x1, y1, z1⟩) (mem_listing.2 ⟨x1, hy, z1⟩) rfl
  by_cases hz : 1 < dz.length
  · exact key .z (0, 0, 1) (0, 0, 0) (mem_listing.2 ⟨x1, y1, hz⟩) (mem_listing.2 ⟨x1, y1, z1⟩) rfl
  have ex : dx.length = 1 := by omega
  have ey : dy.length = 1 := by omega
  have ez : dz.length = 1 := by omega
  rw [ex, ey, ez] at h2
  omega

/-- A grid of more than one cell is a mesh of solid cells. -/
theorem grid_solid {dx dy dz : List ℝ} {o : Option (P3 ℝ)} {layer : Bool} {material : Str} {m : Mesh.Mesh ℝ ℤ}
    (h : structuredGrid dx dy (some dz) (o.map fun p => [p.x, p.y, p.z]) layer material = .ok m)
    (h2 : 2 ≤ dx.length * dy.length * dz.length) : SolidMesh m.points m.cells := by
  obtain ⟨h1, -, -⟩ := grid_form h
  obtain ⟨e1, e2, e3, e4⟩ := grid_cells h
  have ht : ∀ tc ∈ typedCells m.cells, tc.2 ∈ allCells m.cells := by
    intro tc htc
    rw [allCells_typed]
    exact List.mem_map.2 ⟨tc, htc, rfl⟩
  refine ⟨by rw [h1]; simp, ?_, ?_, fun tc htc => e3 _ (ht tc htc), fun tc htc => (e4 _ (ht tc htc)).2⟩
  · rw [h1]
    intro b hb
    rw [List.mem_singleton] at hb
    subst hb
    intro h0
    have h0 := congrArg List.length h0
    rw [List.length_map, (C39_listing layer _ _ _).2.1, List.length_nil] at h0
    omega
  · rw [h1]
    intro tc htc
    simp only [typedCells, List.flatMap_cons, List.flatMap_nil, List.append_nil, List.map_map, List.mem_map] at htc
    obtain ⟨v, -, rfl⟩ := htc
    exact ⟨_, rfl, by simp [meshVertices3]⟩

/-- C81. The connections of a grid with more than one cell can always be written. -/
theorem C81_total (opt : NodalDistance) (dx dy dz : List ℝ) (o : Option (P3 ℝ)) (layer : Bool) (material : Str)
    (m : Mesh.Mesh ℝ ℤ) (h : structuredGrid dx dy (some dz) (o.map fun p => [p.x, p.y, p.z]) layer material = .ok m)
    (h2 : 2 ≤ dx.length * dy.length * dz.length) (bounds : List Bool)
    (hb : bounds.length = dx.length * dy.length * dz.length) :
    ∃ fs nodes rows, faces m.cells = .ok fs ∧ centers m = .ok nodes ∧ conneRows opt m.points nodes fs bounds = .ok rows := by
  obtain ⟨e1, e2, e3, e4⟩ := grid_cells h
  obtain ⟨fs, hfs, hp, -⟩ := C81_neighbours dx dy dz o layer material m h
  have hc := C81_centers dx dy dz o layer material m h
  have hrows := faces_rows hfs
  have hlen : fs.length = nCells m.cells := by rw [← hrows.length_eq, typedCells_length]
  obtain ⟨rows, hr⟩ := C59_total_partial opt m.cells fs hfs e3 m.points
    ((listing layer dx.length dy.length dz.length).map (cellMiddle dx dy dz (origin3 dz o))) bounds
    (by
      intro row hr f hf v hv'
      obtain ⟨tc, htc, t, -, k2⟩ := forall₂_mem_right hrows hr
      obtain ⟨idx, -, k3⟩ := forall₂_mem_right k2 hf
      obtain ⟨k, -, k4⟩ := forall₂_mem_right (rowsAt_ok k3) hv'
      exact (grid_solid h h2).inside tc htc v (List.mem_of_getElem? k4))
    (by rw [List.length_map, (C39_listing layer _ _ _).2.1, hlen, e2])
    (by rw [hb, hlen, e2])
    (by
      intro h0
      obtain ⟨i, j, hij⟩ := grid_two h hfs h2
      have := ((C42_pairs_once m.cells fs hfs e3 hp.two hp.once).2 i j).2 hij
      rw [h0] at this
      simp at this)
  exact ⟨fs, _, rows, hfs, hc, hr⟩

example : (∃ m, structuredGrid [(1 : ℝ), 2] [1] (some [1, 1]) none false "rock".toList = .ok m) ∧
    (∀ x ∈ [(1 : ℝ), 2], 0 < x) ∧ 2 ≤ [(1 : ℝ), 2].length * [(1 : ℝ)].length * [(1 : ℝ), 1].length ∧
    across .z (cellSizes [1, 2] [1] [1, 1] (1, 0, 1)) = 2 ∧ onAxis .x (cellSizes [1, 2] [1] [1, 1] (1, 0, 1)) = 2 := by
  obtain ⟨m, _, h, -⟩ := C39_grid_3d [(1 : ℝ), 2] [1] [1, 1] none false "rock".toList
  exact ⟨⟨m, h⟩, by simp, by decide, by simp [across, cellSizes], by simp [onAxis, cellSizes]⟩

/-- C81. From the sizes of a grid to its MESH file (names in the arguments are filled up to five
characters, the others are the subject of C61): it is read back
as one element for each cell, under the label of its place in the list of cells, with the
material of the grid, the product of its sizes as volume and its middle as centre, and one
connection for each two cells next to each other, with the quantities of C81_rows. -/
theorem C81_file (fl : ℝ → Flt) (a : ToughArgs) (dx dy dz : List ℝ) (o : Option (P3 ℝ)) (layer : Bool)
    (material : Str) (m : Mesh.Mesh ℝ ℤ)
    (h : structuredGrid dx dy (some dz) (o.map fun p => [p.x, p.y, p.z]) layer material = .ok m)
    (px : ∀ x ∈ dx, 0 < x) (py : ∀ y ∈ dy, 0 < y) (pz : ∀ z ∈ dz, 0 < z)
    (h2 : 2 ≤ dx.length * dy.length * dz.length) (hcap : dx.length * dy.length * dz.length ≤ capacity 9)
    (hnames : ∀ e ∈ a.names, Filled e.1 ∧ bare e.2 = e.2) (hends : ∀ x ∈ a.ends, Filled x)
    (inconData : List (Str × Arr)) (incon : Option (List Str))
    (hincon : meshInconFile a.incon (nCells m.cells) none inconData = .ok incon) :
    let L := listing layer dx.length dy.length dz.length
    let mats := List.replicate (dx.length * dy.length * dz.length) (1 : ℤ)
    m.cellData = [("material".toList, mats)] ∧
    ∃ (labels : List Str) (cells : List MeshCell) (conns : List MeshConn),
      labeler (dx.length * dy.length * dz.length) none = .ok labels ∧ cells.map (·.label) = labels ∧
      cells.length = dx.length * dy.length * dz.length ∧
      (∀ (i : ℕ) c, cells[i]? = some c → ∃ v, L[i]? = some v ∧ c.material = .name material ∧ c.bound = false ∧
        let s := cellSizes dx dy dz v
        let p := cellMiddle dx dy dz (origin3 dz o) v
        c.volume = fl (s.x * s.y * s.z) ∧ c.x = fl p.x ∧ c.y = fl p.y ∧ c.z = fl p.z) ∧
      (conns.map fun c => (c.label1, c.label2)).Nodup ∧
      (∀ l1 l2, (l1, l2) ∈ conns.map (fun c => (c.label1, c.label2)) ↔
        ∃ (i j : ℕ) (x : GridAxis) (v w : ℕ × ℕ × ℕ), L[i]? = some v ∧ L[j]? = some w ∧ Linked x v w ∧
          labels[i]? = some l1 ∧ labels[j]? = some l2) ∧
      (∀ c ∈ conns, ∃ (i j : ℕ) (x : GridAxis) (v w : ℕ × ℕ × ℕ), L[i]? = some v ∧ L[j]? = some w ∧ Linked x v w ∧
        labels[i]? = some c.label1 ∧ labels[j]? = some c.label2 ∧
        c.isot = x.number ∧ c.angle = fl (if x = .z then 1 else 0) ∧ c.area = fl (across x (cellSizes dx dy dz v)) ∧
        c.d1 = fl (onAxis x (cellSizes dx dy dz v) / 2) ∧ c.d2 = fl (onAxis x (cellSizes dx dy dz w) / 2)) ∧
      ((∀ c ∈ cells, CellFits a.names a.coord c) → (∀ c ∈ conns, MeshConnFits c) →
        ∃ lines, writeTough fl a m none (some mats) none inconData = .ok (lines, incon) ∧
          readFile none lines = .ok { FileRead.empty with
            elements := some (meshElems a.names a.ends a.coord cells)
            coordinates := some a.coord
            connections := some (meshConns conns) }) := by
  intro L mats
  obtain ⟨g1, g2, g3, g4⟩ := grid_form h
  obtain ⟨e1, e2, e3, e4⟩ := grid_cells h
  obtain ⟨fs, hfs, hp, hnb⟩ := C81_neighbours dx dy dz o layer material m h
  have hLl : L.length = dx.length * dy.length * dz.length := (C39_listing layer _ _ _).2.1
  refine ⟨by rw [g3, (C39_listing layer _ _ _).2.1], ?_⟩
  obtain ⟨labels, vols, cells, conns, k1, k2, k3, k4, k5, k6, k7, k8⟩ := C80_write_partial fl a m fs (some mats) none
    inconData incon (grid_solid h h2) hfs hp (grid_two h hfs h2) (by rw [e2]; exact hcap)
    (by
      intro l hl
      cases hl
      rw [List.length_replicate, e2])
    (by intro l hl; cases hl) hnames hends hincon
  rw [e2] at k1 k4 k7
  have hlabels : labels.length = dx.length * dy.length * dz.length := Lemmas.labeler_length k1
  have hcl : cells.length = dx.length * dy.length * dz.length := by rw [← hlabels, ← k3, List.length_map]
  have hmats : materialList (materials (dx.length * dy.length * dz.length) (some mats) m.fieldData) =
      List.replicate (dx.length * dy.length * dz.length) (.name material) := by
    rw [g4]
    unfold materials
    simp only [ne_eq, List.cons_ne_self, not_false_eq_true, if_true]
    have : mats.mapM (dictGet (fieldDict [(material, 1, 3)])) =
        .ok (List.replicate (dx.length * dy.length * dz.length) material) := by
      rw [mapM_eq_map (g := fun _ => material)]
      · rw [List.map_replicate]
      · intro x hx
        rw [List.eq_of_mem_replicate hx]
        rfl
    rw [this]
    simp [materialList]
  obtain ⟨vs, hvs, hvol⟩ := C40_volumes dx dy dz o layer material m (by rintro rfl; simp at h2) (by rintro rfl; simp at h2)
    (by rintro rfl; simp at h2) h
  rw [k2] at hvs
  cases hvs
  refine ⟨labels, cells, conns, k1, k3, hcl, ?_, k5, ?_, ?_, k8⟩
  · intro i c hc
    have hi : i < L.length := by rw [hLl, ← hcl]; exact lt_of_get hc
    obtain ⟨q1, ⟨vol, q2, q3⟩, q4, us, p, q5, q6, q7, q8, q9⟩ := k4 i c hc
    refine ⟨L[i], List.getElem?_eq_getElem hi, ?_, ?_, ?_⟩
    · rw [hmats] at q1
      exact List.eq_of_mem_replicate (List.mem_of_getElem? q1)
    · exact List.eq_of_mem_replicate (List.mem_of_getElem? q4)
    · have hv := List.getElem?_eq_getElem hi
      have hb := mem_listing.1 (show (L[i].1, L[i].2.1, L[i].2.2) ∈ _ from List.mem_of_getElem? hv)
      rw [e1, List.getElem?_map] at q5
      have hv' : (listing layer dx.length dy.length dz.length)[i]? = some L[i] := hv
      rw [hv', Option.map_some] at q5
      cases q5
      have hm := center_grid g2 hb q6
      obtain ⟨x, y, z, v1, v2, v3, v4⟩ := forall₂_entry hvol hv' q2
      have x0 := px _ (List.mem_of_getElem? v1)
      have y0 := py _ (List.mem_of_getElem? v2)
      have z0 := pz _ (List.mem_of_getElem? v3)
      rw [abs_of_pos (by positivity)] at v4
      simp only [cellSizes, getD_get _ _ _ v1, getD_get _ _ _ v2, getD_get _ _ _ v3]
      rw [q3, v4, ← hm]
      exact ⟨rfl, q7, q8, q9⟩
  · intro l1 l2
    rw [k6]
    constructor
    · rintro ⟨i, j, hij, l1, l2⟩
      obtain ⟨x, v, w, hv, hw, hl⟩ := (hnb i j).1 hij
      exact ⟨i, j, x, v, w, hv, hw, hl, l1, l2⟩
    · rintro ⟨i, j, x, v, w, hv, hw, hl, l1, l2⟩
      exact ⟨i, j, (hnb i j).2 ⟨x, v, w, hv, hw, hl⟩, l1, l2⟩
  · intro c hc
    obtain ⟨i, j, a', b, f, u, ps, p, q, s, us, ws, A, r1, r2, r3, r4, r5, r6, r7, r8, r9, r10, r11, r12, r13, r14, r15,
      r16, r17, r18, r19, r20, r21⟩ := k7 c hc
    obtain ⟨x, v, w, l1, l2, l3, l4, l5, l6, l7⟩ := grid_link a.nodal h hfs px py pz r3 r4 r5 r6 r7 r8 r11 r12 r13 r15 r16 r17
    have b1 : f.bound1 = false := List.eq_of_mem_replicate (List.mem_of_getElem? r9)
    have b2 : f.bound2 = false := List.eq_of_mem_replicate (List.mem_of_getElem? r10)
    rw [b1, b2] at l7
    simp only [Bool.false_eq_true, if_false] at l7
    rw [l7] at r20 r21
    refine ⟨i, j, x, v, w, l1, l2, l3, r1, r2, by rw [r18, l4], by rw [r19, l5], by rw [r14, l6], r20, r21⟩

example : 2 ≤ [(1 : ℝ), 2].length * [(1 : ℝ)].length * [(1 : ℝ), 1].length ∧
    [(1 : ℝ), 2].length * [(1 : ℝ)].length * [(1 : ℝ), 1].length ≤ capacity 9 ∧
    meshInconFile false 4 none [] = .ok none := by
  refine ⟨by decide, ?_, by decide +kernel⟩
  show 4 ≤ capacity 9
  decide

end Verif.Props
