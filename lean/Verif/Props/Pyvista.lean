import Verif.Lemmas.Pyvista

/-!
# C76: conversion from and to pyvista
-/

namespace Verif.Props
open Verif.Py Verif.Model Verif.Mesh Verif.Spec Verif.Lemmas

variable {K D : Type}

/-- C76. A mesh is converted to a grid with the same cells: the numbers of their types in VTK,
their vertices, and their places in the array.
Missing: meshes with blocks without cells, see `C76_empty_violated`. -/
theorem C76_grid_partial (m : Mesh K D) (h0 : m.cells ≠ []) (hne : ∀ b ∈ m.cells, b.data ≠ [])
    (hk : ∀ e ∈ typedCells m.cells, ∃ v, IsVtkCell e v) :
    ∃ g g' vs, toPyvista false m = .ok g ∧ toPyvista true m = .ok g' ∧
      List.Forall₂ IsVtkCell (typedCells m.cells) vs ∧ HoldsOld g vs ∧ HoldsNew g' vs ∧
      (g.points = m.points ∧ g.pointArrays = m.pointData ∧ g.cellArrays = m.cellData) ∧
      g'.points = m.points ∧ g'.pointArrays = m.pointData ∧ g'.cellArrays = m.cellData := by
  obtain ⟨vs, h1, h2⟩ := vtkLoop_ok false m.cells hne hk
  obtain ⟨vs', h1', h2'⟩ := vtkLoop_ok true m.cells hne hk
  have hvs : vs' = vs := by
    have : ∀ {l : List (CellType × List ℕ)} {a b : List (ℕ × List ℕ)}, List.Forall₂ IsVtkCell l a →
        List.Forall₂ IsVtkCell l b → a = b := by
      intro l a b ha hb
      induction ha generalizing b with
      | nil => cases hb; rfl
      | cons hx _ ih =>
        cases hb with
        | cons hy hb =>
          rw [ih hb]
          congr 1
          obtain ⟨x1, x2⟩ := hx
          obtain ⟨y1, y2⟩ := hy
          have e1 := (vtkCodes_ok _ x1).1
          have e2 := (vtkCodes_ok _ y1).1
          simp only at e1 e2
          rw [e1] at e2
          injection e2 with e2
          exact Prod.ext e2 (by rw [x2, y2])
    exact this h1' h1
  subst hvs
  refine ⟨⟨cellStarts 0 vs', padded vs', vs'.map (·.1), m.points, m.pointData, m.cellData⟩,
    ⟨vertexStarts 0 vs', padded vs', vs'.map (·.1), m.points, m.pointData, m.cellData⟩, vs',
    ?_, ?_, h1, ⟨rfl, rfl, rfl⟩, ⟨rfl, rfl, rfl⟩, ⟨rfl, rfl, rfl⟩, rfl, rfl, rfl⟩
  · unfold toPyvista
    rw [h2, ok_bind]
    simp only
    rw [if_neg h0]
    simp
  · unfold toPyvista
    rw [h2', ok_bind]
    simp only
    rw [if_neg h0, if_pos trivial, List.length_map]
    have := connOffsets_padded 0 vs' []
    rw [List.append_nil] at this
    rw [this]

/-- C76. Before VTK 9 a grid is converted to a mesh with its points, the cells that stand for
those of the grid in blocks as large as possible, and its data, with underscores for blanks in
the names; without material data all cells get one material. -/
theorem C76_read (num : ℤ → D) (material : Str) (g : VtkGrid K D) (vs : List (ℕ × List ℕ))
    (es : List (CellType × List ℕ)) (hg : HoldsOld g vs) (hr : List.Forall₂ Represents vs es)
    (hl : ∀ a ∈ es, ∀ b ∈ es, a.1 = b.1 → a.2.length = b.2.length)
    (hp : ((renamed g.pointArrays).map (·.1)).Nodup) (hd : ((renamed g.cellArrays).map (·.1)).Nodup) :
    ∃ r, fromPyvista false num material g = .ok r ∧ r.points = g.points ∧ InBlocks es r.cells ∧
      r.pointData = renamed g.pointArrays ∧
      ("material".toList ∈ (renamed g.cellArrays).map (·.1) → r.cellData = renamed g.cellArrays ∧ r.fieldData = []) ∧
      ("material".toList ∉ (renamed g.cellArrays).map (·.1) →
        r.cellData = renamed g.cellArrays ++ [("material".toList, List.replicate es.length (num 1))] ∧
        r.fieldData = [(material, 1, 3)]) := by
  refine from_cells false num material g hg.types hr ?_ hl hp hd
  rw [hg.offset, hg.types, hg.cells]
  simpa using vtkCells_ok [] [] 0 hr

/-- C76. Before VTK 9 a mesh that is converted to a grid and back has the same points, cells in
the same order and data; the blocks too are the same if no two blocks of the same type follow
each other.
Missing: the names of the groups, see `C76_groups_violated`; VTK 9, see `C76_new_violated`. -/
theorem C76_round_partial (num : ℤ → D) (material : Str) (m : Mesh K D) (h0 : m.cells ≠ [])
    (hne : ∀ b ∈ m.cells, b.data ≠ []) (hk : ∀ e ∈ typedCells m.cells, ∃ v, IsVtkCell e v)
    (hpn : (m.pointData.map (·.1)).Nodup) (hdn : (m.cellData.map (·.1)).Nodup)
    (hpb : ∀ e ∈ m.pointData, ' ' ∉ e.1) (hdb : ∀ e ∈ m.cellData, ' ' ∉ e.1)
    (hm : "material".toList ∈ m.cellData.map (·.1)) :
    ∃ g r, toPyvista false m = .ok g ∧ fromPyvista false num material g = .ok r ∧ r.points = m.points ∧
      InBlocks (typedCells m.cells) r.cells ∧
      ((m.cells.IsChain fun a b => a.type ≠ b.type) → r.cells = m.cells) ∧
      r.pointData = m.pointData ∧ r.cellData = m.cellData := by
  obtain ⟨g, -, vs, h1, -, h2, h3, -, ⟨h4, h5, h6⟩, -⟩ := C76_grid_partial m h0 hne hk
  have hr := isVtk_represents h2
  obtain ⟨r, g1, g2, g3, g4, g5, -⟩ := C76_read num material g vs (typedCells m.cells) h3 hr (isVtk_lengths hk)
    (by rw [h5, renamed_of_noBlank hpb]; exact hpn) (by rw [h6, renamed_of_noBlank hdb]; exact hdn)
  rw [h5, renamed_of_noBlank hpb] at g4
  rw [h6, renamed_of_noBlank hdb] at g5
  exact ⟨g, r, h1, g1, by rw [g2, h4], g3, fun hch => blocks_unique g3.2.1 hne g3.2.2 hch g3.1, g4, (g5 hm).1⟩

/-- C76. From VTK 9 on the same holds for meshes of one cell.
Missing: all others, see `C76_new_violated`. -/
theorem C76_new_partial (num : ℤ → D) (material : Str) (m : Mesh K D) (t : CellType) (c : List ℕ)
    (hc : m.cells = [⟨t, [c]⟩]) (hk : ∃ v, IsVtkCell (t, c) v)
    (hpn : (m.pointData.map (·.1)).Nodup) (hdn : (m.cellData.map (·.1)).Nodup)
    (hpb : ∀ e ∈ m.pointData, ' ' ∉ e.1) (hdb : ∀ e ∈ m.cellData, ' ' ∉ e.1)
    (hm : "material".toList ∈ m.cellData.map (·.1)) :
    ∃ g r, toPyvista true m = .ok g ∧ fromPyvista true num material g = .ok r ∧ r.points = m.points ∧
      r.cells = m.cells ∧ r.pointData = m.pointData ∧ r.cellData = m.cellData := by
  have htc : typedCells m.cells = [(t, c)] := by rw [hc]; rfl
  have hne : ∀ b ∈ m.cells, b.data ≠ [] := by rw [hc]; simp
  have hk' : ∀ e ∈ typedCells m.cells, ∃ v, IsVtkCell e v := by
    rw [htc]
    intro e he
    rw [List.mem_singleton] at he
    rw [he]
    exact hk
  obtain ⟨-, g, vs, -, h1, h2, -, h3, -, h4, h5, h6⟩ := C76_grid_partial m (by rw [hc]; simp) hne hk'
  have hr := isVtk_represents h2
  rw [htc] at hr
  obtain ⟨r, g1, g2, g3, g4, g5, -⟩ := from_cells true num material g h3.types hr
    (by
      rw [h3.offset, h3.types, h3.cells]
      cases hr with
      | @cons v _ _ _ hv hn =>
        cases hn
        have := vtkCell_ok (pre := []) (post := []) (i := 0) hv
        rw [List.append_nil, List.nil_append] at this
        simp only [vertexStarts, List.map_cons, List.map_nil, List.zip_cons_cons, List.zipIdx_cons,
          List.mapM_cons, List.zip_nil_right, List.zipIdx_nil, List.mapM_nil]
        have e : vtkCell true (padded [v]) 0 0 v.1 = vtkCell false (v.2.length :: v.2) 0 0 v.1 := by
          simp [padded, vtkCell]
        rw [e]
        rw [show ([] : List ℕ).length = 0 from rfl] at this
        rw [this]
        rfl)
    (by simp) (by rw [h5, renamed_of_noBlank hpb]; exact hpn) (by rw [h6, renamed_of_noBlank hdb]; exact hdn)
  rw [h5, renamed_of_noBlank hpb] at g4
  rw [h6, renamed_of_noBlank hdb] at g5
  refine ⟨g, r, h1, g1, by rw [g2, h4], ?_, g4, (g5 hm).1⟩
  exact blocks_unique g3.2.1 hne g3.2.2 (by rw [hc]; simp) (by rw [g3.1, htc])

/-- C76. A grid with a cell type that is not known is refused. -/
theorem C76_unknown (v9 : Bool) (num : ℤ → D) (material : Str) (g : VtkGrid K D)
    (h : ∃ t ∈ g.types, t ∉ vtkTable.map (·.2.1) ∧ t ≠ 7 ∧ t ≠ 8 ∧ t ≠ 11) :
    fromPyvista v9 num material g = .error .valueError := by
  unfold fromPyvista
  rw [if_pos]
  intro hall
  obtain ⟨t, h1, h2, h7, h8, h11⟩ := h
  rcases hall t h1 with h | h | h
  · have : ∀ t ∈ vtkTypes.map (·.1), t ∈ vtkTable.map (·.2.1) ∨ t = 7 := by decide +kernel
    rcases this t h with h | h
    · exact h2 h
    · exact h7 h
  · exact h8 h
  · exact h11 h

/-- C76. A mesh with a cell type that VTK does not know is refused, and so is one without
blocks. -/
theorem C76_other (v9 : Bool) (m : Mesh K D) :
    (m.cells = [] → toPyvista v9 m = .error .valueError) ∧
    (∀ b r, m.cells = b :: r → b.type ∉ vtkTable.map (·.1) → toPyvista v9 m = .error .keyError) := by
  constructor
  · intro h
    unfold toPyvista
    rw [h]
    rfl
  · intro b r h hb
    unfold toPyvista
    rw [h, vtkLoop]
    by_cases hp : b.type = .other "polygon".toList
    · rw [hp]
      rfl
    · have : dictGet vtkCodes b.type = .error .keyError := by
        apply dictGet_absent
        intro e he h
        have hm : b.type ∈ vtkCodes.map (·.1) := List.mem_map.2 ⟨e, he, h⟩
        have key : ∀ t ∈ vtkCodes.map (·.1), t ∈ vtkTable.map (·.1) ∨ t = .other "polygon".toList := by
          decide +kernel
        rcases key _ hm with h | h
        · exact hb h
        · exact hp h
      rw [this]
      rfl

/-! Examples and violations. -/

/-- A mesh of a tetrahedron and a triangle with data. -/
def c76Mesh : Mesh ℤ ℤ :=
  ⟨[⟨0, 0, 0⟩, ⟨1, 0, 0⟩, ⟨0, 1, 0⟩, ⟨0, 0, 1⟩], [⟨.tetra, [[0, 1, 3, 2]]⟩, ⟨.triangle, [[1, 2, 3]]⟩],
    [("T".toList, [1, 2, 3, 4])], [("material".toList, [1, 2])],
    [("ROCK1".toList, 1, 3), ("ROCK2".toList, 2, 3)]⟩

example : (c76Mesh.cells ≠ [] ∧ ∀ b ∈ c76Mesh.cells, b.data ≠ []) ∧
    (∀ e ∈ typedCells c76Mesh.cells, ∃ v, IsVtkCell e v) ∧
    (c76Mesh.pointData.map (·.1)).Nodup ∧ (c76Mesh.cellData.map (·.1)).Nodup ∧
    (∀ e ∈ c76Mesh.pointData, ' ' ∉ e.1) ∧ (∀ e ∈ c76Mesh.cellData, ' ' ∉ e.1) ∧
    "material".toList ∈ c76Mesh.cellData.map (·.1) ∧ c76Mesh.cells.IsChain fun a b => a.type ≠ b.type := by
  refine ⟨by decide, ?_, by decide, by decide, by decide, by decide, by decide, by decide⟩
  intro e he
  have : e = (.tetra, [0, 1, 3, 2]) ∨ e = (.triangle, [1, 2, 3]) := by simpa [typedCells, c76Mesh] using he
  rcases this with rfl | rfl
  · exact ⟨(10, [0, 1, 3, 2]), by decide, rfl⟩
  · exact ⟨(5, [1, 2, 3]), by decide, rfl⟩

example : ∃ v, IsVtkCell (.tetra, [0, 1, 3, 2]) v := ⟨(10, [0, 1, 3, 2]), by decide, rfl⟩

/-- A grid of a voxel, a hexahedron and a pixel. -/
def c76Grid : VtkGrid ℤ ℤ :=
  ⟨[0, 9, 18], [8, 0, 1, 2, 3, 4, 5, 6, 7, 8, 0, 1, 3, 2, 4, 5, 7, 6, 4, 0, 1, 2, 3], [11, 12, 8],
    [⟨0, 0, 0⟩, ⟨1, 0, 0⟩, ⟨0, 1, 0⟩, ⟨1, 1, 0⟩, ⟨0, 0, 1⟩, ⟨1, 0, 1⟩, ⟨0, 1, 1⟩, ⟨1, 1, 1⟩],
    [("cell temperature".toList, [1, 2, 3, 4, 5, 6, 7, 8])], []⟩

/-- Its cells. -/
def c76Cells : List (CellType × List ℕ) :=
  [(.hexahedron, [0, 1, 3, 2, 4, 5, 7, 6]), (.hexahedron, [0, 1, 3, 2, 4, 5, 7, 6]), (.quad, [0, 1, 3, 2])]

example : HoldsOld c76Grid [(11, [0, 1, 2, 3, 4, 5, 6, 7]), (12, [0, 1, 3, 2, 4, 5, 7, 6]), (8, [0, 1, 2, 3])] ∧
    List.Forall₂ Represents
      [(11, [0, 1, 2, 3, 4, 5, 6, 7]), (12, [0, 1, 3, 2, 4, 5, 7, 6]), (8, [0, 1, 2, 3])] c76Cells ∧
    (∀ a ∈ c76Cells, ∀ b ∈ c76Cells, a.1 = b.1 → a.2.length = b.2.length) ∧
    ((renamed c76Grid.pointArrays).map (·.1)).Nodup ∧ ((renamed c76Grid.cellArrays).map (·.1)).Nodup :=
  ⟨⟨rfl, rfl, rfl⟩, .cons (.voxel ..) (.cons (.known _ _ 8 _ (by decide)) (.cons (.pixel ..) .nil)),
    by decide, by decide, by decide⟩

example : fromPyvista false id "dfalt".toList c76Grid =
    .ok ⟨c76Grid.points,
      [⟨.hexahedron, [[0, 1, 3, 2, 4, 5, 7, 6], [0, 1, 3, 2, 4, 5, 7, 6]]⟩, ⟨.quad, [[0, 1, 3, 2]]⟩],
      [("cell_temperature".toList, [1, 2, 3, 4, 5, 6, 7, 8])], [("material".toList, [1, 1, 1])],
      [("dfalt".toList, 1, 3)]⟩ := by
  decide +kernel

example : ∃ t ∈ [10, 4], t ∉ vtkTable.map (·.2.1) ∧ t ≠ 7 ∧ t ≠ 8 ∧ t ≠ 11 := by decide

example : CellType.other "polygon6".toList ∉ vtkTable.map (·.1) := by decide

/-- C76 is violated from VTK 9 on: the number of vertices of every cell but the first is looked
up at the wrong place, here a triangle comes back with two vertices. -/
theorem C76_new_violated : ∃ g r, toPyvista true c76Mesh = .ok g ∧
    HoldsNew g [(10, [0, 1, 3, 2]), (5, [1, 2, 3])] ∧
    fromPyvista true id "dfalt".toList g = .ok r ∧
    r.cells = [⟨.tetra, [[0, 1, 3, 2]]⟩, ⟨.triangle, [[1, 2]]⟩] :=
  ⟨⟨[0, 4, 7], [4, 0, 1, 3, 2, 3, 1, 2, 3], [10, 5], c76Mesh.points, c76Mesh.pointData, c76Mesh.cellData⟩,
    ⟨c76Mesh.points, [⟨.tetra, [[0, 1, 3, 2]]⟩, ⟨.triangle, [[1, 2]]⟩], c76Mesh.pointData, c76Mesh.cellData, []⟩,
    by decide +kernel, ⟨rfl, rfl, rfl⟩, by decide +kernel, rfl⟩

/-- C76 is violated by meshes with groups: their names are lost on the way. -/
theorem C76_groups_violated : c76Mesh.fieldData ≠ [] ∧
    (do let g ← toPyvista false c76Mesh; fromPyvista false id "dfalt".toList g) =
      .ok { c76Mesh with fieldData := [] } := by
  decide +kernel

/-- C76 is violated by names that differ in a blank and an underscore: one of the arrays is
lost. -/
theorem C76_names_violated : ∃ r,
    fromPyvista false id "dfalt".toList { c76Grid with cellArrays :=
      [("a b".toList, [1, 2, 3]), ("a_b".toList, [4, 5, 6])] } = .ok r ∧
    r.cellData = [("a_b".toList, [4, 5, 6]), ("material".toList, [1, 1, 1])] :=
  ⟨⟨c76Grid.points,
      [⟨.hexahedron, [[0, 1, 3, 2, 4, 5, 7, 6], [0, 1, 3, 2, 4, 5, 7, 6]]⟩, ⟨.quad, [[0, 1, 3, 2]]⟩],
      [("cell_temperature".toList, [1, 2, 3, 4, 5, 6, 7, 8])],
      [("a_b".toList, [4, 5, 6]), ("material".toList, [1, 1, 1])], [("dfalt".toList, 1, 3)]⟩,
    by decide +kernel, rfl⟩

/-- C76 is violated by polygons: they are read from a grid, but the mesh cannot be converted to
a grid again. -/
theorem C76_polygon_violated : ∃ r : Mesh ℤ ℤ,
    fromPyvista false id "dfalt".toList ⟨[0], [5, 0, 1, 2, 3, 4], [7],
      [⟨0, 0, 0⟩, ⟨2, 0, 0⟩, ⟨2, 1, 0⟩, ⟨1, 2, 0⟩, ⟨0, 1, 0⟩], [], []⟩ = .ok r ∧
    r.cells = [⟨.other "polygon5".toList, [[0, 1, 2, 3, 4]]⟩] ∧ toPyvista false r = .error .keyError :=
  ⟨⟨[⟨0, 0, 0⟩, ⟨2, 0, 0⟩, ⟨2, 1, 0⟩, ⟨1, 2, 0⟩, ⟨0, 1, 0⟩], [⟨.other "polygon5".toList, [[0, 1, 2, 3, 4]]⟩], [],
    [("material".toList, [1])], [("dfalt".toList, 1, 3)]⟩, by decide +kernel, rfl, by decide +kernel⟩

/-- C76 is violated by blocks without cells before VTK 9: as first block they are refused, later
ones shift the places of the cells after them. -/
theorem C76_empty_violated :
    toPyvista false (K := ℤ) (D := ℤ) ⟨[], [⟨.tetra, []⟩], [], [], []⟩ = .error .indexError ∧
    ∃ g, toPyvista false { c76Mesh with cells :=
        [⟨.tetra, [[0, 1, 3, 2]]⟩, ⟨.hexahedron, []⟩, ⟨.triangle, [[1, 2, 3]]⟩] } = .ok g ∧
      g.offset = [0, 9] ∧ g.cells[5]? = some 3 ∧ g.cells[9]? = none :=
  ⟨by decide +kernel, ⟨[0, 9], [4, 0, 1, 3, 2, 3, 1, 2, 3], [10, 5], c76Mesh.points, c76Mesh.pointData,
    c76Mesh.cellData⟩, by decide +kernel, rfl, rfl, rfl⟩

end Verif.Props
