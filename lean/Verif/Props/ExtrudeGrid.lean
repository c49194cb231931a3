import Verif.Lemmas.ExtrudeGrid

/-!
# Extruded grids (C89)
-/

namespace Verif.Props
open Verif.Py Verif.Model Verif.Spec Verif.Mesh

section
variable {K : Type} [Field K] [LinearOrder K]

theorem grid_points_ne (order : Order) (dx dy : List K) : grid2 order (edges dx) (edges dy) ≠ [] := by
  intro h
  have := grid2_length order (edges dx) (edges dy)
  rw [h, edges_length, edges_length] at this
  simp at this

theorem grid2_made (dx dy : List K) (a b : K) (layer : Bool) (material : Str) :
    structuredGrid dx dy none (some [a, b]) layer material =
      .ok (gridMesh ((grid2 (if layer then .F else .C) (edges dx) (edges dy)).map fun p =>
          (⟨p.1 + a, p.2 + b, 0⟩ : P3 K)) .quad
        ((listing2 layer dx.length dy.length).map fun v => (meshVertices2 v).map
          (index2 (if layer then .F else .C) (dx.length + 1) (dy.length + 1))) material) := by
  unfold structuredGrid
  simp only
  rw [grid2d_ok]
  rfl

theorem grid3_made (dx dy dz : List K) (a b c : K) (layer : Bool) (material : Str) :
    structuredGrid dx dy (some dz) (some [a, b, c]) layer material =
      .ok (gridMesh (((grid3 (if layer then .F else .C) (edges dx) (edges dy) (edges dz)).map
          fun p => (⟨p.1, p.2.1, p.2.2⟩ : P3 K)).map fun p => ⟨p.x + a, p.y + b, p.z + c⟩) .hexahedron
        ((listing layer dx.length dy.length dz.length).map fun v => (meshVertices3 v).map
          (index3 (if layer then .F else .C) (dx.length + 1) (dy.length + 1) (dz.length + 1))) material) := by
  unfold structuredGrid
  simp only
  rw [grid3d_ok]
  rfl

/-- C89. A 2D grid listed by layers and extruded upwards is the 3D grid of the same sizes that
starts at level zero: the points are the same in the same order, so are the materials, and the
cells are the same layers, from bottom to top in the one and from top to bottom in the other. -/
theorem C89_layers (dx dy dz : List K) (a b : K) (material : Str) :
    ∃ (m2 m3 e : Mesh K ℤ) (L : List (List (List ℕ))),
      structuredGrid dx dy none (some [a, b]) true material = .ok m2 ∧
      structuredGrid dx dy (some dz) (some [a, b, 0]) true material = .ok m3 ∧
      extrude (.three m2.points) m2 dz 2 = .ok e ∧
      e.points = m3.points ∧ e.pointData = m3.pointData ∧ e.cellData = m3.cellData ∧
      e.fieldData = m3.fieldData ∧
      L.length = dz.length ∧ (∀ l ∈ L, l.length = dx.length * dy.length) ∧
      e.cells = [⟨.hexahedron, L.flatten⟩] ∧ m3.cells = [⟨.hexahedron, L.reverse.flatten⟩] := by
  have hn : (grid2 .F (edges dx) (edges dy)).length = (dx.length + 1) * (dy.length + 1) := by
    rw [grid2_length, edges_length, edges_length]
  have hc : (listing2 true dx.length dy.length).length = dx.length * dy.length := by
    simp only [listing2, if_true]
    rw [length_flatMap_const (n := dx.length) (by simp), List.length_range, Nat.mul_comm]
  refine ⟨_, _, _, (List.range dz.length).map fun k => ((listing2 true dx.length dy.length).map fun v =>
        (meshVertices2 v).map (index2 .F (dx.length + 1) (dy.length + 1))).map
          (standing ((dx.length + 1) * (dy.length + 1)) k),
    grid2_made dx dy a b true material, grid3_made dx dy dz a b 0 true material,
    extrude_grid _ _ (a, b) material dz (grid_points_ne _ _ _), ?_, rfl, ?_, rfl, by simp, ?_, ?_, ?_⟩
  · exact (layers_points dx dy dz (a, b)).symm
  · simp only [gridMesh]
    refine congrArg (fun n => [("material".toList, List.replicate n (1 : ℤ))]) ?_
    rw [length_flatMap_const (n := dx.length * dy.length) (by simp [hc]), List.length_map,
      (listing_perm true dx.length dy.length dz.length).length_eq,
      length_flatMap_const (n := dx.length * dy.length) (by simp [hc])]
  · intro l hl
    obtain ⟨k, -, rfl⟩ := List.mem_map.1 hl
    simp [hc]
  · simp only [gridMesh, if_true, hn, List.flatMap_def]
  · simp only [gridMesh, if_true]
    rw [layers_cells, ← List.map_reverse, List.flatMap_def]

/-- C89. In either order of listing, the extruded grid and the 3D grid have the same points and
the same cells up to their order: as many cells, with their vertices at the same places. -/
theorem C89_cells (dx dy dz : List K) (a b : K) (layer : Bool) (material : Str) :
    ∃ (m2 m3 e : Mesh K ℤ) (c3 ce : List (List ℕ)) (p3 pe : List (List (P3 K))),
      structuredGrid dx dy none (some [a, b]) layer material = .ok m2 ∧
      structuredGrid dx dy (some dz) (some [a, b, 0]) layer material = .ok m3 ∧
      extrude (.three m2.points) m2 dz 2 = .ok e ∧
      e.points.Perm m3.points ∧
      m3.cells = [⟨.hexahedron, c3⟩] ∧ e.cells = [⟨.hexahedron, ce⟩] ∧
      List.Forall₂ (Vertices m3.points) c3 p3 ∧ List.Forall₂ (Vertices e.points) ce pe ∧ pe.Perm p3 := by
  refine ⟨_, _, _, _, _, (listing layer dx.length dy.length dz.length).map (corners dx dy dz ⟨a, b, 0⟩),
    ((List.range dz.length).flatMap fun k => (listing2 layer dx.length dy.length).map fun v =>
      (v.1, v.2, k)).map (corners dx dy dz ⟨a, b, 0⟩),
    grid2_made dx dy a b layer material, grid3_made dx dy dz a b 0 layer material,
    extrude_grid _ _ (a, b) material dz (grid_points_ne _ _ _), ?_, rfl, rfl, ?_, ?_, ?_⟩
  · cases layer with
    | true => exact List.Perm.of_eq (layers_points dx dy dz (a, b)).symm
    | false => exact (columns_points dx dy dz (a, b)).symm
  · rw [List.forall₂_map_right_iff, List.forall₂_map_left_iff, List.forall₂_same]
    rintro ⟨i, j, k⟩ hv
    obtain ⟨hi, hj, hk⟩ := mem_listing.1 hv
    unfold Vertices
    simp only [meshVertices3, corners, List.map_cons, List.map_nil, List.forall₂_cons]
    refine ⟨?_, ?_, ?_, ?_, ?_, ?_, ?_, ?_, .nil⟩ <;>
      exact point_get _ _ _ _ ⟨a, b, 0⟩ _ _ _ (by omega) (by omega) (by omega)
  · rw [show ((List.range dz.length).flatMap fun l => ((listing2 layer dx.length dy.length).map fun v =>
          (meshVertices2 v).map (index2 (if layer then .F else .C) (dx.length + 1) (dy.length + 1))).map
            (standing (grid2 (if layer then .F else .C) (edges dx) (edges dy)).length l)) =
        ((List.range dz.length).flatMap fun k => (listing2 layer dx.length dy.length).map fun v =>
          (v.1, v.2, k)).map fun w => standing (grid2 (if layer then .F else .C) (edges dx) (edges dy)).length w.2.2
            ((meshVertices2 (w.1, w.2.1)).map (index2 (if layer then .F else .C) (dx.length + 1)
              (dy.length + 1))) by
      simp only [List.map_flatMap, List.map_map, Function.comp_def]]
    rw [List.forall₂_map_right_iff, List.forall₂_map_left_iff, List.forall₂_same]
    rintro ⟨i, j, k⟩ hv
    obtain ⟨hi, hj, hk⟩ := mem_listing.1 ((listing_perm layer dx.length dy.length dz.length).mem_iff.2 hv)
    exact standing_vertices _ dx dy dz (a, b) i j k hi hj hk
  · exact (listing_perm layer dx.length dy.length dz.length).symm.map _

/-- A 2D grid extruded by two layers. -/
example : (structuredGrid (K := ℚ) [1, 2] [3] none (some [5, 6]) true "dfalt".toList).toOption.isSome ∧
    (do
      let m2 ← structuredGrid (K := ℚ) [1, 2] [3] none (some [5, 6]) true "dfalt".toList
      let e ← extrude (.three m2.points) m2 [10, 20] 2
      let m3 ← structuredGrid [1, 2] [3] (some [10, 20]) (some [5, 6, 0]) true "dfalt".toList
      .ok (decide (e.points.map P3.row = m3.points.map P3.row), e.cells.map (·.data), m3.cells.map (·.data)) :
        Except PyErr _).toOption =
      some (true,
        [[[0, 1, 4, 3, 6, 7, 10, 9], [1, 2, 5, 4, 7, 8, 11, 10], [6, 7, 10, 9, 12, 13, 16, 15],
          [7, 8, 11, 10, 13, 14, 17, 16]]],
        [[[6, 7, 10, 9, 12, 13, 16, 15], [7, 8, 11, 10, 13, 14, 17, 16], [0, 1, 4, 3, 6, 7, 10, 9],
          [1, 2, 5, 4, 7, 8, 11, 10]]]) := by
  decide +kernel

/-- C89. The orders really differ: listed by columns, the points come in another order, and so
do the cells in either listing. -/
theorem C89_order :
    (do
      let m2 ← structuredGrid (K := ℚ) [1] [1] none (some [0, 0]) false "dfalt".toList
      let e ← extrude (.three m2.points) m2 [1] 2
      let m3 ← structuredGrid (K := ℚ) [1] [1] (some [1]) (some [0, 0, 0]) false "dfalt".toList
      .ok (decide (e.points.map P3.row = m3.points.map P3.row)) : Except PyErr Bool).toOption = some false ∧
    (do
      let m2 ← structuredGrid (K := ℚ) [1] [1] none (some [0, 0]) true "dfalt".toList
      let e ← extrude (.three m2.points) m2 [1, 1] 2
      let m3 ← structuredGrid (K := ℚ) [1] [1] (some [1, 1]) (some [0, 0, 0]) true "dfalt".toList
      .ok (decide (e.cells.map (·.data) = m3.cells.map (·.data))) : Except PyErr Bool).toOption = some false := by
  decide +kernel

end

end Verif.Props
