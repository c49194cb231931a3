import Verif.Lemmas.Meshio
import Verif.Props.Mesh

/-!
# C72: conversion from and to meshio
-/

namespace Verif.Props
open Verif.Py Verif.Model Verif.Mesh Verif.Spec

variable {K D : Type}

/-- C72. With meshio 4 a mesh with at most one material becomes a meshio mesh with the same
points, cells, point data and groups, every array of cell data being cut into the parts
that belong to the blocks. Back it is the mesh that was given, the material with its name;
a mesh without material gets a new one. Missing: several materials
(`C72_materials_violated`); groups without one of dimension three for a mesh without
material (`C72_groups_violated`). -/
theorem C72_new_partial (num : ℤ → D) (material : Str) (m : Mesh.Mesh K D) (h : DataReady m)
    (hf : (m.fieldData.map (·.1)).Nodup)
    (h3 : ¬ HasMaterial m → m.fieldData = [] ∨ ∃ e ∈ m.fieldData, e.2.2 = 3) :
    ∃ mm m', toMeshio m = .ok mm ∧ mm.points = m.points ∧ mm.cells = m.cells ∧
      mm.pointData = m.pointData ∧ mm.fieldData = m.fieldData ∧
      List.Forall₂ (fun e p => p.1 = e.1 ∧ p.2.flatten = e.2 ∧
        (m.cells ≠ [] → p.2.map List.length = m.cells.map (·.data.length))) m.cellData mm.cellData ∧
      fromMeshio num material mm = .ok m' ∧ m'.points = m.points ∧ m'.cells = m.cells ∧
      m'.pointData = m.pointData ∧ Completed num material m id m' := by
  let F : List D → List (List D) := fun v => npSplit v (cumsum (m.cells.map (·.data.length))).dropLast
  have hs : ∀ e ∈ m.cellData, split m.cells e.2 = .ok (F e.2) := by
    intro e he
    unfold split
    rw [if_neg]
    rw [not_not, nCells_typed]
    exact h.sizes e he
  have hsd : splitData m = .ok (m.cellData.map fun e => (e.1, F e.2)) := by
    apply mapM_ok
    intro e he
    rw [hs e he]
    rfl
  have hfl : ∀ e ∈ m.cellData, (F e.2).flatten = e.2 := fun e he => (C43_split _ _ _ (hs e he)).1
  refine ⟨⟨m.points, m.cells, m.pointData, m.cellData.map fun e => (e.1, F e.2), m.fieldData⟩, ?_⟩
  have hF : ∀ e ∈ m.cellData, F e.2 ≠ [] := by
    intro e _ hn
    simp [F, npSplit] at hn
  obtain ⟨d, hd, hp⟩ := joinData_ok (cd := m.cellData) (F := F) (List.Perm.refl _) hF h.names h.material
  have hp' : d.Perm (m.cellData.map fun e => (materialRenamed e.1, id e.2)) := by
    refine hp.trans (List.Perm.of_eq (List.map_congr_left fun e he => ?_))
    rw [hfl e he]
    rfl
  obtain ⟨m', hm, h1, h2, h4, hC⟩ := addMaterial_ok num material (m := m)
    (pre := ⟨m.points, m.cells, m.pointData, d, m.fieldData⟩) hp' rfl hf (nCells_typed _) h3
  refine ⟨m', by rw [toMeshio, hsd]; rfl, rfl, rfl, rfl, rfl, ?_, ?_, h1, h2, h4, hC⟩
  · rw [List.forall₂_map_right_iff, List.forall₂_same]
    intro e he
    exact ⟨rfl, hfl e he, (C43_split _ _ _ (hs e he)).2⟩
  · unfold fromMeshio
    simp only
    by_cases h0 : m.cellData = []
    · have hd0 : d = [] := by
        rw [h0] at hp
        exact List.perm_nil.1 hp
      rw [if_pos (by rw [h0]; rfl)]
      rw [hd0] at hm
      exact hm
    · rw [if_neg (by simpa using h0), hd]
      exact hm

/-- A mesh of three blocks, the first and the last of the same type, with a material and
another array. -/
def threeBlocks : Mesh.Mesh ℚ ℤ where
  points := [⟨0, 0, 0⟩, ⟨1, 0, 0⟩, ⟨1, 1, 0⟩, ⟨0, 1, 0⟩, ⟨2, 0, 0⟩, ⟨2, 1, 0⟩]
  cells := [⟨.triangle, [[0, 1, 2]]⟩, ⟨.quad, [[1, 4, 5, 2]]⟩, ⟨.triangle, [[0, 2, 3]]⟩]
  pointData := [("T".toList, [1, 2, 3, 4, 5, 6])]
  cellData := [("gmsh:physical".toList, [1, 2, 3]), ("P".toList, [7, 8, 9])]
  fieldData := [("sand".toList, 1, 3), ("well".toList, 5, 2)]

example : DataReady threeBlocks ∧ HasMaterial threeBlocks ∧ (threeBlocks.fieldData.map (·.1)).Nodup ∧
    toMeshio threeBlocks = .ok ⟨threeBlocks.points, threeBlocks.cells, threeBlocks.pointData,
      [("gmsh:physical".toList, [[1], [2], [3]]), ("P".toList, [[7], [8], [9]])], threeBlocks.fieldData⟩ :=
  ⟨⟨by decide, by decide, by decide⟩, ⟨("gmsh:physical".toList, [1, 2, 3]), by decide, by decide⟩, by decide, by decide⟩

/-- Without material: the new one has number two. -/
example : (match fromMeshio id "dfalt".toList (⟨[⟨0, 0, 0⟩], [⟨.other "vertex".toList, [[0], [0]]⟩], [], [("P".toList, [[7, 8]])],
      [("sand".toList, 1, 3), ("well".toList, 5, 2)]⟩ : MioNew ℚ ℤ) with
    | .ok m => decide (m.cellData = [("P".toList, [7, 8]), ("material".toList, [2, 2])] ∧
        m.fieldData = [("sand".toList, 1, 3), ("well".toList, 5, 2), ("dfalt".toList, 2, 3)])
    | .error _ => false) = true := by decide

theorem completed_congr {num : ℤ → D} {material : Str} {m m' : Mesh.Mesh K D} {f g : List D → List D}
    (h : ∀ e ∈ m.cellData, f e.2 = g e.2) (hC : Completed num material m f m') : Completed num material m g m' := by
  rcases hC with ⟨h1, h2, h3⟩ | ⟨h1, i, h2, h3, h4⟩
  · refine .inl ⟨h1, h2.trans (List.Perm.of_eq (List.map_congr_left fun e he => ?_)), h3⟩
    rw [h e he]
  · refine .inr ⟨h1, i, h2, h3.trans (List.Perm.cons _ (List.Perm.of_eq (List.map_congr_left fun e he => ?_))), h4⟩
    rw [h e he]

theorem old_round (num : ℤ → D) (material : Str) (m : Mesh.Mesh K D) (h : DataReady m) (hc : m.cells ≠ [])
    (hr : ∀ a ∈ typedCells m.cells, ∀ b ∈ typedCells m.cells, a.1 = b.1 → a.2.length = b.2.length)
    (hf : (m.fieldData.map (·.1)).Nodup)
    (h3 : ¬ HasMaterial m → m.fieldData = [] ∨ ∃ e ∈ m.fieldData, e.2.2 = 3) :
    ∃ mo m', toMeshioOld m = .ok mo ∧ fromMeshioOld num material mo = .ok m' ∧ m'.points = m.points ∧
      m'.cells = grouped m.cells ∧ m'.pointData = m.pointData ∧
      Completed num material m (fun v => (regroup (m.cells.map (·.type))
        (npSplit v (cumsum (m.cells.map (·.data.length))).dropLast)).flatten) m' := by
  let F : List D → List (List D) := fun v => npSplit v (cumsum (m.cells.map (·.data.length))).dropLast
  have hs : ∀ e ∈ m.cellData, split m.cells e.2 = .ok (F e.2) := by
    intro e he
    unfold split
    rw [if_neg]
    rw [not_not, nCells_typed]
    exact h.sizes e he
  have hsd : splitData m = .ok (m.cellData.map fun e => (e.1, F e.2)) := by
    apply mapM_ok
    intro e he
    rw [hs e he]
    rfl
  have hlen : ∀ e ∈ m.cellData, (F e.2).length = m.cells.length := by
    intro e he
    have := congrArg List.length ((C43_split _ _ _ (hs e he)).2 hc)
    simpa using this
  have hrect : ∀ t, rectangular ((m.cells.filter fun c => c.type = t).flatMap (·.data)) = true := by
    intro t
    have hall : ∀ d ∈ (m.cells.filter fun c => c.type = t).flatMap (·.data), (t, d) ∈ typedCells m.cells := by
      intro d hd
      obtain ⟨c, hcm, hdc⟩ := List.mem_flatMap.1 hd
      obtain ⟨h1, h2⟩ := List.mem_filter.1 hcm
      have ht : c.type = t := by simpa using h2
      exact List.mem_flatMap.2 ⟨c, h1, List.mem_map.2 ⟨d, hdc, by rw [ht]⟩⟩
    cases hl : (m.cells.filter fun c => c.type = t).flatMap (·.data) with
    | nil => rfl
    | cons x xs =>
      rw [hl] at hall
      rw [rectangular, List.all_eq_true]
      intro y hy
      have := hr _ (hall y (List.mem_cons_of_mem _ hy)) _ (hall x List.mem_cons_self) rfl
      simpa using this
  have hoc := oldCells_ok hrect
  have hnc : nCells (grouped m.cells) = (typedCells m.cells).length := by
    rw [nCells_typed, typedCells_grouped]
    rw [(regroup_perm (by simp [typedPieces])).length_eq, typedPieces_flatten]
  have hty : (((grouped m.cells).map fun c => (c.type, c.data)).map (·.1)) = firsts (m.cells.map (·.type)) := by
    unfold grouped
    rw [List.map_map, List.map_map]
    exact List.map_id _
  by_cases h0 : m.cellData = []
  · refine ⟨⟨m.points, (grouped m.cells).map fun c => (c.type, c.data), m.pointData, [], m.fieldData⟩, ?_⟩
    obtain ⟨m', hm, h1, h2, h4, hC⟩ := addMaterial_ok num material (m := m)
      (pre := ⟨m.points, grouped m.cells, m.pointData, [], m.fieldData⟩)
      (moved := fun v => (regroup (m.cells.map (·.type)) (F v)).flatten) (by rw [h0]; exact .refl _) rfl hf hnc h3
    refine ⟨m', ?_, ?_, h1, h2, h4, hC⟩
    · rw [toMeshioOld, hsd, h0, ok_bind, hoc, ok_bind]
      rfl
    · unfold fromMeshioOld
      simp only [if_true]
      rw [newCells_old]
      exact hm
  · have hcd0 : (m.cellData.map fun e => (e.1, F e.2)) ≠ [] := by simpa using h0
    have hod := oldData_ok (cells := m.cells) (cd := m.cellData.map fun e => (e.1, F e.2)) (by
      intro e he
      obtain ⟨a, ha, rfl⟩ := List.mem_map.1 he
      exact hlen a ha) hcd0
    obtain ⟨r, hr1, hr2⟩ := newData_ok (cells := m.cells) (cd := m.cellData.map fun e => (e.1, F e.2)) hc
      (by rw [List.map_map]; exact h.names) hty
    rw [List.map_map] at hr2
    obtain ⟨d, hd, hp⟩ := joinData_ok (cd := m.cellData) (F := fun v => regroup (m.cells.map (·.type)) (F v)) hr2
      (by
        intro e _ hn
        unfold regroup at hn
        rw [List.map_eq_nil_iff] at hn
        obtain ⟨c, hcm⟩ := List.exists_mem_of_ne_nil _ hc
        have : c.type ∈ firsts (m.cells.map (·.type)) := mem_firsts.2 (List.mem_map_of_mem hcm)
        rw [hn] at this
        simp at this) h.names h.material
    obtain ⟨m', hm, h1, h2, h4, hC⟩ := addMaterial_ok num material (m := m)
      (pre := ⟨m.points, grouped m.cells, m.pointData, d, m.fieldData⟩)
      (moved := fun v => (regroup (m.cells.map (·.type)) (F v)).flatten) hp rfl hf hnc h3
    refine ⟨_, m', by rw [toMeshioOld, hsd, ok_bind, hoc, ok_bind, hod]; rfl, ?_, h1, h2, h4, hC⟩
    unfold fromMeshioOld
    simp only
    rw [if_neg, hr1, ok_bind, hd, ok_bind, newCells_old]
    · exact hm
    · rw [List.map_eq_nil_iff]
      intro hn
      obtain ⟨c, hcm⟩ := List.exists_mem_of_ne_nil _ hc
      have : c.type ∈ firsts (m.cells.map (·.type)) := mem_firsts.2 (List.mem_map_of_mem hcm)
      rw [hn] at this
      simp at this

/-- C72. The same with meshio 3 if the blocks of cells have different types. Missing: as
before, and blocks of the same type (`C72_old_order_partial`, `C72_old_violated`). -/
theorem C72_old_partial (num : ℤ → D) (material : Str) (m : Mesh.Mesh K D) (h : DataReady m) (hc : m.cells ≠ [])
    (hd : (m.cells.map (·.type)).Nodup)
    (hr : ∀ a ∈ typedCells m.cells, ∀ b ∈ typedCells m.cells, a.1 = b.1 → a.2.length = b.2.length)
    (hf : (m.fieldData.map (·.1)).Nodup)
    (h3 : ¬ HasMaterial m → m.fieldData = [] ∨ ∃ e ∈ m.fieldData, e.2.2 = 3) :
    ∃ mo m', toMeshioOld m = .ok mo ∧ fromMeshioOld num material mo = .ok m' ∧ m'.points = m.points ∧
      m'.cells = m.cells ∧ m'.pointData = m.pointData ∧ Completed num material m id m' := by
  obtain ⟨mo, m', h1, h2, h4, h5, h6, h7⟩ := old_round num material m h hc hr hf h3
  refine ⟨mo, m', h1, h2, h4, by rw [h5, grouped_of_nodup hd], h6, completed_congr ?_ h7⟩
  intro e he
  have hs : split m.cells e.2 = .ok (npSplit e.2 (cumsum (m.cells.map (·.data.length))).dropLast) := by
    unfold split
    rw [if_neg]
    rw [not_not, nCells_typed]
    exact h.sizes e he
  obtain ⟨hs1, hs2⟩ := C43_split _ _ _ hs
  rw [regroup_of_nodup hd, hs1]
  · rfl
  · have := congrArg List.length (hs2 hc)
    simpa using this

/-- A mesh of two triangles and a quad without material. -/
def twoTypes : Mesh.Mesh ℚ ℤ :=
  { threeBlocks with
    cells := [⟨.triangle, [[0, 1, 2], [0, 2, 3]]⟩, ⟨.quad, [[1, 4, 5, 2]]⟩]
    cellData := [("S".toList, [1, 2, 3]), ("P".toList, [7, 8, 9])] }

example : DataReady twoTypes ∧ twoTypes.cells ≠ [] ∧ (twoTypes.cells.map (·.type)).Nodup ∧
    (∀ a ∈ typedCells twoTypes.cells, ∀ b ∈ typedCells twoTypes.cells, a.1 = b.1 → a.2.length = b.2.length) ∧
    (twoTypes.fieldData.map (·.1)).Nodup ∧ ∃ e ∈ twoTypes.fieldData, e.2.2 = 3 :=
  ⟨⟨by decide, by decide, by decide⟩, by decide, by decide, by decide, by decide, by decide⟩

/-- C72. With meshio 3 the cells of a mesh are put together by type: every cell is there
once, cells of a type keep their order, and all data are moved with their cells. -/
theorem C72_old_order_partial (num : ℤ → D) (material : Str) (m : Mesh.Mesh K D) (h : DataReady m) (hc : m.cells ≠ [])
    (hr : ∀ a ∈ typedCells m.cells, ∀ b ∈ typedCells m.cells, a.1 = b.1 → a.2.length = b.2.length)
    (hf : (m.fieldData.map (·.1)).Nodup)
    (h3 : ¬ HasMaterial m → m.fieldData = [] ∨ ∃ e ∈ m.fieldData, e.2.2 = 3) :
    ∃ mo m' ord moved, toMeshioOld m = .ok mo ∧ fromMeshioOld num material mo = .ok m' ∧
      m'.points = m.points ∧ m'.pointData = m.pointData ∧ (m'.cells.map (·.type)).Nodup ∧
      (m'.cells.map (·.type)).Sublist (m.cells.map (·.type)) ∧ TypeOrder m.cells ord ∧
      Moved ord (typedCells m.cells) (typedCells m'.cells) ∧
      (∀ e ∈ m.cellData, Moved ord e.2 (moved e.2)) ∧ Completed num material m moved m' := by
  obtain ⟨mo, m', h1, h2, h4, h5, h6, h7⟩ := old_round num material m h hc hr hf h3
  have hty : (grouped m.cells).map (·.type) = firsts (m.cells.map (·.type)) := by
    unfold grouped
    rw [List.map_map]
    exact List.map_id _
  refine ⟨mo, m', groupOrder m.cells, _, h1, h2, h4, h6, ?_, ?_, groupOrder_ok hc, ?_, ?_, h7⟩
  · rw [h5, hty]; exact firsts_nodup _
  · rw [h5, hty]; exact firsts_sublist _
  · rw [h5, typedCells_grouped]
    have := groupOrder_moved hc (P := typedPieces m.cells) (by
      unfold typedPieces
      rw [List.map_map]
      apply List.map_congr_left
      intro c _
      simp)
    rw [typedPieces_flatten] at this
    exact this
  · intro e he
    have hs : split m.cells e.2 = .ok (npSplit e.2 (cumsum (m.cells.map (·.data.length))).dropLast) := by
      unfold split
      rw [if_neg]
      rw [not_not, nCells_typed]
      exact h.sizes e he
    obtain ⟨hs1, hs2⟩ := C43_split _ _ _ hs
    have := groupOrder_moved hc (hs2 hc)
    rw [hs1] at this
    exact this

example : threeBlocks.cells ≠ [] ∧ (∀ a ∈ typedCells threeBlocks.cells, ∀ b ∈ typedCells threeBlocks.cells,
    a.1 = b.1 → a.2.length = b.2.length) := by decide

/-- C72. A mesh with an array of cell data of another length than the number of cells is
refused. -/
theorem C72_refuses (m : Mesh.Mesh K D) (e : Str × List D) (he : e ∈ m.cellData)
    (hl : e.2.length ≠ (typedCells m.cells).length) :
    toMeshio m = .error .valueError ∧ toMeshioOld m = .error .valueError := by
  have hsp : ∀ v : List D, (∃ p, split m.cells v = .ok p) ∨ split m.cells v = .error .valueError := by
    intro v
    unfold split
    split
    · exact .inr rfl
    · exact .inl ⟨_, rfl⟩
  have : splitData m = .error .valueError := by
    unfold splitData
    generalize m.cellData = cd at he
    induction cd with
    | nil => simp at he
    | cons a cd ih =>
      rw [List.mapM_cons]
      rcases hsp a.2 with ⟨p, hp⟩ | hp
      · rw [hp]
        have hne : a ≠ e := by
          rintro rfl
          unfold split at hp
          rw [if_pos (by rw [nCells_typed]; exact hl)] at hp
          cases hp
        rw [List.mem_cons] at he
        rw [ok_bind, ok_bind, ih (he.resolve_left (Ne.symm hne))]
        rfl
      · rw [hp]
        rfl
  constructor
  · rw [toMeshio, this]; rfl
  · rw [toMeshioOld, this]; rfl

example : ("P".toList, [7]) ∈ ({ threeBlocks with cellData := [("P".toList, [7])] }).cellData ∧
    [7].length ≠ (typedCells threeBlocks.cells).length := by decide

/-- C72 is violated by meshes without material that have groups but none of dimension
three (for example the boundaries of a mesh from Gmsh): they are refused. -/
theorem C72_groups_violated (num : ℤ → D) (material : Str) (m : MioNew K D) (h0 : m.cellData = [])
    (h1 : m.fieldData ≠ []) (h3 : ∀ e ∈ m.fieldData, e.2.2 ≠ 3) :
    fromMeshio num material m = .error .valueError := by
  unfold fromMeshio
  rw [if_pos h0, ok_bind]
  simp only
  unfold addMaterial
  rw [if_neg (by simp)]
  show (freshMaterial m.fieldData >>= _) = _
  unfold freshMaterial
  rw [if_neg h1, List.filter_eq_nil_iff.2 (by intro e he; simpa using h3 e he)]
  rfl

example : ([("inflow".toList, 1, 2)] : List (Str × ℤ × ℤ)) ≠ [] ∧
    ∀ e ∈ ([("inflow".toList, 1, 2)] : List (Str × ℤ × ℤ)), e.2.2 ≠ 3 := by decide

/-- C72 is violated by a mesh with two arrays that are taken for the material: the one
named `material` is lost. -/
theorem C72_materials_violated : ∃ (m : Mesh.Mesh ℚ ℤ) (mm : MioNew ℚ ℤ) (m' : Mesh.Mesh ℚ ℤ),
    (m.cellData.map (·.1)).Nodup ∧ toMeshio m = .ok mm ∧ fromMeshio id "dfalt".toList mm = .ok m' ∧
      dictGet m.cellData "material".toList = .ok [1, 2, 3] ∧
      dictGet m'.cellData "material".toList = .ok [4, 5, 6] ∧ m'.cellData.length = 1 :=
  ⟨{ threeBlocks with cellData := [("medit:ref".toList, [4, 5, 6]), ("material".toList, [1, 2, 3])] },
    { points := threeBlocks.points, cells := threeBlocks.cells, pointData := threeBlocks.pointData,
      fieldData := threeBlocks.fieldData,
      cellData := [("medit:ref".toList, [[4], [5], [6]]), ("material".toList, [[1], [2], [3]])] },
    { threeBlocks with cellData := [("material".toList, [4, 5, 6])] },
    by decide, by decide, by decide, by decide, by decide, by decide⟩

/-- C72 is violated with meshio 3 by blocks of the same type that do not follow each other:
the cells, and so their labels, have another order. -/
theorem C72_old_violated : ∃ (mo : MioOld ℚ ℤ) (m' : Mesh.Mesh ℚ ℤ), toMeshioOld threeBlocks = .ok mo ∧
    fromMeshioOld id "dfalt".toList mo = .ok m' ∧
    allCells threeBlocks.cells = [[0, 1, 2], [1, 4, 5, 2], [0, 2, 3]] ∧
    allCells m'.cells = [[0, 1, 2], [0, 2, 3], [1, 4, 5, 2]] :=
  ⟨{ points := threeBlocks.points, cells := [(.triangle, [[0, 1, 2], [0, 2, 3]]), (.quad, [[1, 4, 5, 2]])],
      pointData := threeBlocks.pointData, fieldData := threeBlocks.fieldData,
      cellData := [(.triangle, [("gmsh:physical".toList, [1, 3]), ("P".toList, [7, 9])]),
        (.quad, [("gmsh:physical".toList, [2]), ("P".toList, [8])])] },
    { threeBlocks with
      cells := [⟨.triangle, [[0, 1, 2], [0, 2, 3]]⟩, ⟨.quad, [[1, 4, 5, 2]]⟩]
      cellData := [("P".toList, [7, 9, 8]), ("material".toList, [1, 3, 2])] },
    by decide, by decide, by decide, by decide⟩

/-- C72 is violated with meshio 3 by a mesh that has data for some cell types only: it is a
KeyError. -/
theorem C72_some_types_violated : fromMeshioOld id "dfalt".toList
    ({ points := threeBlocks.points, cells := [(.triangle, [[0, 1, 2]]), (.quad, [[1, 4, 5, 2]])],
       pointData := [], fieldData := [], cellData := [(.triangle, [("P".toList, [7])])] } : MioOld ℚ ℤ) =
    .error .keyError := by decide

end Verif.Props
