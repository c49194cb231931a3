import Verif.Model.MeshioSets
import Verif.Props.Meshio

/-!
# C72: sets of points and cells in conversions from and to meshio
-/

namespace Verif.Props
open Verif.Py Verif.Model Verif.Spec Verif.Mesh

variable {K D S : Type}

/-- C72. With meshio 4 the sets of points and of cells are kept along with the mesh. Missing: as
for the mesh without sets. -/
theorem C72_sets_partial (num : ℤ → D) (material : Str) (m : Mesh.Mesh K D) (s : Sets S) (h : DataReady m)
    (hf : (m.fieldData.map (·.1)).Nodup)
    (h3 : ¬ HasMaterial m → m.fieldData = [] ∨ ∃ e ∈ m.fieldData, e.2.2 = 3) :
    ∃ m', throughMeshio num material m s = .ok (m', s) ∧ m'.points = m.points ∧ m'.cells = m.cells ∧
      m'.pointData = m.pointData ∧ Completed num material m id m' := by
  obtain ⟨mm, m', h1, -, -, -, -, -, h2, h4, h5, h6, h7⟩ := C72_new_partial num material m h hf h3
  refine ⟨m', ?_, h4, h5, h6, h7⟩
  unfold throughMeshio
  rw [h1, ok_bind, h2]
  rfl

/-- C72. With meshio 3 the sets of points are kept. Missing: sets of cells
(`C72_cell_sets_violated`), and as for the mesh without sets. -/
theorem C72_old_sets_partial (num : ℤ → D) (material : Str) (m : Mesh.Mesh K D) (s : Sets S) (h : DataReady m)
    (hc : m.cells ≠ []) (hd : (m.cells.map (·.type)).Nodup)
    (hr : ∀ a ∈ typedCells m.cells, ∀ b ∈ typedCells m.cells, a.1 = b.1 → a.2.length = b.2.length)
    (hf : (m.fieldData.map (·.1)).Nodup)
    (h3 : ¬ HasMaterial m → m.fieldData = [] ∨ ∃ e ∈ m.fieldData, e.2.2 = 3) :
    ∃ m' s', throughMeshioOld num material m s = .ok (m', s') ∧ s'.points = s.points ∧
      (s.cells = [] → s' = s) ∧ m'.points = m.points ∧ m'.cells = m.cells ∧
      m'.pointData = m.pointData ∧ Completed num material m id m' := by
  obtain ⟨mo, m', h1, h2, h4, h5, h6, h7⟩ := C72_old_partial num material m h hc hd hr hf h3
  refine ⟨m', ⟨s.points, []⟩, ?_, rfl, fun hs => ?_, h4, h5, h6, h7⟩
  · unfold throughMeshioOld
    rw [h1, ok_bind, h2]
    rfl
  · obtain ⟨p, c⟩ := s
    simp only at hs
    rw [hs]

example : DataReady twoTypes ∧ twoTypes.cells ≠ [] ∧ (twoTypes.cells.map (·.type)).Nodup ∧
    (∀ a ∈ typedCells twoTypes.cells, ∀ b ∈ typedCells twoTypes.cells, a.1 = b.1 → a.2.length = b.2.length) ∧
    (twoTypes.fieldData.map (·.1)).Nodup ∧ (∃ e ∈ twoTypes.fieldData, e.2.2 = 3) ∧
    (⟨[("inflow".toList, [0, 1])], []⟩ : Sets (List ℕ)).cells = [] :=
  ⟨⟨by decide, by decide, by decide⟩, by decide, by decide, by decide, by decide, by decide, rfl⟩

/-- C72. Each version of meshio is given the sets under the names that it knows and no others:
sets of points and cells for version 4, sets of nodes for version 3. Sets of a mesh of meshio are
taken under any of these names. -/
theorem C72_sets_names (s : Sets S) (t : MioSets S) :
    (setsToMeshio s).pointSets = some s.points ∧ (setsToMeshio s).cellSets = some s.cells ∧
      (setsToMeshio s).nodeSets = none ∧
      (setsToMeshioOld s).nodeSets = some s.points ∧ (setsToMeshioOld s).pointSets = none ∧
      (setsToMeshioOld s).cellSets = none ∧
      (∀ l, t.pointSets = some l ∨ (t.pointSets = none ∧ t.nodeSets = some l) →
        (setsFromMeshio t).points = l) ∧
      (∀ l, t.cellSets = some l → (setsFromMeshio t).cells = l) ∧
      (t.pointSets = none → t.nodeSets = none → (setsFromMeshio t).points = []) ∧
      (t.cellSets = none → (setsFromMeshio t).cells = []) := by
  refine ⟨rfl, rfl, rfl, rfl, rfl, rfl, ?_, ?_, ?_, ?_⟩
  · rintro l (h | ⟨h, h'⟩)
    · simp only [setsFromMeshio, h]
    · simp only [setsFromMeshio, h, h']
  · intro l h
    simp only [setsFromMeshio, h]
  · intro h h'
    simp only [setsFromMeshio, h, h']
  · intro h
    simp only [setsFromMeshio, h]

example : (⟨none, some [("inflow".toList, [0, 1])], none⟩ : MioSets (List ℕ)).nodeSets =
    some [("inflow".toList, [0, 1])] := rfl

/-- C72 is violated with meshio 3 by every mesh with sets of cells: they are lost. -/
theorem C72_cell_sets_violated (num : ℤ → D) (material : Str) (m : Mesh.Mesh K D) (s : Sets S) (hs : s.cells ≠ [])
    (r : Mesh.Mesh K D × Sets S) (h : throughMeshioOld num material m s = .ok r) : r.2 ≠ s := by
  unfold throughMeshioOld at h
  obtain ⟨mm, -, h⟩ := bind_eq_ok.1 h
  obtain ⟨m', -, h⟩ := bind_eq_ok.1 h
  cases h
  intro h0
  exact hs (by rw [← h0]; rfl)

example : (⟨[], [("core".toList, [0])]⟩ : Sets (List ℕ)).cells ≠ [] ∧
    (throughMeshioOld id "dfalt".toList twoTypes (⟨[], [("core".toList, [0])]⟩ : Sets (List ℕ))).toBool = true := by
  decide +kernel

end Verif.Props
