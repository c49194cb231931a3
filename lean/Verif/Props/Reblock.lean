import Verif.Lemmas.Reblock

/-!
# C102: how cells are put into blocks does not matter
-/

namespace Verif.Mesh
open Verif.Py Verif.Model Verif.Spec Verif.Props

section
variable {K D : Type} [Field K] [LinearOrder K]

/-- C102. Centres, volumes, faces and connections depend on the cells one by one only. -/
theorem C102_geometry (m m' : Mesh K D) (h : SameCells m m') (hf : FullBlocks m.cells) (hf' : FullBlocks m'.cells) :
    nCells m.cells = nCells m'.cells ∧ centers m = centers m' ∧ volumes m = volumes m' ∧
      faces m.cells = faces m'.cells ∧ facesArray m.cells = facesArray m'.cells ∧
      connections m.cells = connections m'.cells := by
  have e : faces m.cells = faces m'.cells := by rw [faces_typed, faces_typed, h.cells]
  refine ⟨?_, ?_, ?_, e, ?_, ?_⟩
  · rw [← typedCells_length, ← typedCells_length, h.cells]
  · rw [centers_typed hf, centers_typed hf', h.cells, h.points]
  · rw [volumes_typed hf, volumes_typed hf', h.cells, h.points]
  · unfold facesArray
    rw [e]
  · unfold connections
    rw [e]

/-- C102. So do the nearest cells and the cells in a box. -/
theorem C102_search (m m' : Mesh K D) (h : SameCells m m') (hf : FullBlocks m.cells) (hf' : FullBlocks m'.cells)
    (q : List K) (qs : List (List K)) (b : Box K) :
    near m q = near m' q ∧ nearAll m qs = nearAll m' qs ∧ boxFilter m b = boxFilter m' b := by
  have e : centers m = centers m' := by rw [centers_typed hf, centers_typed hf', h.cells, h.points]
  unfold near nearAll boxFilter
  rw [e]
  exact ⟨rfl, rfl, rfl⟩

/-- C102. Interpolated data are the same. -/
theorem C102_interpolate (m m' : Mesh K (Row K)) (h : SameCells m m') (hf : FullBlocks m.cells)
    (hf' : FullBlocks m'.cells) :
    (cellToPoint m).map (fun r => (r.points, r.pointData, r.cellData, r.fieldData)) =
        (cellToPoint m').map (fun r => (r.points, r.pointData, r.cellData, r.fieldData)) ∧
      (pointToCell m).map (fun r => (r.points, r.pointData, r.cellData, r.fieldData)) =
        (pointToCell m').map (fun r => (r.points, r.pointData, r.cellData, r.fieldData)) := by
  have e1 : volumes m = volumes m' := by rw [volumes_typed hf, volumes_typed hf', h.cells, h.points]
  have e2 : m.cells.flatMap (·.data) = m'.cells.flatMap (·.data) := by
    rw [← typedCells_snd, ← typedCells_snd, h.cells]
  unfold cellToPoint pointToCell
  rw [e1, e2, h.points, h.pointData, h.cellData, h.fieldData]
  constructor
  · cases volumes m' with
    | error e => rfl
    | ok vols =>
      simp only [ok_bind]
      cases pointCells m'.points.length (m'.cells.flatMap (·.data)) vols with
      | error e => rfl
      | ok pc =>
        simp only [ok_bind]
        cases interpolateData m'.cellData (pc.map (·.1)) (pc.map (·.2)) with
        | error e => rfl
        | ok pd => rfl
  · cases interpolateData m'.pointData (m'.cells.flatMap (·.data)) [] with
    | error e => rfl
    | ok cd => rfl

end

/-- C102. The MESH and INCON files are the same. -/
theorem C102_tough {D : Type} (fl : ℝ → Flt) (a : ToughArgs) (m m' : Mesh ℝ D) (labelLength : Option ℤ)
    (mats : Option (List ℤ)) (boundary : Option (List Bool)) (inconData : List (Str × Arr)) (h : SameCells m m')
    (hf : FullBlocks m.cells) (hf' : FullBlocks m'.cells) :
    writeTough fl a m labelLength mats boundary inconData = writeTough fl a m' labelLength mats boundary inconData := by
  obtain ⟨e1, e2, e3, e4, -, -⟩ := C102_geometry m m' h hf hf'
  unfold writeTough writeToughOf
  rw [e1, e2, e3, e4, h.points, h.fieldData]

/-- Two tetrahedra in one block. -/
def tetrasTogether : Mesh ℚ ℤ where
  points := [⟨0, 0, 0⟩, ⟨1, 0, 0⟩, ⟨0, 1, 0⟩, ⟨0, 0, 1⟩, ⟨1, 1, 1⟩]
  cells := [⟨.tetra, [[0, 1, 2, 3], [1, 2, 3, 4]]⟩]
  pointData := []
  cellData := [("material".toList, [1, 2])]
  fieldData := []

/-- The same tetrahedra in two blocks. -/
def tetrasApart : Mesh ℚ ℤ where
  points := [⟨0, 0, 0⟩, ⟨1, 0, 0⟩, ⟨0, 1, 0⟩, ⟨0, 0, 1⟩, ⟨1, 1, 1⟩]
  cells := [⟨.tetra, [[0, 1, 2, 3]]⟩, ⟨.tetra, [[1, 2, 3, 4]]⟩]
  pointData := []
  cellData := [("material".toList, [1, 2])]
  fieldData := []

example : SameCells tetrasTogether tetrasApart ∧ FullBlocks tetrasTogether.cells ∧ FullBlocks tetrasApart.cells ∧
    tetrasTogether.cells ≠ tetrasApart.cells ∧ volumes tetrasApart = .ok [1 / 6, 1 / 3] ∧
    connections tetrasApart.cells = .ok [[1, -1, -1, -1, -1, -1], [-1, -1, -1, 0, -1, -1]] :=
  ⟨⟨rfl, rfl, rfl, rfl, rfl⟩, by decide, by decide, by decide, by decide +kernel, by decide +kernel⟩

/-- C102 is violated by empty blocks of cells: no mesh with an empty block has volumes, so that
it cannot be written. -/
theorem C102_empty_block_violated {D : Type} (fl : ℝ → Flt) (a : ToughArgs) (m : Mesh ℝ D) (labelLength : Option ℤ)
    (mats : Option (List ℤ)) (boundary : Option (List Bool)) (inconData : List (Str × Arr))
    (hf : ¬ FullBlocks m.cells) (r : List Str × Option (List Str)) :
    writeTough fl a m labelLength mats boundary inconData ≠ .ok r := by
  intro h
  unfold writeTough writeToughOf at h
  obtain ⟨labels, -, h⟩ := bind_eq_ok.1 h
  obtain ⟨nodes, -, h⟩ := bind_eq_ok.1 h
  obtain ⟨vols, hv, -⟩ := bind_eq_ok.1 h
  exact volumes_empty hf vols hv

example : ¬ FullBlocks [⟨.tetra, [[0, 1, 2, 3]]⟩, ⟨.wedge, []⟩] ∧
    typedCells [⟨.tetra, [[0, 1, 2, 3]]⟩, ⟨.wedge, []⟩] = typedCells [⟨.tetra, [[0, 1, 2, 3]]⟩] := by
  decide

end Verif.Mesh
