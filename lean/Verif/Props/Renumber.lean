import Verif.Lemmas.Renumber
import Verif.Props.Moved

/-!
# C105: the numbers of the points do not matter
-/

namespace Verif.Mesh
open Verif.Py Verif.Model Verif.Spec

variable {D D' : Type} {σ : ℕ → ℕ} {m : Mesh ℝ D} {m' : Mesh ℝ D'}

/-- C105. Centres and volumes are the same. -/
theorem C105_cells (h : IsRenumbered σ m m') : centers m' = centers m ∧ volumes m' = volumes m := by
  constructor
  · unfold centers
    rw [h.cells, mapM_of_map, mapM_same (g := fun b : CellBlock => b.data.mapM fun c => do
      let ps ← rowsAt m.points c
      .ok (mean ps))]
    · simp only [List.map_eq_nil_iff]
    · intro b
      rw [mapM_of_map]
      exact mapM_same fun c => by rw [rowsAt_renumbered h.points]
  · unfold volumes
    rw [h.cells, mapM_of_map, mapM_same (g := fun b : CellBlock => if b.data = [] then .error .valueError
      else do
        let ts ← tetras b.type
        b.data.mapM (cellVolume m.points ts))]
    · simp only [List.map_eq_nil_iff]
    · intro b
      simp only [List.map_eq_nil_iff]
      split
      · rfl
      · congr 1
        funext ts
        rw [mapM_of_map]
        exact mapM_same fun c => cellVolume_renumbered h.points ts c

/-- C105. The faces have the new numbers and every cell has the neighbours that it had; what is
refused is refused. -/
theorem C105_faces (h : IsRenumbered σ m m') :
    faces m'.cells = (faces m.cells).map (List.map (List.map (List.map σ))) ∧
      connections m'.cells = connections m.cells := by
  have hf : faces m'.cells = (faces m.cells).map (renumbered σ) := by rw [h.cells, faces_renumbered]
  refine ⟨hf, ?_⟩
  unfold connections
  rw [hf]
  cases hm : faces m.cells with
  | error e => rfl
  | ok fs =>
    show Except.ok _ = Except.ok _
    rw [connectionsOf_renumbered h.inj fun i a f hfa => (faces_bounds hm i a f hfa).2]

/-- C105. The directions and areas of the faces, the rows of the connections and the qualities of
the cells are the same. -/
theorem C105_geometry (h : IsRenumbered σ m m') {fs : List (List (List ℕ))} (hf : faces m.cells = .ok fs) :
    ∃ fs', faces m'.cells = .ok fs' ∧
      faceNormals m'.points fs' = faceNormals m.points fs ∧
      faceAreas m'.points fs' = faceAreas m.points fs ∧
      (∀ opt nodes bounds, conneRows opt m'.points nodes fs' bounds = conneRows opt m.points nodes fs bounds) ∧
      ∀ nodes, qualities m'.points nodes fs' = qualities m.points nodes fs := by
  have hlen : ∀ i a f, FaceAt fs i a f → f.length = 3 ∨ f.length = 4 := fun i a f hfa => (faces_bounds hf i a f hfa).2
  refine ⟨renumbered σ fs, by rw [h.cells, faces_renumbered, hf]; rfl, faceNormals_renumbered h.points fs,
    faceAreas_renumbered h.points fs, fun opt nodes bounds => ?_,
    fun nodes => qualities_renumbered h.points h.inj nodes hlen⟩
  unfold conneRows
  rw [faceNormals_renumbered h.points, faceAreas_renumbered h.points]
  congr 1
  funext normals
  congr 1
  funext areas
  exact connRowsOf_renumbered h.points h.inj opt nodes hlen normals areas bounds

/-- C105. The cell nearest to a point is the same. -/
theorem C105_near (h : IsRenumbered σ m m') (q : List ℝ) : near m' q = near m q := by
  unfold near nearAll
  rw [(C105_cells h).1]

/-- C105. The same MESH and INCON files are written. -/
theorem C105_files (h : IsRenumbered σ m m') (hfd : m'.fieldData = m.fieldData) (fl : ℝ → Flt) (a : ToughArgs)
    (labelLength : Option ℤ) (mats : Option (List ℤ)) (boundary : Option (List Bool))
    (inconData : List (Str × Arr)) :
    writeTough fl a m' labelLength mats boundary inconData = writeTough fl a m labelLength mats boundary inconData := by
  have hn : nCells m'.cells = nCells m.cells := by rw [h.cells, nCells_renumbered]
  have hf : faces m'.cells = (faces m.cells).map (renumbered σ) := by rw [h.cells, faces_renumbered]
  unfold writeTough writeToughOf
  simp only [hn, hfd, (C105_cells h).1, (C105_cells h).2, hf]
  cases hm : faces m.cells with
  | error e => rfl
  | ok fs =>
    simp only [Except.map, ok_bind, faceNormals_renumbered h.points, faceAreas_renumbered h.points,
      connRowsOf_renumbered h.points h.inj _ _ fun i a f hfa => (faces_bounds hm i a f hfa).2]

/-- The tetrahedra of C102 with a point more at the beginning. -/
def tetrasShifted : Mesh ℝ ℤ where
  points := ⟨7, 7, 7⟩ :: tetrasReal.points
  cells := tetrasTogether.cells.map fun b => ⟨b.type, b.data.map (List.map Nat.succ)⟩
  pointData := []
  cellData := []
  fieldData := []

example : IsRenumbered Nat.succ tetrasReal tetrasShifted ∧ tetrasShifted.fieldData = tetrasReal.fieldData ∧
    (faces tetrasReal.cells).toOption.isSome :=
  ⟨⟨Nat.succ_injective, fun i => List.getElem?_cons_succ, rfl⟩, rfl, by decide⟩

/-- The same points from the last to the first. -/
def tetrasBackwards : Mesh ℝ ℤ where
  points := tetrasReal.points.reverse
  cells := tetrasTogether.cells.map fun b => ⟨b.type, b.data.map (List.map fun i => if i < 5 then 4 - i else i)⟩
  pointData := []
  cellData := []
  fieldData := []

example : IsRenumbered (fun i => if i < 5 then 4 - i else i) tetrasReal tetrasBackwards := by
  refine ⟨fun i j h => ?_, fun i => ?_, rfl⟩
  · beta_reduce at h
    split at h <;> split at h <;> omega
  · match i with
    | 0 | 1 | 2 | 3 | 4 => rfl
    | i + 5 => simp [tetrasBackwards, tetrasReal]

end Verif.Mesh
