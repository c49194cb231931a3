import Verif.Lemmas.Spun
import Verif.Props.Moved

/-!
# C107: meshes that are turned about the vertical

`c` and `s` are the cosine and the sine of the angle.
-/

namespace Verif.Mesh
open Verif.Py Verif.Model Verif.Spec

variable {D D' : Type} {c s : ℝ} {m : Mesh ℝ D} {m' : Mesh ℝ D'}

/-- C107. The centres are turned with the mesh and the volumes stay; what is refused is refused. -/
theorem C107_cells (h : IsSpun c s m m') :
    centers m' = (centers m).map (List.map (spun c s)) ∧ volumes m' = volumes m := by
  constructor
  · unfold centers
    rw [h.cells, h.points]
    split
    · rfl
    · rw [mapM_map_ok (g := List.map (spun c s)) (f := fun b => b.data.mapM fun c => do
        let ps ← rowsAt m.points c
        .ok (mean ps)) fun b _ => mapM_map_ok fun e _ => spun_center m.points e]
      cases List.mapM (fun b : CellBlock => b.data.mapM fun c => (do
        let ps ← rowsAt m.points c
        .ok (mean ps) : Except PyErr (P3 ℝ))) m.cells with
      | error e => rfl
      | ok cs =>
        show Except.ok _ = Except.ok _
        rw [List.map_flatten]
  · unfold volumes
    rw [h.cells, h.points]
    have e : ∀ ts, cellVolume (m.points.map (spun c s)) ts = cellVolume m.points ts :=
      fun ts => funext fun e => spun_cellVolume h.circle m.points ts e
    simp only [e]

/-- C107. Faces, neighbours and areas stay, and the directions of the faces are turned. -/
theorem C107_faces (h : IsSpun c s m m') (fs : List (List (List ℕ))) :
    faces m'.cells = faces m.cells ∧ connections m'.cells = connections m.cells ∧
      faceNormals m'.points fs = (faceNormals m.points fs).map (List.map (List.map (spun c s))) ∧
      faceAreas m'.points fs = faceAreas m.points fs := by
  rw [h.cells, h.points]
  exact ⟨rfl, rfl, spun_faceNormals h.circle _ _, spun_faceAreas h.circle _ _⟩

/-- C107. The rows of the connections: cells, distances, areas and angles stay, and vertical
connections stay vertical. What is refused is refused. -/
theorem C107_connections (h : IsSpun c s m m') (opt : NodalDistance) (nodes : List (P3 ℝ))
    (fs : List (List (List ℕ))) (bounds : List Bool) :
    (∀ e, conneRows opt m.points nodes fs bounds = .error e →
      conneRows opt m'.points (nodes.map (spun c s)) fs bounds = .error e) ∧
    ∀ rows, conneRows opt m.points nodes fs bounds = .ok rows → ∃ rows',
      conneRows opt m'.points (nodes.map (spun c s)) fs bounds = .ok rows' ∧ List.Forall₂ RowSpun rows rows' := by
  unfold conneRows
  rw [h.points, spun_faceNormals h.circle, spun_faceAreas h.circle]
  cases faceNormals m.points fs with
  | error e => exact ⟨fun e' h => h, fun rows h => by cases h⟩
  | ok normals =>
    simp only [Except.map, ok_bind]
    cases faceAreas m.points fs with
    | error e => exact ⟨fun e' h => h, fun rows h => by cases h⟩
    | ok areas =>
      simp only [ok_bind]
      exact spun_connRowsOf h.circle opt m.points nodes fs normals areas bounds

/-- C107. The qualities of the cells stay. -/
theorem C107_qualities (h : IsSpun c s m m') (nodes : List (P3 ℝ)) (fs : List (List (List ℕ))) :
    qualities m'.points (nodes.map (spun c s)) fs = qualities m.points nodes fs := by
  rw [h.points]
  exact spun_qualities h.circle _ _ _

/-- C107. The cell nearest to a point is nearest to the point that is turned too. -/
theorem C107_near (h : IsSpun c s m m') (q : P3 ℝ) :
    near m' [c * q.x - s * q.y, s * q.x + c * q.y, q.z] = near m [q.x, q.y, q.z] := by
  have hq : ∀ (D : Type) (m : Mesh ℝ D) (p : P3 ℝ), near m [p.x, p.y, p.z] = (do
      let cs ← centers m
      argmin (cs.map (dist2 p))) := by
    intro D m p
    unfold near nearAll
    show (do
      let idx ← (do
        let cs ← centers m
        List.mapM (fun q => argmin (cs.map (dist2 q))) [p])
      match idx with
        | i :: _ => .ok i
        | [] => .error .indexError : Except PyErr ℕ) = _
    cases centers m with
    | error e => rfl
    | ok cs =>
      simp only [ok_bind, List.mapM_cons, List.mapM_nil]
      cases argmin (cs.map (dist2 p)) <;> rfl
  have e := hq D' m' (spun c s q)
  simp only [spun] at e
  rw [e, hq, (C107_cells h).1]
  cases centers m with
  | error e => rfl
  | ok cs =>
    show argmin ((cs.map (spun c s)).map (dist2 (spun c s q))) = argmin _
    have : (cs.map (spun c s)).map (dist2 (spun c s q)) = cs.map (dist2 q) := by
      simp only [List.map_map, Function.comp_def, spun_dist2 h.circle]
    rw [this]

/-- The tetrahedra of C104, turned by the angle of a triangle with sides 3, 4 and 5. -/
noncomputable def tetrasSpun : Mesh ℝ ℤ where
  points := [⟨0, 0, 0⟩, ⟨4 / 5, 3 / 5, 0⟩, ⟨-3 / 5, 4 / 5, 0⟩, ⟨0, 0, 1⟩, ⟨1 / 5, 7 / 5, 1⟩]
  cells := tetrasReal.cells
  pointData := []
  cellData := []
  fieldData := []

example : IsSpun (4 / 5) (3 / 5) tetrasReal tetrasSpun := by
  refine ⟨by norm_num, ?_, rfl⟩
  norm_num [tetrasReal, tetrasSpun, spun]

/-- C107. The direction of a horizontal connection is told by the axes, and may change. -/
theorem C107_direction : ∃ l : P3 ℝ, isot l = 2 ∧ isot (spun (4 / 5) (3 / 5) l) = 1 := by
  refine ⟨⟨0, 1, 0⟩, ?_, ?_⟩
  · simp [isot]
  · norm_num [isot, spun]

end Verif.Mesh
