import Verif.Lemmas.Moved
import Verif.Props.Reblock

/-!
# C104: meshes that are moved and scaled

`s` is the factor and `v` the vector; `s = 1` is a mesh that is moved only.
-/

namespace Verif.Mesh
open Verif.Py Verif.Model Verif.Spec

variable {D D' : Type} {s : ℝ} {v : P3 ℝ} {m : Mesh ℝ D} {m' : Mesh ℝ D'}

/-- C104. The centres are scaled and moved with the mesh, the volumes by the third power of the
factor; what is refused is refused. -/
theorem C104_cells (hs : 0 < s) (h : IsMoved s v m m') (hc : ∀ b ∈ m.cells, ∀ c ∈ b.data, c ≠ []) :
    centers m' = (centers m).map (List.map (moved s v)) ∧ volumes m' = (volumes m).map (List.map (s ^ 3 * ·)) := by
  constructor
  · unfold centers
    rw [h.cells, h.points]
    split
    · rfl
    · rw [mapM_map_ok (g := List.map (moved s v)) (f := fun b => b.data.mapM fun c => do
        let ps ← rowsAt m.points c
        .ok (mean ps)) fun b hb => mapM_map_ok fun c hcb => center_moved m.points (hc b hb c hcb)]
      cases List.mapM (fun b : CellBlock => b.data.mapM fun c => (do
        let ps ← rowsAt m.points c
        .ok (mean ps) : Except PyErr (P3 ℝ))) m.cells with
      | error e => rfl
      | ok cs =>
        show Except.ok _ = Except.ok _
        rw [List.map_flatten]
  · unfold volumes
    rw [h.cells, h.points]
    split
    · rfl
    · rw [mapM_map_ok (g := List.map (s ^ 3 * ·)) (f := fun b => if b.data = [] then .error .valueError
        else do
          let ts ← tetras b.type
          b.data.mapM (cellVolume m.points ts))]
      · cases List.mapM (fun b : CellBlock => (if b.data = [] then .error .valueError
          else do
            let ts ← tetras b.type
            b.data.mapM (cellVolume m.points ts) : Except PyErr (List ℝ))) m.cells with
        | error e => rfl
        | ok cs =>
          show Except.ok _ = Except.ok _
          rw [List.map_flatten]
      · intro b _
        split
        · rfl
        · cases tetras b.type with
          | error e => rfl
          | ok ts =>
            simp only [ok_bind]
            exact mapM_map_ok fun c _ => cellVolume_moved hs _ _ _

/-- C104. Faces and neighbours stay; so do the directions of the faces, and their areas grow by the
second power of the factor. -/
theorem C104_faces (hs : 0 < s) (h : IsMoved s v m m') (fs : List (List (List ℕ))) :
    faces m'.cells = faces m.cells ∧ connections m'.cells = connections m.cells ∧
      faceNormals m'.points fs = faceNormals m.points fs ∧
      faceAreas m'.points fs = (faceAreas m.points fs).map (List.map (List.map (s ^ 2 * ·))) := by
  rw [h.cells, h.points]
  exact ⟨rfl, rfl, faceNormals_moved hs _ _, faceAreas_moved _ _⟩

/-- C104. The rows of the connections: cells, directions and angles stay, distances grow by the
factor (but for cells at the boundary, which have a fixed distance) and areas by its second power.
What is refused is refused. -/
theorem C104_connections (hs : 0 < s) (h : IsMoved s v m m') (opt : NodalDistance) (nodes : List (P3 ℝ))
    (fs : List (List (List ℕ))) (bounds : List Bool) :
    (∀ e, conneRows opt m.points nodes fs bounds = .error e →
      conneRows opt m'.points (nodes.map (moved s v)) fs bounds = .error e) ∧
    ∀ rows, conneRows opt m.points nodes fs bounds = .ok rows → ∃ rows',
      conneRows opt m'.points (nodes.map (moved s v)) fs bounds = .ok rows' ∧
      List.Forall₂ (RowScaled s bounds) rows rows' := by
  unfold conneRows
  rw [h.points, faceNormals_moved hs, faceAreas_moved]
  cases faceNormals m.points fs with
  | error e => exact ⟨fun e' h => h, fun rows h => by cases h⟩
  | ok normals =>
    simp only [ok_bind]
    cases faceAreas m.points fs with
    | error e => exact ⟨fun e' h => h, fun rows h => by cases h⟩
    | ok areas =>
      simp only [Except.map, ok_bind]
      exact connRowsOf_moved hs opt m.points nodes fs normals areas bounds

/-- C104. A mesh that is moved only has the same rows of connections. -/
theorem C104_moved_only (h : IsMoved 1 v m m') (opt : NodalDistance) (nodes : List (P3 ℝ))
    (fs : List (List (List ℕ))) (bounds : List Bool) :
    conneRows opt m'.points (nodes.map (moved 1 v)) fs bounds = conneRows opt m.points nodes fs bounds := by
  obtain ⟨h1, h2⟩ := C104_connections one_pos h opt nodes fs bounds
  cases hr : conneRows opt m.points nodes fs bounds with
  | error e => exact h1 e hr
  | ok rows =>
    obtain ⟨rows', e1, e2⟩ := h2 rows hr
    rw [e1]
    congr 1
    clear h1 h2 hr e1
    have key : ∀ {b : Option Bool} {d d' : ℝ}, DistScaled 1 b d d' → d' = d := by
      rintro b d d' (⟨-, h⟩ | ⟨-, h⟩)
      · rw [h, one_mul]
      · exact h
    induction e2 with
    | nil => rfl
    | @cons r r' l l' hr _ ih =>
      rw [ih]
      obtain ⟨c1, c2, i, d1, d2, a, g⟩ := r
      obtain ⟨c1', c2', i', d1', d2', a', g'⟩ := r'
      obtain ⟨r1, r2, r3, r4, r5, r6, r7⟩ := hr
      replace r4 := key r4
      replace r5 := key r5
      rw [one_pow, one_mul] at r6
      simp only at r1 r2 r3 r4 r5 r6 r7
      subst r1 r2 r3 r4 r5 r6 r7
      rfl

/-- C104. The qualities of the cells stay. -/
theorem C104_qualities (hs : 0 < s) (h : IsMoved s v m m') (nodes : List (P3 ℝ)) (fs : List (List (List ℕ))) :
    qualities m'.points (nodes.map (moved s v)) fs = qualities m.points nodes fs := by
  rw [h.points]
  exact qualities_moved hs _ _ _

/-- C104. The cell nearest to a point is nearest to the point that is scaled and moved too. -/
theorem C104_near (hs : 0 < s) (h : IsMoved s v m m') (hc : ∀ b ∈ m.cells, ∀ c ∈ b.data, c ≠ []) (q : P3 ℝ) :
    near m' [s * q.x + v.x, s * q.y + v.y, s * q.z + v.z] = near m [q.x, q.y, q.z] := by
  have hq : ∀ (D : Type) (m : Mesh ℝ D) (p : P3 ℝ), near m [p.x, p.y, p.z] = (do
      let cs ← centers m
      argmin (cs.map (dist2 p))) := by
    intro D m p
    unfold near nearAll
    show (do
      let idx ← (do
        let cs ← centers m
        List.mapM (fun q => argmin (cs.map (dist2 q))) [p])
      match idx with
        | i :: _ => .ok i
        | [] => .error .indexError : Except PyErr ℕ) = _
    cases centers m with
    | error e => rfl
    | ok cs =>
      simp only [ok_bind, List.mapM_cons, List.mapM_nil]
      cases argmin (cs.map (dist2 p)) <;> rfl
  have e := hq D' m' (moved s v q)
  simp only [moved] at e
  rw [e, hq, (C104_cells hs h hc).1]
  cases centers m with
  | error e => rfl
  | ok cs =>
    show argmin ((cs.map (moved s v)).map (dist2 (moved s v q))) = argmin _
    have : (cs.map (moved s v)).map (dist2 (moved s v q)) = (cs.map (dist2 q)).map (s ^ 2 * ·) := by
      simp only [List.map_map, Function.comp_def, dist2_moved]
    rw [this, argmin_scaled (pow_pos hs 2)]

/-- The tetrahedra of C102 with real numbers. -/
def tetrasReal : Mesh ℝ ℤ where
  points := [⟨0, 0, 0⟩, ⟨1, 0, 0⟩, ⟨0, 1, 0⟩, ⟨0, 0, 1⟩, ⟨1, 1, 1⟩]
  cells := tetrasTogether.cells
  pointData := []
  cellData := []
  fieldData := []

/-- They are twice as large and one unit higher. -/
def tetrasMoved : Mesh ℝ ℤ where
  points := [⟨0, 0, 1⟩, ⟨2, 0, 1⟩, ⟨0, 2, 1⟩, ⟨0, 0, 3⟩, ⟨2, 2, 3⟩]
  cells := tetrasTogether.cells
  pointData := []
  cellData := []
  fieldData := []

example : (0 : ℝ) < 2 ∧ IsMoved 2 ⟨0, 0, 1⟩ tetrasReal tetrasMoved ∧
    ∀ b ∈ tetrasReal.cells, ∀ c ∈ b.data, c ≠ [] := by
  refine ⟨two_pos, ⟨?_, rfl⟩, by decide⟩
  norm_num [tetrasReal, tetrasMoved, moved]

example (m : Mesh ℝ ℤ) (v : P3 ℝ) : IsMoved 1 v m { m with points := m.points.map (moved 1 v) } := ⟨rfl, rfl⟩

end Verif.Mesh
