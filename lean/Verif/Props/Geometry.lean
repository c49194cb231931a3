import Verif.Lemmas.Geometry
import Verif.Props.Connections
import Mathlib.Tactic.ClearExcept

/-!
# Faces and connections in space (C58, C59, C60)
-/

namespace Verif.Props
open Verif.Py Verif.Model Verif.Mesh Verif.Spec

/-! ## Areas and normal vectors (C58) -/

/-- C58. The areas are the areas of the faces, in the order of the faces of the cells:
also where cells have both triangles and quadrangles. -/
theorem C58_areas (cells : List CellBlock) (fs : List (List (List ℕ))) (h : faces cells = .ok fs)
    (pts : List (P3 ℝ)) (areas : List (List ℝ)) (ha : faceAreas pts fs = .ok areas) :
    List.Forall₂ (List.Forall₂ fun f A => ∃ ps, FaceVertices pts f ps ∧ IsArea ps A) fs areas := by
  unfold faceAreas at ha
  by_cases h0 : facesInOrder fs = []
  · rw [if_pos h0] at ha; cases ha
  rw [if_neg h0] at ha
  obtain ⟨as, h1, h2⟩ := bind_eq_ok.1 ha
  cases h2
  refine gather_faces (trianglesFirst_faces h) ?_
  exact forall₂_mem (mapM_eq_ok h1) fun o A ho hA => faceArea_ok (mem_facesInOrder ho).1 hA

/-- C58. The normal vectors have length one and are perpendicular to the first three
vertices of the faces, in the order of the faces of the cells, for faces whose first
three vertices are not on a line. -/
theorem C58_normals (cells : List CellBlock) (fs : List (List (List ℕ))) (h : faces cells = .ok fs)
    (pts : List (P3 ℝ)) (normals : List (List (P3 ℝ))) (ha : faceNormals pts fs = .ok normals) :
    List.Forall₂ (List.Forall₂ fun f n => ∃ p q r, FaceVertices pts (f.take 3) [p, q, r] ∧
      (¬ IsTriangleArea p q r 0 → IsNormal p q r n)) fs normals := by
  unfold faceNormals at ha
  by_cases h0 : facesInOrder fs = []
  · rw [if_pos h0] at ha; cases ha
  rw [if_neg h0] at ha
  obtain ⟨vs, h1, h2⟩ := bind_eq_ok.1 ha
  cases h2
  refine gather_faces (trianglesFirst_faces h) ?_
  rw [List.forall₂_map_right_iff]
  exact forall₂_mem (mapM_eq_ok h1) fun o v ho hv => faceNormal_ok (mem_facesInOrder ho).1 hv

/-- C58. The normal vector of a face points to the side from which its first three
vertices are counterclockwise: out of the cell, see `C42_face_table`. -/
theorem C58_side (p q r n o : P3 ℝ) (h : IsNormal p q r n) :
    0 < distAlong n p o ↔ 0 < signedVolume p q r o := by
  rw [normal_scale h]
  exact (mul_pos_iff_of_pos_left h.2.2.2).symm

example : IsNormal ⟨0, 0, 0⟩ ⟨2, 0, 0⟩ ⟨1, 3, 0⟩ ⟨0, 0, 1⟩ := by
  unfold IsNormal IsUnit3 distAlong signedVolume
  norm_num

/-- C58. Areas and normal vectors exist for every mesh of solid cells that has a cell,
whose vertices are points of the mesh. -/
theorem C58_total (cells : List CellBlock) (fs : List (List (List ℕ))) (h : faces cells = .ok fs)
    (hne : fs ≠ []) (pts : List (P3 ℝ)) (hv : ∀ row ∈ fs, ∀ f ∈ row, ∀ v ∈ f, v < pts.length) :
    (∃ normals, faceNormals pts fs = .ok normals) ∧ ∃ areas, faceAreas pts fs = .ok areas := by
  have h0 : facesInOrder fs ≠ [] := facesInOrder_ne_nil h hne
  have hb : ∀ o ∈ facesInOrder fs, (o.1.length = 3 ∨ o.1.length = 4) ∧ ∀ v ∈ o.1, v < pts.length := by
    intro o ho
    obtain ⟨h1, row, h2, h3⟩ := mem_facesInOrder ho
    exact ⟨h1, hv row h2 _ h3⟩
  unfold faceNormals faceAreas
  rw [if_neg h0, if_neg h0]
  obtain ⟨n, hn⟩ := mapM_exists (f := fun o : List ℕ × ℕ × ℕ => triangleNormal pts [0, 1, 2] o.1)
    fun o ho => faceNormal_exists (hb o ho).1 (hb o ho).2
  obtain ⟨a, ha⟩ := mapM_exists (f := fun o : List ℕ × ℕ × ℕ => faceArea pts o.1)
    fun o ho => faceArea_exists (hb o ho).1 (hb o ho).2
  rw [hn, ha]
  exact ⟨⟨_, rfl⟩, ⟨_, rfl⟩⟩

/-- C58. The area of a parallelogram is the length of the vector product of its sides,
whichever vertex is the first. -/
theorem C58_parallelogram (p q s : P3 ℝ) (A : ℝ)
    (h : IsArea [p, q, ⟨q.x + s.x - p.x, q.y + s.y - p.y, q.z + s.z - p.z⟩, s] A) :
    A = norm3 (cross (q.sub p) (s.sub p)) ∧
    IsArea [q, ⟨q.x + s.x - p.x, q.y + s.y - p.y, q.z + s.z - p.z⟩, s, p] A := by
  obtain ⟨A1, A2, h1, h2, rfl⟩ := h
  have e1 := isTriangleArea_unique h1 (triangleArea _ _ _)
  have e2 := isTriangleArea_unique h2 (triangleArea _ _ _)
  refine ⟨?_, _, _, triangleArea _ _ _, triangleArea _ _ _, ?_⟩ <;>
  · rw [e1, e2]
    unfold norm3 dot cross P3.sub
    ring_nf

/-- Points of the sample. -/
noncomputable def samplePoints : List (P3 ℝ) :=
  [⟨0, 0, 0⟩, ⟨1, 0, 0⟩, ⟨1, 1, 0⟩, ⟨0, 1, 0⟩, ⟨0, 0, 1⟩, ⟨1, 0, 1⟩, ⟨1, 1, 1⟩, ⟨0, 1, 1⟩,
    ⟨2, 0, 0⟩, ⟨2, 1, 0⟩, ⟨2, 0, 1⟩, ⟨2, 1, 1⟩, ⟨1, 0, 2⟩, ⟨1, 1, 2⟩]

theorem samplePoints_faces : ∀ row ∈ sampleFaces, ∀ f ∈ row, ∀ v ∈ f, v < samplePoints.length := by
  have : samplePoints.length = 14 := rfl
  rw [this]
  decide

example : faces sampleCells = .ok sampleFaces ∧ sampleFaces ≠ [] ∧
    (∃ normals, faceNormals samplePoints sampleFaces = .ok normals) ∧
    ∃ areas, faceAreas samplePoints sampleFaces = .ok areas :=
  ⟨rfl, by decide, C58_total sampleCells sampleFaces rfl (by decide) samplePoints samplePoints_faces⟩

example : ¬ IsTriangleArea (⟨0, 0, 0⟩ : P3 ℝ) ⟨1, 0, 0⟩ ⟨1, 1, 0⟩ 0 := by
  unfold IsTriangleArea distSq
  norm_num

example : ∃ A, IsArea [(⟨0, 0, 0⟩ : P3 ℝ), ⟨3, 0, 0⟩, ⟨3 + 1 - 0, 0 + 2 - 0, 0 + 0 - 0⟩, ⟨1, 2, 0⟩] A :=
  ⟨_, _, _, triangleArea _ _ _, triangleArea _ _ _, rfl⟩

/-! ## Connections (C59) -/

/-- An interface between two cells with centres `(0, 0, 0)` and `(2, 0, 2)`. -/
noncomputable def sampleInterface : Interface :=
  ⟨⟨0, 0, 0⟩, ⟨2, 0, 2⟩, ⟨1 / 2, 5, 1⟩, ⟨1, 0, 0⟩, 4, false, false⟩

example : sampleInterface.c1 ≠ sampleInterface.c2 ∧ IsUnit3 sampleInterface.normal ∧
    distAlong sampleInterface.normal sampleInterface.c1 sampleInterface.c2 ≠ 0 ∧
    sampleInterface.bound1 = false ∧ sampleInterface.bound2 = false ∧
    distAlong sampleInterface.normal sampleInterface.point sampleInterface.c1 *
      distAlong sampleInterface.normal sampleInterface.point sampleInterface.c2 ≤ 0 := by
  unfold sampleInterface IsUnit3 distAlong
  norm_num

/-- C59. The direction of a connection is 1, 2 or 3, and it is the axis parallel to the
line between the centres if there is one. -/
theorem C59_direction (f : Interface) :
    (f.c1.x ≠ f.c2.x → f.c1.y = f.c2.y → f.c1.z = f.c2.z → isot f.line = 1) ∧
    (f.c1.x = f.c2.x → f.c1.y ≠ f.c2.y → f.c1.z = f.c2.z → isot f.line = 2) ∧
    (f.c1.x = f.c2.x → f.c1.y = f.c2.y → f.c1.z ≠ f.c2.z → isot f.line = 3) ∧
    (isot f.line = 2 → f.c1.x = f.c2.x ∧ f.c1.y ≠ f.c2.y ∧ f.c1.z = f.c2.z) ∧
    (isot f.line = 3 → f.c1.x = f.c2.x ∧ f.c1.y = f.c2.y ∧ f.c1.z ≠ f.c2.z) ∧
    isot f.line ∈ [1, 2, 3] := by
  have hx : (f.line.x ≠ 0) ↔ f.c1.x ≠ f.c2.x := by
    unfold Interface.line P3.sub; simp [sub_eq_zero, eq_comm]
  have hy : (f.line.y ≠ 0) ↔ f.c1.y ≠ f.c2.y := by
    unfold Interface.line P3.sub; simp [sub_eq_zero, eq_comm]
  have hz : (f.line.z ≠ 0) ↔ f.c1.z ≠ f.c2.z := by
    unfold Interface.line P3.sub; simp [sub_eq_zero, eq_comm]
  unfold isot
  simp only [hx, hy, hz]
  by_cases a : f.c1.x = f.c2.x <;> by_cases b : f.c1.y = f.c2.y <;>
    by_cases c : f.c1.z = f.c2.z <;> simp [a, b, c, List.idxOf, List.findIdx_cons]

/-- C59. The angle of a connection is the cosine between the line from the first to the
second centre and gravity: positive if the second is lower. -/
theorem C59_angle (f : Interface) (h : f.c1 ≠ f.c2) :
    angle f.line * dist3 f.c1 f.c2 = f.c1.z - f.c2.z ∧ -1 ≤ angle f.line ∧ angle f.line ≤ 1 := by
  have hd : 0 < norm3 f.line := by
    unfold Interface.line
    rw [norm3_sub]
    exact dist3_pos (Ne.symm h)
  have hs := norm3_sq f.line
  have he : norm3 f.line = dist3 f.c1 f.c2 := by
    unfold Interface.line
    rw [norm3_sub, dist3_comm]
  have h1 : angle f.line * norm3 f.line = -f.line.z := by
    unfold angle
    rw [div_mul_cancel₀ _ hd.ne']
    unfold dot
    simp
  have h2 : angle f.line ^ 2 ≤ 1 := by
    have : (angle f.line * norm3 f.line) ^ 2 ≤ 1 * norm3 f.line ^ 2 := by
      rw [h1, hs]
      unfold dot
      nlinarith [sq_nonneg f.line.x, sq_nonneg f.line.y]
    rw [mul_pow] at this
    exact le_of_mul_le_mul_right this (by positivity)
  refine ⟨?_, ?_, ?_⟩
  · rw [← he, h1]
    unfold Interface.line P3.sub
    simp
  · nlinarith
  · nlinarith

/-- C59. With `nodal_distance = "line"` there is one point on the line through the
centres that is on the plane of the interface, and the distances are those of the
centres to it. -/
theorem C59_line_distances (f : Interface) (h : distAlong f.normal f.c1 f.c2 ≠ 0) :
    (∃! q, OnPlane f.point f.normal q ∧ ∃ t, AtFraction f.c1 f.c2 t q) ∧
    ∃ q t, OnPlane f.point f.normal q ∧ AtFraction f.c1 f.c2 t q ∧
      (f.bound1 = false → (nodalDistances .line f).1 = dist3 f.c1 q) ∧
      (f.bound2 = false → (nodalDistances .line f).2 = dist3 f.c2 q) := by
  obtain ⟨h1, h2⟩ := lineMeetsPlane_spec f h
  refine ⟨⟨_, ⟨h1, _, h2⟩, ?_⟩, _, _, h1, h2, ?_, ?_⟩
  · rintro q ⟨hq, t, ht⟩
    exact lineMeetsPlane_unique f h hq ht h1 h2
  · intro hb
    unfold nodalDistances
    simp only [hb]
    rw [← norm3_sub]
    rfl
  · intro hb
    unfold nodalDistances
    simp only [hb]
    rw [← norm3_sub]
    rfl

/-- C59. With `nodal_distance = "line"`, if the interface is between the centres, then
the two distances add up to the distance of the centres and are in the ratio of the
distances to the interface. -/
theorem C59_line_sum (f : Interface) (h : distAlong f.normal f.c1 f.c2 ≠ 0)
    (hb : f.bound1 = false ∧ f.bound2 = false)
    (hs : distAlong f.normal f.point f.c1 * distAlong f.normal f.point f.c2 ≤ 0) :
    (nodalDistances .line f).1 + (nodalDistances .line f).2 = dist3 f.c1 f.c2 ∧
    (nodalDistances .line f).1 * |distAlong f.normal f.point f.c2| =
      (nodalDistances .line f).2 * |distAlong f.normal f.point f.c1| := by
  obtain ⟨h1, h2⟩ := lineMeetsPlane_spec f h
  have hd1 : (nodalDistances .line f).1 = dist3 f.c1 (lineMeetsPlane f.c1 f.line f.point f.normal) := by
    unfold nodalDistances
    simp only [hb.1]
    rw [← norm3_sub]
    rfl
  have hd2 : (nodalDistances .line f).2 = dist3 f.c2 (lineMeetsPlane f.c1 f.line f.point f.normal) := by
    unfold nodalDistances
    simp only [hb.2]
    rw [← norm3_sub]
    rfl
  rw [hd1, hd2, (dist3_fraction h2).1, (dist3_fraction h2).2]
  set t := distAlong f.normal f.c1 f.point / distAlong f.normal f.c1 f.c2 with ht
  have e1 : distAlong f.normal f.point f.c1 = -(t * distAlong f.normal f.c1 f.c2) := by
    rw [ht, div_mul_cancel₀ _ h]
    unfold distAlong
    ring
  have e2 : distAlong f.normal f.point f.c2 = (1 - t) * distAlong f.normal f.c1 f.c2 := by
    have : distAlong f.normal f.point f.c2 = distAlong f.normal f.point f.c1 + distAlong f.normal f.c1 f.c2 := by
      unfold distAlong; ring
    rw [this, e1]
    ring
  rw [e1, e2] at hs
  have hp : 0 < distAlong f.normal f.c1 f.c2 ^ 2 := by positivity
  have ht01 : 0 ≤ t * (1 - t) := by
    by_contra hc
    nlinarith
  have ht0 : 0 ≤ t := by
    by_contra hc
    nlinarith
  have ht1 : t ≤ 1 := by
    by_contra hc
    nlinarith
  rw [abs_of_nonneg ht0, abs_of_nonneg (by linarith : (0:ℝ) ≤ 1 - t)]
  refine ⟨by ring, ?_⟩
  rw [e1, e2, abs_neg, abs_mul, abs_mul, abs_of_nonneg ht0, abs_of_nonneg (by linarith : (0:ℝ) ≤ 1 - t)]
  ring

/-- C59. With `nodal_distance = "orthogonal"` the distances are the shortest distances
of the centres to the plane of the interface. -/
theorem C59_orthogonal_distances (f : Interface) (hn : IsUnit3 f.normal) :
    (f.bound1 = false →
      (∀ q, OnPlane f.point f.normal q → (nodalDistances .orthogonal f).1 ≤ dist3 f.c1 q) ∧
      ∃ q, OnPlane f.point f.normal q ∧ (nodalDistances .orthogonal f).1 = dist3 f.c1 q) ∧
    (f.bound2 = false →
      (∀ q, OnPlane f.point f.normal q → (nodalDistances .orthogonal f).2 ≤ dist3 f.c2 q) ∧
      ∃ q, OnPlane f.point f.normal q ∧ (nodalDistances .orthogonal f).2 = dist3 f.c2 q) := by
  constructor
  · intro hb
    simp only [nodalDistances, hb]
    exact pointToPlane_spec _ _ _ hn
  · intro hb
    simp only [nodalDistances, hb]
    exact pointToPlane_spec _ _ _ hn

/-- C59. The distance on the side of a boundary cell is `1e-9`. -/
theorem C59_boundary (opt : NodalDistance) (f : Interface) :
    (f.bound1 = true → (nodalDistances opt f).1 = 1e-9) ∧
    (f.bound2 = true → (nodalDistances opt f).2 = 1e-9) := by
  constructor <;> intro hb <;> cases opt <;> simp [nodalDistances, pointToPlane, hb]

/-- C59. Where the line between the centres is perpendicular to the interface, both
ways to compute the distances agree. -/
theorem C59_agree (f : Interface) (hn : IsUnit3 f.normal) (k : ℝ) (hk : k ≠ 0)
    (h : f.c2.x - f.c1.x = k * f.normal.x ∧ f.c2.y - f.c1.y = k * f.normal.y ∧
      f.c2.z - f.c1.z = k * f.normal.z) :
    nodalDistances .line f = nodalDistances .orthogonal f := by
  have hak : distAlong f.normal f.c1 f.c2 = k := by
    unfold distAlong
    rw [h.1, h.2.1, h.2.2]
    unfold IsUnit3 at hn
    linear_combination k * hn
  have ha : distAlong f.normal f.c1 f.c2 ≠ 0 := by rw [hak]; exact hk
  obtain ⟨h1, h2⟩ := lineMeetsPlane_spec f ha
  obtain ⟨d1, d2⟩ := dist3_fraction h2
  have hd : dist3 f.c1 f.c2 = |k| := by
    unfold dist3 distSq
    rw [← Real.sqrt_sq_eq_abs]
    congr 1
    unfold IsUnit3 at hn
    have e1 : f.c1.x - f.c2.x = -(k * f.normal.x) := by linarith [h.1]
    have e2 : f.c1.y - f.c2.y = -(k * f.normal.y) := by linarith [h.2.1]
    have e3 : f.c1.z - f.c2.z = -(k * f.normal.z) := by linarith [h.2.2]
    rw [e1, e2, e3]
    linear_combination k ^ 2 * hn
  rw [hak] at d1 d2
  rw [hd, ← abs_mul] at d1 d2
  rw [div_mul_cancel₀ _ hk] at d1
  rw [sub_mul, one_mul, div_mul_cancel₀ _ hk] at d2
  unfold nodalDistances
  simp only
  rw [norm3_sub, norm3_sub, d1, d2]
  have e1 : dot (f.c1.sub f.point) f.normal = -distAlong f.normal f.c1 f.point := by
    unfold dot P3.sub distAlong; ring
  have e2 : dot (f.c2.sub f.point) f.normal = k - distAlong f.normal f.c1 f.point := by
    rw [← hak]
    unfold dot P3.sub distAlong
    ring
  unfold pointToPlane
  rw [e1, e2, abs_neg]

example : ∃ f : Interface, IsUnit3 f.normal ∧ (2 : ℝ) ≠ 0 ∧ f.c2.x - f.c1.x = 2 * f.normal.x ∧
    f.c2.y - f.c1.y = 2 * f.normal.y ∧ f.c2.z - f.c1.z = 2 * f.normal.z :=
  ⟨⟨⟨0, 0, 0⟩, ⟨2, 0, 0⟩, ⟨1 / 2, 5, 1⟩, ⟨1, 0, 0⟩, 4, false, false⟩, by unfold IsUnit3; norm_num⟩

/-- C59. The rows of the CONNE block: one for each connection, with the cells of the
connection, the centres of these cells, and the plane and the area of the face the
cells have in common. -/
theorem C59_rows (opt : NodalDistance) (cells : List CellBlock) (fs : List (List (List ℕ)))
    (h : faces cells = .ok fs) (hd : ∀ c ∈ allCells cells, c.Nodup) (pts nodes : List (P3 ℝ))
    (bounds : List Bool) (rows : List ConnRow) (hr : conneRows opt pts nodes fs bounds = .ok rows) :
    rows.map (fun r => (r.cell1, r.cell2)) =
      (writtenConnections (connectionsOf fs)).map (fun w => (w.1, w.2.1)) ∧
    List.Forall₂ (fun (w : ℕ × ℕ × ℕ) (r : ConnRow) => ∃ (f : Interface) (v : List ℕ) (b : ℕ)
        (ps : List (P3 ℝ)) (p q s : P3 ℝ),
      r.cell1 = w.1 ∧ r.cell2 = w.2.1 ∧ nodes[w.1]? = some f.c1 ∧ nodes[w.2.1]? = some f.c2 ∧
      bounds[w.1]? = some f.bound1 ∧ bounds[w.2.1]? = some f.bound2 ∧
      Shared fs w.1 w.2.2 w.2.1 b ∧ FaceAt fs w.1 w.2.2 v ∧ FaceVertices pts v ps ∧ IsArea ps r.area ∧
      ps.take 3 = [p, q, s] ∧ f.point = p ∧ (¬ IsTriangleArea p q s 0 → IsNormal p q s f.normal) ∧
      r.isot = isot f.line ∧ r.angle = angle f.line ∧ (r.d1, r.d2) = nodalDistances opt f)
      (writtenConnections (connectionsOf fs)) rows := by
  unfold conneRows at hr
  obtain ⟨normals, hn, hr⟩ := bind_eq_ok.1 hr
  obtain ⟨areas, ha, hr⟩ := bind_eq_ok.1 hr
  unfold connRowsOf at hr
  have hN := C58_normals cells fs h pts normals hn
  have hA := C58_areas cells fs h pts areas ha
  simp only at hr
  obtain ⟨is, hi, hr⟩ := bind_eq_ok.1 hr
  by_cases h0 : writtenConnections (connectionsOf fs) = []
  · rw [if_pos h0] at hr; cases hr
  rw [if_neg h0] at hr
  cases hr
  have hW := (C42_written cells fs h hd).2
  have hmem : ∀ w ∈ writtenConnections (connectionsOf fs), ∃ b, Shared fs w.1 w.2.2 w.2.1 b := by
    rintro ⟨i, j, a⟩ hw
    obtain ⟨h1, -⟩ := (hW i j a).1 hw
    by_cases hb : i < fs.length ∧ a < 6
    · obtain ⟨b, hs, -⟩ := ((C42_entry cells fs h i a hb.1 hb.2).1 j).1 h1
      exact ⟨b, hs⟩
    · rw [entry_connectionsOf_none i a hb] at h1
      cases h1
  have hF := mapM_eq_ok hi
  clear * - hF hmem hN hA
  generalize writtenConnections (connectionsOf fs) = ws at *
  constructor
  · clear hmem
    induction hF with
    | nil => rfl
    | cons _ _ ih => simp only [List.zipWith_cons_cons, List.map_cons, ih]
  · induction hF with
    | nil => exact .nil
    | @cons w f ws is hf _ ih =>
      rw [List.zipWith_cons_cons]
      refine .cons ?_ (ih fun w hw => hmem w (List.mem_cons_of_mem _ hw))
      obtain ⟨b, hb⟩ := hmem w List.mem_cons_self
      obtain ⟨h1, h2, h3, h4, v, ps, p, q, s, h5, h6, h7, h8, h9, h10⟩ := interfaceOf_ok hN hA hf
      exact ⟨f, v, b, ps, p, q, s, rfl, rfl, h1, h2, h3, h4, hb, h5, h6, h7, h8, h9, h10, rfl, rfl, rfl⟩

/-- C59. The rows exist for every mesh of solid cells with a connection, whose vertices
are points of the mesh, given a centre and a boundary mark for every cell.
Missing: meshes without connections, see `C59_no_connection_violated`. -/
theorem C59_total_partial (opt : NodalDistance) (cells : List CellBlock) (fs : List (List (List ℕ)))
    (h : faces cells = .ok fs) (hd : ∀ c ∈ allCells cells, c.Nodup) (pts nodes : List (P3 ℝ))
    (bounds : List Bool) (hv : ∀ row ∈ fs, ∀ f ∈ row, ∀ v ∈ f, v < pts.length)
    (hl : nodes.length = fs.length) (hb : bounds.length = fs.length)
    (hc : writtenConnections (connectionsOf fs) ≠ []) :
    ∃ rows, conneRows opt pts nodes fs bounds = .ok rows := by
  have hne : fs ≠ [] := by
    rintro rfl
    exact hc rfl
  obtain ⟨⟨normals, hn⟩, areas, ha⟩ := C58_total cells fs h hne pts hv
  have hN := C58_normals cells fs h pts normals hn
  have hA := C58_areas cells fs h pts areas ha
  have hW := (C42_written cells fs h hd).2
  unfold conneRows
  rw [hn, ha, ok_bind, ok_bind]
  unfold connRowsOf
  simp only
  obtain ⟨is, hi⟩ := mapM_exists (f := interfaceOf pts nodes fs normals areas bounds)
    (xs := writtenConnections (connectionsOf fs)) (by
      rintro ⟨i, j, a⟩ hw
      obtain ⟨h1, -⟩ := (hW i j a).1 hw
      have hib : i < fs.length ∧ a < 6 := by
        by_contra hib
        rw [entry_connectionsOf_none i a hib] at h1
        cases h1
      obtain ⟨b, ⟨-, f, g, hf, hg, -⟩, -⟩ := ((C42_entry cells fs h i a hib.1 hib.2).1 j).1 h1
      have hj : j < fs.length := by
        obtain ⟨r, hr, -⟩ := hg
        exact (List.getElem?_eq_some_iff.1 hr).1
      exact interfaceOf_exists hN hA hf (hl ▸ hib.1) (hl ▸ hj) (hb ▸ hib.1) (hb ▸ hj))
  rw [hi, ok_bind, if_neg hc]
  exact ⟨_, rfl⟩

example : faces sampleCells = .ok sampleFaces ∧ (∀ c ∈ allCells sampleCells, c.Nodup) ∧
    writtenConnections (connectionsOf sampleFaces) ≠ [] ∧
    ∃ rows, conneRows .line samplePoints [⟨1 / 2, 1 / 2, 1 / 2⟩, ⟨3 / 2, 1 / 2, 1 / 2⟩, ⟨4 / 3, 1 / 2, 4 / 3⟩]
      sampleFaces [false, false, true] = .ok rows := by
  have h1 : ∀ c ∈ allCells sampleCells, c.Nodup := by decide
  have h2 : writtenConnections (connectionsOf sampleFaces) ≠ [] := by decide +kernel
  exact ⟨rfl, h1, h2, C59_total_partial .line sampleCells sampleFaces rfl h1 samplePoints _ _ samplePoints_faces rfl rfl h2⟩

/-- C59. A mesh without any connection, like a mesh with one cell, has no CONNE block:
writing it fails. -/
theorem C59_no_connection_violated : ∃ (cells : List CellBlock) (fs : List (List (List ℕ)))
    (pts nodes : List (P3 ℝ)), faces cells = .ok fs ∧ fs.length = 1 ∧ nodes.length = 1 ∧
      (∃ areas, faceAreas pts fs = .ok areas) ∧
      ∀ opt bounds, conneRows opt pts nodes fs bounds = .error .valueError := by
  have hf : faces [⟨.tetra, [[0, 1, 2, 3]]⟩] = .ok [[[1, 2, 3], [0, 3, 2], [0, 1, 3], [0, 2, 1]]] := by
    decide +kernel
  have ht := C58_total _ _ hf (by simp)
    [⟨0, 0, 0⟩, ⟨1, 0, 0⟩, ⟨0, 1, 0⟩, ⟨0, 0, 1⟩] (by decide)
  refine ⟨_, _, _, [⟨1 / 4, 1 / 4, 1 / 4⟩], hf, rfl, rfl, ht.2, fun opt bounds => ?_⟩
  obtain ⟨⟨n, hn⟩, a, ha⟩ := ht
  unfold conneRows
  rw [hn, ha, ok_bind, ok_bind]
  unfold connRowsOf
  have : writtenConnections (connectionsOf [[[1, 2, 3], [0, 3, 2], [0, 1, 3], [0, 2, 1]]]) = [] := by
    decide +kernel
  simp only [this]
  rfl

/-! ## Qualities (C60) -/

/-- C60. Every quality is between zero and one, for a mesh whose faces have no first
three vertices on a line and whose neighbours have different centres. -/
theorem C60_range (cells : List CellBlock) (fs : List (List (List ℕ))) (h : faces cells = .ok fs)
    (pts nodes : List (P3 ℝ)) (qs : List ℝ) (hq : qualities pts nodes fs = .ok qs)
    (hne : ∀ i a v p q r, FaceAt fs i a v → FaceVertices pts (v.take 3) [p, q, r] → ¬ IsTriangleArea p q r 0) :
    qs.length = fs.length ∧ ∀ x ∈ qs, 0 ≤ x ∧ x ≤ 1 := by
  unfold qualities at hq
  obtain ⟨normals, hn, hq⟩ := bind_eq_ok.1 hq
  have hN := C58_normals cells fs h pts normals hn
  simp only at hq
  obtain ⟨angles, ha, hq⟩ := bind_eq_ok.1 hq
  by_cases h0 : writtenConnections (connectionsOf fs) = []
  · rw [if_pos h0] at hq; cases hq
  rw [if_neg h0] at hq
  have hang : ∀ x ∈ angles, 0 ≤ x ∧ x ≤ 1 := by
    intro x hx
    obtain ⟨w, hw, hx⟩ := forall₂_mem_right (mapM_eq_ok ha) hx
    obtain ⟨c1, -, hx⟩ := bind_eq_ok.1 hx
    obtain ⟨c2, -, hx⟩ := bind_eq_ok.1 hx
    obtain ⟨ns, h1, hx⟩ := bind_eq_ok.1 hx
    obtain ⟨n, h2, hx⟩ := bind_eq_ok.1 hx
    cases hx
    obtain ⟨row, v, h3, h4, p, q, r, h5, h6⟩ := forall₂_at hN (itemAt_ok h1) (itemAt_ok h2)
    exact cosine_range _ _ (h6 (hne w.1 w.2.2 v p q r ⟨row, h3, h4⟩ h5)).1
  have hQ := mapM_eq_ok hq
  refine ⟨by rw [← hQ.length_eq, gather_length], fun x hx => ?_⟩
  obtain ⟨l, hl, hx⟩ := forall₂_mem_right hQ hx
  have hsub : ∀ y ∈ l, 0 ≤ y ∧ y ≤ 1 := by
    intro y hy
    obtain ⟨i, hi⟩ := List.getElem?_of_mem hl
    rw [gather_get] at hi
    split at hi
    · cases hi
      obtain ⟨e, he, rfl⟩ := List.mem_map.1 hy
      obtain ⟨z, hz, hze⟩ := List.mem_flatMap.1 (List.mem_filter.1 he).1
      have hz2 := hang z.2 (List.of_mem_zip hz).2
      simp only [List.mem_cons, List.not_mem_nil, or_false] at hze
      rcases hze with rfl | rfl <;> exact hz2
    · cases hi
  cases l with
  | nil => cases hx
  | cons a r =>
    cases hx
    exact foldl_min_range r a (hsub a List.mem_cons_self) fun y hy => hsub y (List.mem_cons_of_mem _ hy)

/-- C60. The quality of a cell is its smallest cosine: not more than the cosine of any
of its connections, and the cosine of one of them. The cosine of a connection is that
between the line of the centres and the normal vector of the face.
Missing: meshes with a cell that has no neighbour, see `C60_isolated_violated`. -/
theorem C60_smallest_partial (cells : List CellBlock) (fs : List (List (List ℕ))) (h : faces cells = .ok fs)
    (pts nodes : List (P3 ℝ)) (normals : List (List (P3 ℝ))) (hn : faceNormals pts fs = .ok normals)
    (qs : List ℝ) (hq : qualities pts nodes fs = .ok qs) (k : ℕ) (x : ℝ) (hx : qs[k]? = some x) :
    let Cos := fun (w : ℕ × ℕ × ℕ) (y : ℝ) => w ∈ writtenConnections (connectionsOf fs) ∧
      (k = w.1 ∨ k = w.2.1) ∧ ∃ c1 c2 ns n, nodes[w.1]? = some c1 ∧ nodes[w.2.1]? = some c2 ∧
        normals[w.1]? = some ns ∧ ns[w.2.2]? = some n ∧ y = |distAlong n c1 c2| / dist3 c1 c2
    (∃ w, Cos w x) ∧ ∀ w y, Cos w y → x ≤ y := by
  intro Cos
  unfold qualities at hq
  rw [hn, ok_bind] at hq
  simp only at hq
  obtain ⟨angles, ha, hq⟩ := bind_eq_ok.1 hq
  by_cases h0 : writtenConnections (connectionsOf fs) = []
  · rw [if_pos h0] at hq; cases hq
  rw [if_neg h0] at hq
  have hF := mapM_eq_ok ha
  obtain ⟨l, hl, hm⟩ := forall₂_getElem? (mapM_eq_ok hq) hx
  rw [gather_get] at hl
  split at hl
  swap
  · cases hl
  have hl' := Option.some.inj hl
  have hmem : ∀ y, y ∈ l ↔ ∃ w, (w, y) ∈ (writtenConnections (connectionsOf fs)).zip angles ∧
      (k = w.1 ∨ k = w.2.1) := by
    intro y
    rw [← hl']
    exact mem_gathered
  have hcos : ∀ w y, (w, y) ∈ (writtenConnections (connectionsOf fs)).zip angles → ∃ c1 c2 ns n,
      nodes[w.1]? = some c1 ∧ nodes[w.2.1]? = some c2 ∧ normals[w.1]? = some ns ∧ ns[w.2.2]? = some n ∧
      y = |distAlong n c1 c2| / dist3 c1 c2 := by
    intro w y hwy
    have := List.forall₂_zip hF hwy
    obtain ⟨c1, h1, this⟩ := bind_eq_ok.1 this
    obtain ⟨c2, h2, this⟩ := bind_eq_ok.1 this
    obtain ⟨ns, h3, this⟩ := bind_eq_ok.1 this
    obtain ⟨n, h4, this⟩ := bind_eq_ok.1 this
    have hy := Except.ok.inj this
    exact ⟨c1, c2, ns, n, itemAt_ok h1, itemAt_ok h2, itemAt_ok h3, itemAt_ok h4,
      hy.symm.trans (cosine_eq c1 c2 n)⟩
  have hmin : x ∈ l ∧ ∀ y ∈ l, x ≤ y := by
    cases l with
    | nil => cases hm
    | cons a r =>
      cases hm
      exact foldl_min_spec r a
  constructor
  · obtain ⟨w, hw, hk⟩ := (hmem x).1 hmin.1
    exact ⟨w, (List.of_mem_zip hw).1, hk, hcos w x hw⟩
  · rintro w y ⟨hw, hk, c1, c2, ns, n, h1, h2, h3, h4, rfl⟩
    obtain ⟨y, hy⟩ := zip_left_mem hF hw
    have := hmin.2 y ((hmem y).2 ⟨w, hy, hk⟩)
    obtain ⟨c1', c2', ns', n', g1, g2, g3, g4, rfl⟩ := hcos w y hy
    rw [h1] at g1
    rw [h2] at g2
    rw [h3] at g3
    cases g1
    cases g2
    cases g3
    rw [h4] at g4
    cases g4
    exact this

/-- C60. A cell that is not connected to any other makes the qualities of the whole mesh
fail. -/
theorem C60_isolated_violated (fs : List (List (List ℕ))) (pts nodes : List (P3 ℝ)) (k : ℕ) (hk : k < fs.length)
    (h : ∀ w ∈ writtenConnections (connectionsOf fs), w.1 ≠ k ∧ w.2.1 ≠ k) (qs : List ℝ) :
    qualities pts nodes fs ≠ .ok qs := by
  intro hq
  unfold qualities at hq
  obtain ⟨normals, hn, hq⟩ := bind_eq_ok.1 hq
  simp only at hq
  obtain ⟨angles, ha, hq⟩ := bind_eq_ok.1 hq
  by_cases h0 : writtenConnections (connectionsOf fs) = []
  · rw [if_pos h0] at hq; cases hq
  rw [if_neg h0] at hq
  have hQ := mapM_eq_ok hq
  have hlen : k < qs.length := by rw [← hQ.length_eq, gather_length]; exact hk
  obtain ⟨l, hl, hm⟩ := forall₂_getElem? hQ (List.getElem?_eq_getElem hlen)
  rw [gather_get, if_pos hk] at hl
  have hl' := Option.some.inj hl
  have : l = [] := by
    rw [List.eq_nil_iff_forall_not_mem]
    intro y hy
    rw [← hl'] at hy
    obtain ⟨w, hw, hkw⟩ := mem_gathered.1 hy
    obtain ⟨g1, g2⟩ := h w (List.of_mem_zip hw).1
    rcases hkw with e | e
    · exact g1 e.symm
    · exact g2 e.symm
  rw [this] at hm
  cases hm

end Verif.Props
