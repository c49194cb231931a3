import Verif.Lemmas.OtherSide
import Verif.Props.Reorder

/-!
# C106: connections whose cells change places
-/

namespace Verif.Mesh
open Verif.Py Verif.Model Verif.Spec Verif.Props

variable {D D' : Type} {τ : Equiv.Perm ℕ}

/-- A connection whose cells change places, if the faces of the two cells have the same area and plane. -/
theorem turned_of_side {m : Mesh ℝ D} {m' : Mesh ℝ D'} (h : IsReordered τ m m')
    {fs fs' : List (List (List ℕ))} (hf : faces m.cells = .ok fs) (hf' : faces m'.cells = .ok fs')
    {ns ns' : List (List (P3 ℝ))} (hn : faceNormals m.points fs = .ok ns) (hn' : faceNormals m'.points fs' = .ok ns')
    {as as' : List (List ℝ)} (ha : faceAreas m.points fs = .ok as) (ha' : faceAreas m'.points fs' = .ok as')
    {nodes nodes' : List (P3 ℝ)} (hc : Reordered τ nodes nodes') {bs bs' : List Bool} (hb : Reordered τ bs bs')
    {i j a : ℕ} (hw : (i, j, a) ∈ writtenConnections (connectionsOf fs)) (hij : τ j ≤ τ i) {u : List ℕ}
    (hu : FaceAt fs i a u) (h3 : ∀ b w, FaceAt fs j b w → u.Perm w → SameSide m.points u w) {f : Interface}
    (hi : interfaceOf m.points nodes fs ns as bs (i, j, a) = .ok f) :
    ∃ b g, (τ j, τ i, b) ∈ writtenConnections (connectionsOf fs') ∧
      interfaceOf m'.points nodes' fs' ns' as' bs' (τ j, τ i, b) = .ok g ∧
      g.area = f.area ∧ isot g.line = isot f.line ∧ angle g.line = -angle f.line ∧
      ∀ opt, (opt = .line → dot f.line f.normal ≠ 0) →
        nodalDistances opt g = ((nodalDistances opt f).2, (nodalDistances opt f).1) := by
  have hlen := fun i a f hfa => (faces_bounds hf i a f hfa).2
  obtain ⟨fs1, r1, r2, r3⟩ := C106_geometry h hf
  rw [hf'] at r1
  cases r1
  obtain ⟨fs2, r4, hF⟩ := C106_faces h hf
  rw [hf'] at r4
  cases r4
  obtain ⟨ns1, r5, hN⟩ := r2 ns hn
  rw [hn'] at r5
  cases r5
  obtain ⟨as1, r6, hA⟩ := r3 as ha
  rw [ha'] at r6
  cases r6
  unfold writtenConnections at hw
  rw [mem_connRows _ 0 [] (by simp)] at hw
  obtain ⟨d, e1, e2, -⟩ := hw
  rw [Nat.zero_add] at e1
  subst e1
  have hia : i < fs.length ∧ a < 6 := by
    by_contra hno
    rw [entry_connectionsOf_none i a hno] at e2
    cases e2
  obtain ⟨b, hm⟩ := ((C42_entry m.cells fs hf i a hia.1 hia.2).1 j).1 e2
  have hm' : Mates fs (j, b) (i, a) := mates_symm (p := (i, a)) (q := (j, b)) hm
  obtain ⟨-, u', w, hu', hw', hp⟩ := hm.1
  have hu0 : u' = u := by
    obtain ⟨row, x1, x2⟩ := hu
    obtain ⟨row', x3, x4⟩ := hu'
    rw [x1] at x3
    cases x3
    rw [x2] at x4
    cases x4
    rfl
  subst hu0
  obtain ⟨g, hg, ht⟩ := interfaceOf_side hf hn ha hu' hw' (h3 b w hw' hp) hi
  have hjb : j < fs.length ∧ b < 6 := by
    obtain ⟨row, x1, x2⟩ := hw'
    exact ⟨(List.getElem?_eq_some_iff.1 x1).1, (faces_bounds hf j b w ⟨row, x1, x2⟩).1⟩
  have hback := (entry_connectionsOf hlen j b hjb.1 hjb.2).1 (i, a) hm'
  refine ⟨b, g, ?_, ?_, ht.area, isot_turned ht, angle_turned ht, fun opt ho => distances_turned ht opt ho⟩
  · unfold writtenConnections
    rw [mem_connRows _ 0 [] (by simp)]
    refine ⟨τ j, (Nat.zero_add _).symm, ?_, hij⟩
    rw [connectionsOf_reordered hF hlen, hback, Option.map_some, newNumber, if_neg (by simp), Int.toNat_natCast]
  · have key : ∀ {α : Type} {l l' : List α}, Reordered τ l l' → ∀ k, itemAt l' (τ k) = itemAt l k := by
      intro α l l' hr k
      unfold itemAt
      rw [hr k]
    rw [← hg]
    unfold interfaceOf
    simp only [key hc, key hF, key hN, key hA, key hb, h.points]

/-- C106. A connection across a triangle whose cells change places is written with the same area and
direction, the opposite angle, and the two distances in the other order. (Distances along the line
need a line that meets the plane of the face.) Missing: faces with four points that are not a
parallelogram, for which this is wrong if they are not plane (`C106_area_violated`). -/
theorem C106_turned_partial {m : Mesh ℝ D} {m' : Mesh ℝ D'} (h : IsReordered τ m m')
    {fs fs' : List (List (List ℕ))} (hf : faces m.cells = .ok fs) (hf' : faces m'.cells = .ok fs')
    {ns ns' : List (List (P3 ℝ))} (hn : faceNormals m.points fs = .ok ns) (hn' : faceNormals m'.points fs' = .ok ns')
    {as as' : List (List ℝ)} (ha : faceAreas m.points fs = .ok as) (ha' : faceAreas m'.points fs' = .ok as')
    {nodes nodes' : List (P3 ℝ)} (hc : Reordered τ nodes nodes') {bs bs' : List Bool} (hb : Reordered τ bs bs')
    {i j a : ℕ} (hw : (i, j, a) ∈ writtenConnections (connectionsOf fs)) (hij : τ j ≤ τ i) {u : List ℕ}
    (hu : FaceAt fs i a u) (h3 : u.length = 3) {f : Interface}
    (hi : interfaceOf m.points nodes fs ns as bs (i, j, a) = .ok f) :
    ∃ b g, (τ j, τ i, b) ∈ writtenConnections (connectionsOf fs') ∧
      interfaceOf m'.points nodes' fs' ns' as' bs' (τ j, τ i, b) = .ok g ∧
      g.area = f.area ∧ isot g.line = isot f.line ∧ angle g.line = -angle f.line ∧
      ∀ opt, (opt = .line → dot f.line f.normal ≠ 0) →
        nodalDistances opt g = ((nodalDistances opt f).2, (nodalDistances opt f).1) :=
  turned_of_side h hf hf' hn hn' ha ha' hc hb hw hij hu (fun _ _ _ hp => sameSide_triangle hp h3) hi

/-- C106. So is a connection across a parallelogram, as in all structured grids of cuboids; the other
cell must go around it in the same way, from any point and in any sense. -/
theorem C106_parallelogram_partial {m : Mesh ℝ D} {m' : Mesh ℝ D'} (h : IsReordered τ m m')
    {fs fs' : List (List (List ℕ))} (hf : faces m.cells = .ok fs) (hf' : faces m'.cells = .ok fs')
    {ns ns' : List (List (P3 ℝ))} (hn : faceNormals m.points fs = .ok ns) (hn' : faceNormals m'.points fs' = .ok ns')
    {as as' : List (List ℝ)} (ha : faceAreas m.points fs = .ok as) (ha' : faceAreas m'.points fs' = .ok as')
    {nodes nodes' : List (P3 ℝ)} (hc : Reordered τ nodes nodes') {bs bs' : List Bool} (hb : Reordered τ bs bs')
    {i j a : ℕ} (hw : (i, j, a) ∈ writtenConnections (connectionsOf fs)) (hij : τ j ≤ τ i) {u : List ℕ}
    (hu : FaceAt fs i a u) (h3 : IsParallelogram m.points u)
    (hl : ∀ b w, FaceAt fs j b w → u.Perm w → SameLoop u w) {f : Interface}
    (hi : interfaceOf m.points nodes fs ns as bs (i, j, a) = .ok f) :
    ∃ b g, (τ j, τ i, b) ∈ writtenConnections (connectionsOf fs') ∧
      interfaceOf m'.points nodes' fs' ns' as' bs' (τ j, τ i, b) = .ok g ∧
      g.area = f.area ∧ isot g.line = isot f.line ∧ angle g.line = -angle f.line ∧
      ∀ opt, (opt = .line → dot f.line f.normal ≠ 0) →
        nodalDistances opt g = ((nodalDistances opt f).2, (nodalDistances opt f).1) :=
  turned_of_side h hf hf' hn hn' ha ha' hc hb hw hij hu (fun b w hw' hp => sameSide_parallelogram (hl b w hw' hp) h3) hi

/-- The faces of the two tetrahedra. -/
def twoTetraFaces : List (List (List ℕ)) :=
  [[[1, 2, 3], [0, 3, 2], [0, 1, 3], [0, 2, 1]], [[2, 3, 4], [1, 4, 3], [1, 2, 4], [1, 3, 2]]]

example : ∃ fs', faces tetrasReal.cells = .ok twoTetraFaces ∧ faces tetrasOther.cells = .ok fs' ∧
    (∃ ns as ns' as', faceNormals tetrasReal.points twoTetraFaces = .ok ns ∧
      faceAreas tetrasReal.points twoTetraFaces = .ok as ∧ faceNormals tetrasOther.points fs' = .ok ns' ∧
      faceAreas tetrasOther.points fs' = .ok as') ∧
    (0, 1, 0) ∈ writtenConnections (connectionsOf twoTetraFaces) ∧
    (Equiv.swap 0 1 : Equiv.Perm ℕ) 1 ≤ Equiv.swap 0 1 0 ∧ FaceAt twoTetraFaces 0 0 [1, 2, 3] := by
  have hl : tetrasReal.points.length = 5 := rfl
  have hl' : tetrasOther.points.length = 5 := rfl
  obtain ⟨⟨ns, h1⟩, as, h2⟩ := C58_total tetrasReal.cells twoTetraFaces rfl (by decide) tetrasReal.points
    (by rw [hl]; decide)
  obtain ⟨⟨ns', h3⟩, as', h4⟩ := C58_total tetrasOther.cells twoTetraFaces.reverse rfl (by decide) tetrasOther.points
    (by rw [hl']; decide)
  exact ⟨_, rfl, rfl, ⟨ns, as, ns', as', h1, h2, h3, h4⟩, by decide +kernel, by decide, _, rfl, rfl⟩

/-- Two cubes side by side. -/
def twoCubes : Mesh ℝ ℤ where
  points := [⟨0, 0, 0⟩, ⟨1, 0, 0⟩, ⟨1, 1, 0⟩, ⟨0, 1, 0⟩, ⟨0, 0, 1⟩, ⟨1, 0, 1⟩, ⟨1, 1, 1⟩, ⟨0, 1, 1⟩,
    ⟨2, 0, 0⟩, ⟨2, 1, 0⟩, ⟨2, 0, 1⟩, ⟨2, 1, 1⟩]
  cells := [⟨.hexahedron, [[0, 1, 2, 3, 4, 5, 6, 7], [1, 8, 9, 2, 5, 10, 11, 6]]⟩]
  pointData := []
  cellData := []
  fieldData := []

example : ∃ fs, faces twoCubes.cells = .ok fs ∧ (0, 1, 3) ∈ writtenConnections (connectionsOf fs) ∧
    FaceAt fs 0 3 [1, 2, 6, 5] ∧ FaceAt fs 1 5 [1, 5, 6, 2] ∧ IsParallelogram twoCubes.points [1, 2, 6, 5] ∧
    SameLoop [1, 2, 6, 5] [1, 5, 6, 2] := by
  refine ⟨_, rfl, by decide +kernel, ⟨_, rfl, rfl⟩, ⟨_, rfl, rfl⟩,
    ⟨1, 2, 6, 5, _, _, _, _, rfl, rfl, rfl, rfl, rfl, ?_, ?_, ?_⟩, 3, .inr rfl⟩ <;> norm_num

end Verif.Mesh
