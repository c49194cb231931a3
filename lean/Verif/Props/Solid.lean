import Verif.Lemmas.Solid
import Verif.Lemmas.Interpolate
import Verif.Props.Geometry

/-!
# Faces enclose their cell (C83)
-/

namespace Verif.Props
open Verif.Py Verif.Model Verif.Mesh Verif.Spec

/-- C83. The table of faces has six rows of four entries for every cell: the vertices of
its faces, filled up with −1. -/
theorem C83_array (cells : List CellBlock) (fs : List (List (List ℕ))) (h : faces cells = .ok fs) :
    ∃ arr : List (List (List ℤ)), facesArray cells = .ok arr ∧ arr.length = (typedCells cells).length ∧
      (∀ rows ∈ arr, rows.length = 6 ∧ ∀ r ∈ rows, r.length = 4) ∧
      ∀ (i : ℕ) (row : List (List ℕ)), fs[i]? = some row → ∀ j < 6, ∀ k < 4,
        ∃ (rows : List (List ℤ)) (r : List ℤ), arr[i]? = some rows ∧ rows[j]? = some r ∧ r[k]? = some (facesEntry row j k) := by
  unfold facesArray
  rw [h, ok_bind]
  refine ⟨_, rfl, ?_, ?_, ?_⟩
  · rw [List.length_map, (faces_rows h).length_eq]
  · intro rows hr
    obtain ⟨row, -, rfl⟩ := List.mem_map.1 hr
    refine ⟨padTo_length, fun r hr => ?_⟩
    unfold padTo at hr
    rcases List.mem_append.1 hr with hr | hr
    · obtain ⟨f, -, rfl⟩ := List.mem_map.1 (List.mem_of_mem_take hr)
      exact padTo_length
    · rw [List.eq_of_mem_replicate hr, List.length_replicate]
  · intro i row hi j hj k hk
    refine ⟨padTo 6 (List.replicate 4 (-1)) (row.map fun f => padTo 4 (-1) (f.map Int.ofNat)), _, ?_, padTo_get hj, ?_⟩
    · rw [List.getElem?_map, hi, Option.map_some]
    · rw [List.getElem?_map]
      unfold facesEntry
      cases row[j]? with
      | none =>
        rw [Option.map_none, Option.getD_none, List.getElem?_replicate, if_pos hk]
      | some f =>
        rw [Option.map_some, Option.getD_some, padTo_get hk, List.getElem?_map]
        show _ = some (match f[k]? with
          | none => -1
          | some v => (v : ℤ))
        cases f[k]? <;> rfl

/-- C83. No face is lost: cells have at most six faces of at most four vertices. -/
theorem C83_array_complete (cells : List CellBlock) (fs : List (List (List ℕ))) (h : faces cells = .ok fs) :
    ∀ row ∈ fs, row.length ≤ 6 ∧ ∀ f ∈ row, f.length ≤ 4 := by
  intro row hrow
  obtain ⟨tc, -, t, ht, hr⟩ := forall₂_mem_right (C42_faces cells fs h) hrow
  refine ⟨?_, fun f hf => ?_⟩
  · rw [← hr.length_eq]
    generalize tc.1 = ty at ht
    cases ty <;> cases ht <;> simp
  · rcases face_lengths ht hr hf with h | h <;> omega

example : facesArray [⟨.wedge, [[5, 10, 12, 6, 11, 13]]⟩] =
    .ok [[[5, 12, 10, -1], [6, 11, 13, -1], [5, 10, 11, 6], [10, 12, 13, 11], [5, 6, 13, 12], [-1, -1, -1, -1]]] := by
  decide +kernel

/-- C83. There is no table for cells of other types. -/
theorem C83_array_refused (cells : List CellBlock) (h : ∃ b ∈ cells, b.data ≠ [] ∧ reference b.type = none) :
    ∃ e, facesArray cells = .error e := by
  cases hf : faces cells with
  | error e => exact ⟨e, by unfold facesArray; rw [hf]; rfl⟩
  | ok fs =>
    exfalso
    obtain ⟨b, hb, hd, hr⟩ := h
    obtain ⟨c, hc⟩ := List.exists_mem_of_ne_nil _ hd
    have hm : (b.type, c) ∈ typedCells cells := List.mem_flatMap.2 ⟨b, hb, List.mem_map.2 ⟨c, hc, rfl⟩⟩
    obtain ⟨row, -, t, ht, -⟩ := forall₂_mem_left (C42_faces cells fs hf) hm
    simp only at ht
    generalize b.type = ty at hr ht
    cases ty <;> simp [reference, faceTable] at hr ht

example : ∃ b ∈ [(⟨.quad, [[0, 1, 2, 3]]⟩ : CellBlock)], b.data ≠ [] ∧ reference b.type = none :=
  ⟨_, List.mem_singleton.2 rfl, by simp, rfl⟩

/-- C83. A convex cell is behind all its faces if it is right-handed, and before all of
them if it is left-handed: the faces are all listed counterclockwise seen from outside,
or all clockwise. -/
theorem C83_sides (cells : List CellBlock) (fs : List (List (List ℕ))) (h : faces cells = .ok fs) (P : ℕ → P3 ℝ) (i : ℕ)
    (tc : CellType × List ℕ) (row : List (List ℕ)) (hi : (typedCells cells)[i]? = some tc) (hr : fs[i]? = some row)
    (hc : ConvexCell P tc.2 row) :
    (0 < handedness P tc ∧ BehindFaces P tc.2 row) ∨ (handedness P tc < 0 ∧ BeforeFaces P tc.2 row) := by
  obtain ⟨t, ht, hrow⟩ := forall₂_both (C42_faces cells fs h) hi hr
  exact convex_sides ht hrow hc

/-- C83. The volume of a convex cell is the volume enclosed by its faces, from wherever
it is seen. -/
theorem C83_volume {D : Type} (m : Mesh ℝ D) (fs : List (List (List ℕ))) (h : faces m.cells = .ok fs) (vs : List ℝ)
    (hv : volumes m = .ok vs) (i : ℕ) (tc : CellType × List ℕ) (row : List (List ℕ)) (V : ℝ)
    (hi : (typedCells m.cells)[i]? = some tc) (hr : fs[i]? = some row) (hV : vs[i]? = some V)
    (hc : ConvexCell (pointOf m.points) tc.2 row) (o : P3 ℝ) :
    V = |enclosedVolume (pointOf m.points) row o| ∧
      (0 < handedness (pointOf m.points) tc → V = enclosedVolume (pointOf m.points) row o) := by
  obtain ⟨t, ht, hrow⟩ := forall₂_both (C42_faces _ fs h) hi hr
  obtain ⟨ts, hts, hcv⟩ := forall₂_both (volumes_tetras hv) hi hV
  obtain ⟨h1, h2⟩ := convex_volume ht hrow hc hts hcv o
  have hn : 0 ≤ V := Verif.Lemmas.cellVolume_nonneg hcv
  refine ⟨?_, h1⟩
  rcases convex_sides ht hrow hc with ⟨h0, -⟩ | ⟨h0, -⟩
  · rw [← h1 h0, abs_of_nonneg hn]
  · have := h2 h0
    rw [show enclosedVolume (pointOf m.points) row o = -V by rw [this, neg_neg], abs_neg, abs_of_nonneg hn]

/-- The normal vectors, as computed. -/
theorem normals_exact {cells : List CellBlock} {fs : List (List (List ℕ))} (h : faces cells = .ok fs)
    {pts : List (P3 ℝ)} {normals : List (List (P3 ℝ))} (hn : faceNormals pts fs = .ok normals) :
    List.Forall₂ (List.Forall₂ fun f n => ∃ v, triangleNormal pts [0, 1, 2] f = .ok v ∧ n = scale (1 / norm3 v) v)
      fs normals := by
  unfold faceNormals at hn
  by_cases h0 : facesInOrder fs = []
  · rw [if_pos h0] at hn; cases hn
  rw [if_neg h0] at hn
  obtain ⟨vs, h1, h2⟩ := bind_eq_ok.1 hn
  cases h2
  refine gather_faces (trianglesFirst_faces h) ?_
  rw [List.forall₂_map_right_iff]
  exact (mapM_eq_ok h1).imp fun o v hv => ⟨v, hv, rfl⟩

/-- The areas, as computed. -/
theorem areas_exact {cells : List CellBlock} {fs : List (List (List ℕ))} (h : faces cells = .ok fs)
    {pts : List (P3 ℝ)} {areas : List (List ℝ)} (ha : faceAreas pts fs = .ok areas) :
    List.Forall₂ (List.Forall₂ fun f A => faceArea pts f = .ok A) fs areas := by
  unfold faceAreas at ha
  by_cases h0 : facesInOrder fs = []
  · rw [if_pos h0] at ha; cases ha
  rw [if_neg h0] at ha
  obtain ⟨vs, h1, h2⟩ := bind_eq_ok.1 ha
  cases h2
  exact gather_faces (trianglesFirst_faces h) (mapM_eq_ok h1)

/-- C83. The normal vectors of a convex cell all point outward if it is right-handed,
and all inward if it is left-handed. -/
theorem C83_outward (cells : List CellBlock) (fs : List (List (List ℕ))) (h : faces cells = .ok fs) (pts : List (P3 ℝ))
    (normals : List (List (P3 ℝ))) (hn : faceNormals pts fs = .ok normals) (i : ℕ) (tc : CellType × List ℕ)
    (row : List (List ℕ)) (ns : List (P3 ℝ)) (hi : (typedCells cells)[i]? = some tc) (hr : fs[i]? = some row)
    (hns : normals[i]? = some ns) (hc : ConvexCell (pointOf pts) tc.2 row) :
    (0 < handedness (pointOf pts) tc → List.Forall₂ (PointsOutward (pointOf pts) tc.2) row ns) ∧
      (handedness (pointOf pts) tc < 0 → List.Forall₂ (PointsInward (pointOf pts) tc.2) row ns) := by
  obtain ⟨t, ht, hrow⟩ := forall₂_both (C42_faces _ fs h) hi hr
  have hx := forall₂_both (normals_exact h hn) hr hns
  have hs := convex_sides ht hrow hc
  constructor
  · intro h0
    have hb : BehindFaces (pointOf pts) tc.2 row := by
      rcases hs with ⟨-, hb⟩ | ⟨h1, -⟩
      · exact hb
      · exact absurd h0 (lt_asymm h1)
    refine forall₂_mem hx fun f n hf hfn => ?_
    obtain ⟨v, hv, rfl⟩ := hfn
    obtain ⟨w, hw, hwf⟩ := vertex_off ht hrow hc hf
    obtain ⟨hu, c, hcc, K, hK, hKe⟩ := normal_sides hc hf (face_lengths ht hrow hf) hw hwf hv
    refine ⟨hu, fun u hu' => ⟨fun x hx => ?_, fun x hx hxf => ?_⟩⟩
    · have := hKe u hu' x
      rw [hc.flat f hf c hcc x hx] at this
      exact (mul_eq_zero.1 this.symm).resolve_left hK.ne'
    · have := hb f hf c hcc x hx hxf
      rw [hKe u hu' x] at this
      exact (pos_iff_neg_of_mul_neg this).1 hK
  · intro h0
    have hb : BeforeFaces (pointOf pts) tc.2 row := by
      rcases hs with ⟨h1, -⟩ | ⟨-, hb⟩
      · exact absurd h0 (lt_asymm h1)
      · exact hb
    refine forall₂_mem hx fun f n hf hfn => ?_
    obtain ⟨v, hv, rfl⟩ := hfn
    obtain ⟨w, hw, hwf⟩ := vertex_off ht hrow hc hf
    obtain ⟨hu, c, hcc, K, hK, hKe⟩ := normal_sides hc hf (face_lengths ht hrow hf) hw hwf hv
    refine ⟨hu, fun u hu' => ⟨fun x hx => ?_, fun x hx hxf => ?_⟩⟩
    · have := hKe u hu' x
      rw [hc.flat f hf c hcc x hx] at this
      exact (mul_eq_zero.1 this.symm).resolve_left hK.ne'
    · have := hb f hf c hcc x hx hxf
      rw [hKe u hu' x] at this
      exact (mul_pos_iff_of_pos_left hK).1 this

/-- C83. The areas times the normal vectors of the faces of a convex cell add up to
zero: the faces close. -/
theorem C83_closed (cells : List CellBlock) (fs : List (List (List ℕ))) (h : faces cells = .ok fs) (pts : List (P3 ℝ))
    (areas : List (List ℝ)) (ha : faceAreas pts fs = .ok areas) (normals : List (List (P3 ℝ)))
    (hn : faceNormals pts fs = .ok normals) (i : ℕ) (tc : CellType × List ℕ) (row : List (List ℕ)) (as : List ℝ)
    (ns : List (P3 ℝ)) (hi : (typedCells cells)[i]? = some tc) (hr : fs[i]? = some row) (has : areas[i]? = some as)
    (hns : normals[i]? = some ns) (hc : ConvexCell (pointOf pts) tc.2 row) : VectorsCancel as ns := by
  obtain ⟨t, ht, hrow⟩ := forall₂_both (C42_faces _ fs h) hi hr
  have hA := forall₂_both (areas_exact h ha) hr has
  have hN := forall₂_both (normals_exact h hn) hr hns
  have key : (as.zip ns).map (fun e => scale e.1 e.2) = row.map (fanVector (pointOf pts)) := by
    suffices hs : ∀ r, (∀ f ∈ r, f ∈ row) → List.Forall₂ (fun f A => faceArea pts f = .ok A) r as →
        List.Forall₂ (fun f n => ∃ v, triangleNormal pts [0, 1, 2] f = .ok v ∧ n = scale (1 / norm3 v) v) r ns →
        (as.zip ns).map (fun e => scale e.1 e.2) = r.map (fanVector (pointOf pts)) from hs row (fun _ h => h) hA hN
    clear hA hN has hns
    intro r hmem hA hN
    induction hA generalizing ns with
    | nil => rfl
    | cons h1 _ ih =>
      rename_i f A rs As _
      cases hN with
      | cons h2 hN =>
        obtain ⟨v, hv, rfl⟩ := h2
        have hf := hmem f List.mem_cons_self
        obtain ⟨w, hw, hwf⟩ := vertex_off ht hrow hc hf
        rw [List.zip_cons_cons, List.map_cons, List.map_cons,
          face_vector hc hf (face_lengths ht hrow hf) hw hwf h1 hv,
          ih _ (fun g hg => hmem g (List.mem_cons_of_mem _ hg)) hN]
  have h0 : ((as.zip ns).map (fun e => scale e.1 e.2)).foldr P3.plus ⟨0, 0, 0⟩ = ⟨0, 0, 0⟩ := by
    rw [key, row_eq hrow, List.map_map]
    have : (fanVector (pointOf pts)) ∘ (fun f : List ℕ => f.map (vertexAt tc.2)) =
        fanVector fun i => pointOf pts (vertexAt tc.2 i) := funext fun f => fanVector_map _ _ f
    rw [this]
    exact fanVector_sum _ ht
  rw [plus_sum] at h0
  injection h0 with hx hy hz
  refine ⟨?_, ?_, ?_⟩
  · rw [← hx]
    congr 1
    exact List.map_congr_left fun e _ => mul_comm _ _
  · rw [← hy]
    congr 1
    exact List.map_congr_left fun e _ => mul_comm _ _
  · rw [← hz]
    congr 1
    exact List.map_congr_left fun e _ => mul_comm _ _

/-- A pyramid of height one on a square, and the faces of its cell. -/
def samplePyramid : List (P3 ℝ) := [⟨0, 0, 0⟩, ⟨2, 0, 0⟩, ⟨2, 2, 0⟩, ⟨0, 2, 0⟩, ⟨1, 1, 1⟩]

def samplePyramidFaces : List (List ℕ) := [[0, 1, 4], [1, 2, 4], [2, 3, 4], [3, 0, 4], [0, 3, 2, 1]]

example : faces [⟨.pyramid, [[0, 1, 2, 3, 4]]⟩] = .ok [samplePyramidFaces] := by decide +kernel

example : ConvexCell (pointOf samplePyramid) [0, 1, 2, 3, 4] samplePyramidFaces ∧
    0 < handedness (pointOf samplePyramid) (.pyramid, [0, 1, 2, 3, 4]) := by
  refine ⟨convexCell_behind (by decide) ?_ ?_, ?_⟩
  · simp only [samplePyramidFaces, List.forall_mem_cons, faceCorners, sideOf, pointOf, samplePyramid, List.take,
      List.cons_append, List.nil_append, List.tail_cons, List.zip_cons_cons, List.zip_nil_right, List.getD_cons_zero,
      List.getD_cons_succ, signedVolume]
    norm_num
  · simp only [BehindFaces, samplePyramidFaces, List.forall_mem_cons, faceCorners, sideOf, pointOf, samplePyramid,
      List.take, List.cons_append, List.nil_append, List.tail_cons, List.zip_cons_cons, List.zip_nil_right,
      List.getD_cons_zero, List.getD_cons_succ, signedVolume]
    norm_num
  · simp only [handedness, pointOf, samplePyramid, List.getD_cons_zero, List.getD_cons_succ, signedVolume]
    norm_num

/-- A pyramid on a concave quadrangle. -/
def concavePyramid : List (P3 ℝ) := [⟨0, 0, 0⟩, ⟨3, 0, 0⟩, ⟨1, 1, 0⟩, ⟨0, 3, 0⟩, ⟨0, 0, 1⟩]

/-- C83. For a cell that is not convex the volume need not be the one enclosed by its
faces. -/
theorem C83_concave_violated : ∃ (m : Mesh ℝ ℤ) (row : List (List ℕ)), faces m.cells = .ok [row] ∧
    (∀ f ∈ row, ∀ t ∈ faceCorners f, ∀ v ∈ f, sideOf (pointOf m.points) t v = 0) ∧
    ∃ V, volumes m = .ok [V] ∧ ∀ o, V ≠ |enclosedVolume (pointOf m.points) row o| := by
  refine ⟨⟨concavePyramid, [⟨.pyramid, [[0, 1, 2, 3, 4]]⟩], [], [], []⟩, samplePyramidFaces, by decide +kernel, ?_, 2, ?_, ?_⟩
  · simp only [samplePyramidFaces, List.forall_mem_cons, faceCorners, sideOf, pointOf, concavePyramid, List.take,
      List.cons_append, List.nil_append, List.tail_cons, List.zip_cons_cons, List.zip_nil_right, List.getD_cons_zero,
      List.getD_cons_succ, signedVolume]
    norm_num
  · have hv : cellVolume concavePyramid [[0, 1, 3, 4], [1, 2, 3, 4]] [0, 1, 2, 3, 4] = .ok 2 := by
      have h1 : rowsAt concavePyramid [0, 1, 3, 4] = .ok [⟨0, 0, 0⟩, ⟨3, 0, 0⟩, ⟨0, 3, 0⟩, ⟨0, 0, 1⟩] := rfl
      have h2 : rowsAt concavePyramid [1, 2, 3, 4] = .ok [⟨3, 0, 0⟩, ⟨1, 1, 0⟩, ⟨0, 3, 0⟩, ⟨0, 0, 1⟩] := rfl
      have h3 : rowsAt [0, 1, 2, 3, 4] [0, 1, 3, 4] = .ok [0, 1, 3, 4] := rfl
      have h4 : rowsAt [0, 1, 2, 3, 4] [1, 2, 3, 4] = .ok [1, 2, 3, 4] := rfl
      unfold cellVolume
      simp only [List.mapM_cons, List.mapM_nil, h1, h2, h3, h4, ok_bind, pure, Except.pure]
      simp only [tripleProduct, cross, P3.sub, List.sum_cons, List.sum_nil]
      norm_num
    unfold volumes
    rw [if_neg (by simp)]
    simp only [List.mapM_cons, List.mapM_nil, tetras, ok_bind, hv]
    rfl
  · intro o
    have : enclosedVolume (pointOf concavePyramid) samplePyramidFaces o = 1 := by
      simp only [enclosedVolume, samplePyramidFaces, pointOf, concavePyramid, fanOf, List.flatMap_cons, List.flatMap_nil,
        List.tail_cons, List.zip_cons_cons, List.zip_nil_right, List.map_cons, List.map_nil, List.cons_append,
        List.nil_append, List.sum_cons, List.sum_nil, List.getD_cons_zero, List.getD_cons_succ, signedVolume]
      ring
    rw [this]
    norm_num

end Verif.Props
