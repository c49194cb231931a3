import Verif.Lemmas.Reshape

/-!
# Extruding a 2D mesh (C44)
-/

namespace Verif.Props
open Verif.Py Verif.Model Verif.Spec Verif.Mesh

section
variable {K : Type} [Field K] [LinearOrder K]

/-- The number of an axis. -/
def axisNumber : Axis → ℤ
  | .x => 0
  | .y => 1
  | .z => 2

theorem toAxis_iff (n : ℤ) (ax : Axis) : toAxis n = .ok ax ↔ n = axisNumber ax := by
  unfold toAxis axisNumber
  by_cases h0 : n = 0
  · subst h0; cases ax <;> decide
  · by_cases h1 : n = 1
    · subst h1; cases ax <;> decide
    · by_cases h2 : n = 2
      · subst h2; cases ax <;> decide
      · cases ax <;> simp [h0, h1, h2]

/-- C44. A mesh is extruded exactly if the axis is 0, 1 or 2, the points are in a plane
across the axis (and there are some, if they have three coordinates), and every cell
data array has one entry per cell. All other meshes are refused with a `ValueError`. -/
theorem C44_accepts {D : Type} (points : Points K) (m : Mesh K D) (height : List K) (axis : ℤ) :
    ((∃ m', extrude points m height axis = .ok m') ↔
      (∃ ax, axis = axisNumber ax ∧ ∀ ps, points = .three ps →
        ps ≠ [] ∧ ∀ p ∈ ps, ∀ q ∈ ps, SameLevel ax p q) ∧
      ∀ kv ∈ m.cellData, kv.2.length = (allCells m.cells).length) ∧
    (∀ e, extrude points m height axis = .error e → e = .valueError) := by
  have hbase : ∀ ax, ((∃ b, basePoints ax points = .ok b) ↔ ∀ ps, points = .three ps →
        ps ≠ [] ∧ ∀ p ∈ ps, ∀ q ∈ ps, SameLevel ax p q) ∧
      ∀ e, basePoints ax points = .error e → e = .valueError := by
    intro ax
    unfold basePoints
    cases points with
    | two ps => simp
    | three ps =>
      have hs : ∀ p q : P3 K, coord ax p = coord ax q ↔ SameLevel ax p q := by
        intro p q; cases ax <;> rfl
      have hd := dedup_one (ps.map (coord ax))
      simp only [List.mem_map, forall_exists_index, and_imp, forall_apply_eq_imp_iff₂, ne_eq,
        List.map_eq_nil_iff, hs] at hd
      by_cases h : (ps.map (coord ax)).dedup.length = 1
      · simp only [h, ne_eq, not_true_eq_false, if_false]
        refine ⟨⟨fun _ qs e => ?_, fun _ => ⟨_, rfl⟩⟩, fun e he => by cases he⟩
        cases e
        exact hd.1 h
      · simp only [h, ne_eq, not_false_eq_true, if_true]
        refine ⟨⟨?_, fun hq => absurd (hd.2 (hq ps rfl)) h⟩, fun e he => by cases he; rfl⟩
        rintro ⟨b, hb⟩
        cases hb
  have hdata : ∀ nh, ((∃ cd, (m.cellData.mapM fun kv => do
      let ps ← split m.cells kv.2
      .ok (kv.1, (extrudePieces nh m.cells ps).flatten)) = .ok cd) ↔
      ∀ kv ∈ m.cellData, kv.2.length = (allCells m.cells).length) ∧
      ∀ e, (m.cellData.mapM fun kv => do
      let ps ← split m.cells kv.2
      .ok (kv.1, (extrudePieces nh m.cells ps).flatten)) = .error e → e = .valueError := by
    intro nh
    refine ⟨⟨fun ⟨cd, h⟩ kv hkv => ?_, fun h => mapM_exists fun kv hkv => ?_⟩, ?_⟩
    · obtain ⟨kv', -, hk⟩ := forall₂_mem_left (mapM_eq_ok h) hkv
      rw [bind_eq_ok] at hk
      obtain ⟨ps, h4, -⟩ := hk
      exact (split_pieces h4).2.1
    · obtain ⟨ps, hps⟩ := split_total (h kv hkv)
      rw [hps, ok_bind]
      exact ⟨_, rfl⟩
    · induction m.cellData with
      | nil => intro e h; cases h
      | cons kv l ih =>
        intro e h
        rw [List.mapM_cons] at h
        by_cases hk : kv.2.length = (allCells m.cells).length
        · obtain ⟨ps, hps⟩ := split_total hk
          rw [hps] at h
          simp only [ok_bind] at h
          cases hr : (l.mapM fun kv => do
            let ps ← split m.cells kv.2
            .ok (kv.1, (extrudePieces nh m.cells ps).flatten)) with
          | ok r => rw [hr] at h; cases h
          | error e' =>
            rw [hr] at h
            cases h
            exact ih e hr
        · have : split m.cells kv.2 = .error .valueError := by
            have e : nCells m.cells = (allCells m.cells).length := by
              simp [nCells, allCells, List.length_flatMap]
            unfold split
            rw [e, if_pos hk]
          rw [this] at h
          cases h
          rfl
  constructor
  · constructor
    · rintro ⟨m', h⟩
      obtain ⟨ax, base, h1, h2, -, -, -, h3, -⟩ := extrude_ok h
      refine ⟨⟨ax, (toAxis_iff _ _).1 h1, (hbase ax).1.1 ⟨base, h2⟩⟩, fun kv hkv => ?_⟩
      obtain ⟨kv', -, ps, hk, -⟩ := forall₂_mem_left h3 hkv
      exact (split_pieces hk).2.1
    · rintro ⟨⟨ax, h1, h2⟩, h3⟩
      obtain ⟨base, hb⟩ := (hbase ax).1.2 h2
      obtain ⟨cd, hcd⟩ := (hdata height.length).1.2 h3
      unfold extrude
      rw [(toAxis_iff _ _).2 h1, ok_bind, hb, ok_bind]
      simp only
      rw [hcd, ok_bind]
      exact ⟨_, rfl⟩
  · intro e h
    unfold extrude at h
    cases ha : toAxis axis with
    | error e' =>
      rw [ha] at h
      cases h
      unfold toAxis at ha
      split at ha
      · cases ha
      · split at ha
        · cases ha
        · split at ha
          · cases ha
          · cases ha; rfl
    | ok ax =>
      rw [ha, ok_bind] at h
      cases hb : basePoints ax points with
      | error e' => rw [hb] at h; cases h; exact (hbase ax).2 e hb
      | ok base =>
        rw [hb, ok_bind] at h
        simp only at h
        cases hc : (m.cellData.mapM fun kv => do
            let ps ← split m.cells kv.2
            .ok (kv.1, (extrudePieces height.length m.cells ps).flatten)) with
        | error e' => rw [hc] at h; cases h; exact (hdata _).2 e hc
        | ok cd => rw [hc] at h; cases h

/-- C44. The points of the new mesh are the copies of the points at the levels, level
after level, and each copy has the point data of its original. -/
theorem C44_points {D : Type} (points : Points K) (m m' : Mesh K D) (height : List K) (axis : ℤ)
    (h : extrude points m height axis = .ok m') :
    ∃ ax base, axis = axisNumber ax ∧ StartsAt ax points base ∧
      m'.points = (List.range (height.length + 1)).flatMap (fun l => raised ax height l base) ∧
      List.Forall₂ (fun (kv kv' : Str × List D) => kv'.1 = kv.1 ∧
        (kv.2.length = base.length → m'.points.zip kv'.2 =
          (List.range (height.length + 1)).flatMap fun l => (raised ax height l base).zip kv.2))
        m.pointData m'.pointData := by
  obtain ⟨ax, base, h1, h2, h3, -, h5, -, -⟩ := extrude_ok h
  have hp : m'.points = (List.range (height.length + 1)).flatMap (fun l => raised ax height l base) := by
    rw [h3, stack_eq]; rfl
  refine ⟨ax, base, (toAxis_iff _ _).1 h1, basePoints_ok h2, hp, ?_⟩
  rw [h5, List.forall₂_map_right_iff, List.forall₂_same]
  intro kv _
  refine ⟨rfl, fun hl => ?_⟩
  rw [hp]
  simp only [tile]
  have : ∀ k s, ((List.range' s k).flatMap fun l => raised ax height l base).zip (List.replicate k kv.2).flatten =
      (List.range' s k).flatMap fun l => (raised ax height l base).zip kv.2 := by
    intro k
    induction k with
    | zero => simp
    | succ k ihk =>
      intro s
      rw [List.range'_succ, List.flatMap_cons, List.flatMap_cons, List.replicate_succ, List.flatten_cons,
        List.zip_append (by simp [raised, hl]), ihk]
  have := this (height.length + 1) 0
  rwa [← List.range_eq_range'] at this

/-- C44. Blocks of triangles and quads become blocks of wedges and hexahedra: for every
level but the last, the cells standing on the copies of the cells at that level. -/
theorem C44_cells {D : Type} (points : Points K) (m m' : Mesh K D) (height : List K) (axis : ℤ)
    (h : extrude points m height axis = .ok m') (hf : Flat m.cells) :
    ∃ ax base, axis = axisNumber ax ∧ StartsAt ax points base ∧
      List.Forall₂ (fun b b' => Extruded b.type b'.type ∧ b'.data = (List.range height.length).flatMap fun l =>
        b.data.map (standing base.length l)) m.cells m'.cells ∧
      (allCells m'.cells).length = height.length * (allCells m.cells).length := by
  obtain ⟨ax, base, h1, h2, -, h4, -, -, -⟩ := extrude_ok h
  have hb : List.Forall₂ (fun b b' => Extruded b.type b'.type ∧ b'.data = (List.range height.length).flatMap fun l =>
        b.data.map (standing base.length l)) m.cells m'.cells := by
    rw [h4]
    clear h4 h
    generalize m.cells = cells at hf
    induction cells with
    | nil => exact .nil
    | cons b cells ih =>
      obtain ⟨t, ht⟩ : ∃ t, extrudedType b.type = some t := by
        rcases hf b List.mem_cons_self with h | h <;> rw [h] <;> exact ⟨_, rfl⟩
      simp only [List.filterMap_cons, ht, Option.map_some]
      exact .cons ⟨(extrudedType_iff _ _).1 ht, extrudeRows_eq _ _ _⟩ (ih fun b hb => hf b (List.mem_cons_of_mem _ hb))
  refine ⟨ax, base, (toAxis_iff _ _).1 h1, basePoints_ok h2, hb, ?_⟩
  unfold allCells
  generalize m'.cells = cells' at hb
  generalize m.cells = cells at hb
  clear h h4 hf
  induction hb with
  | nil => simp
  | cons hb _ ih =>
    rw [List.flatMap_cons, List.flatMap_cons, List.length_append, List.length_append, ih, hb.2,
      length_flatMap_const (n := _) (by intro x _; rw [List.length_map]), List.length_range]
    ring

/-- C44. A cell standing on a cell has the corners of that cell at one level and the same
corners at the next level; in particular all its vertices exist. -/
theorem C44_corners {D : Type} (points : Points K) (m m' : Mesh K D) (height : List K) (axis : ℤ)
    (h : extrude points m height axis = .ok m') :
    ∃ ax base, axis = axisNumber ax ∧ StartsAt ax points base ∧
      ∀ c ps l, l < height.length → Vertices base c ps →
        Vertices m'.points (standing base.length l c) (raised ax height l ps ++ raised ax height (l + 1) ps) := by
  obtain ⟨ax, base, h1, h2, h3, -, -, -, -⟩ := extrude_ok h
  refine ⟨ax, base, (toAxis_iff _ _).1 h1, basePoints_ok h2, fun c ps l hl hv => ?_⟩
  rw [h3]
  unfold Vertices standing raised at *
  refine List.rel_append ?_ ?_
  · rw [List.forall₂_map_left_iff, List.forall₂_map_right_iff]
    exact hv.imp fun i p hp => stack_get ax height base l i hl.le p hp
  · rw [List.forall₂_map_left_iff, List.forall₂_map_right_iff]
    exact hv.imp fun i p hp => stack_get ax height base (l + 1) i hl p hp

/-- C44. Every cell data array of the new mesh has one entry per cell, and the cells with
their data are, in some order, the cells standing on the old cells at the levels, each
with the data of the old cell. -/
theorem C44_cell_data {D : Type} (points : Points K) (m m' : Mesh K D) (height : List K) (axis : ℤ)
    (h : extrude points m height axis = .ok m') (hf : Flat m.cells) :
    ∃ ax base, axis = axisNumber ax ∧ StartsAt ax points base ∧
      List.Forall₂ (fun (kv kv' : Str × List D) => kv'.1 = kv.1 ∧
        kv'.2.length = (allCells m'.cells).length ∧
        ((allCells m'.cells).zip kv'.2).Perm ((List.range height.length).flatMap fun l =>
          ((allCells m.cells).zip kv.2).map fun cd => (standing base.length l cd.1, cd.2)))
        m.cellData m'.cellData := by
  obtain ⟨ax, base, h1, h2, -, h4, -, h5, -⟩ := extrude_ok h
  refine ⟨ax, base, (toAxis_iff _ _).1 h1, basePoints_ok h2, h5.imp ?_⟩
  rintro kv kv' ⟨ps, hps, rfl⟩
  obtain ⟨p1, p2, p3, p4⟩ := split_pieces hps
  refine ⟨rfl, ?_⟩
  by_cases hc : m.cells = []
  · have hn := p3 hc
    subst hn
    simp [h4, hc, extrudePieces, allCells]
  · have := extrude_zip base.length height.length hf (p4 hc)
    simp only [p1] at this
    rw [h4]
    exact this

end

section
variable {K : Type} [Field K] [LinearOrder K] [IsStrictOrderedRing K]

/-- C44. The volume of the cell standing on a triangle is its area times the height. -/
theorem C44_wedge_volume {D : Type} (points : Points K) (m m' : Mesh K D) (height : List K) (axis : ℤ)
    (h : extrude points m height axis = .ok m') :
    ∃ ax base ts, axis = axisNumber ax ∧ StartsAt ax points base ∧ tetras .wedge = .ok ts ∧
      ∀ c p q r l t, height[l]? = some t → Vertices base c [p, q, r] →
        cellVolume m'.points ts (standing base.length l c) = .ok (|area2 ax p q r| / 2 * |t|) := by
  obtain ⟨ax, base, h1, h2, h3⟩ := C44_corners points m m' height axis h
  refine ⟨ax, base, _, h1, h2, rfl, fun c p q r l t hl hv => ?_⟩
  have hv' := h3 c _ l (List.getElem?_eq_some_iff.1 hl).1 hv
  simp only [raised, List.map_cons, List.map_nil, List.cons_append, List.nil_append, level_succ hl] at hv'
  have hw := wedge_prism (p.add (along ax (level height l))) (q.sub p) (r.sub p) (along ax t) (pts := m'.points)
    (cell := standing base.length l c) (by
      refine cast ?_ hv'
      congr 1
      simp only [List.cons.injEq, P3.ext_iff]
      cases ax <;> simp only [along, P3.add, P3.sub] <;> (refine ⟨?_, ?_, ?_, ?_, ?_, ?_, trivial⟩) <;>
        first | trivial | ((refine ⟨?_, ?_, ?_⟩) <;> ring))
  rw [hw, det3_along, abs_mul]
  congr 1
  have : det3 (q.sub p) (r.sub p) (along ax 1) = area2 ax p q r := by
    cases ax <;> simp only [det3, along, P3.sub, area2] <;> ring
  rw [this]
  ring

/-- C44. The volume of the cell standing on a convex quad is its area (half the product
of the diagonals) times the height. -/
theorem C44_hexahedron_volume {D : Type} (points : Points K) (m m' : Mesh K D) (height : List K) (axis : ℤ)
    (h : extrude points m height axis = .ok m') :
    ∃ ax base ts, axis = axisNumber ax ∧ StartsAt ax points base ∧ tetras .hexahedron = .ok ts ∧
      ∀ c p q r s l t, height[l]? = some t → Vertices base c [p, q, r, s] → Convex ax p q r s →
        cellVolume m'.points ts (standing base.length l c) =
          .ok ((|area2 ax p q r| / 2 + |area2 ax r s p| / 2) * |t|) := by
  obtain ⟨ax, base, h1, h2, h3, -⟩ := extrude_ok h
  have h3' : ∀ c ps l, l < height.length → Vertices base c ps →
        Vertices m'.points (standing base.length l c) (raised ax height l ps ++ raised ax height (l + 1) ps) := by
    intro c ps l hl hv
    rw [h3]
    unfold Vertices standing raised at *
    refine List.rel_append ?_ ?_
    · rw [List.forall₂_map_left_iff, List.forall₂_map_right_iff]
      exact hv.imp fun i p hp => stack_get ax height base l i hl.le p hp
    · rw [List.forall₂_map_left_iff, List.forall₂_map_right_iff]
      exact hv.imp fun i p hp => stack_get ax height base (l + 1) i hl p hp
  refine ⟨ax, base, _, (toAxis_iff _ _).1 h1, basePoints_ok h2, rfl, fun c p q r s l t hl hv hc => ?_⟩
  have hv' := h3' c _ l (List.getElem?_eq_some_iff.1 hl).1 hv
  have hmem : ∀ x ∈ [p, q, r, s], x ∈ base := by
    intro x hx
    obtain ⟨i, -, hi⟩ := forall₂_mem_right hv hx
    exact List.mem_of_getElem? hi
  have hpl : det3 (s.sub q) (p.sub q) (r.sub q) = 0 := by
    have l1 := base_level h2 s (hmem s (by simp)) q (hmem q (by simp))
    have l2 := base_level h2 p (hmem p (by simp)) q (hmem q (by simp))
    have l3 := base_level h2 r (hmem r (by simp)) q (hmem q (by simp))
    cases ax <;> simp only [SameLevel] at l1 l2 l3 <;> simp only [det3, P3.sub, l1, l2, l3] <;> ring
  simp only [raised, List.map_cons, List.map_nil, List.cons_append, List.nil_append, level_succ hl] at hv'
  have hsub : ∀ u v : P3 K, (u.add (along ax (level height l))).sub (v.add (along ax (level height l))) = u.sub v := by
    intro u v
    cases ax <;> simp [P3.add, P3.sub, along]
  have ha : ∀ u v w : P3 K, det3 (v.sub u) (w.sub u) (along ax t) = t * area2 ax u v w := by
    intro u v w
    rw [det3_along]
    cases ax <;> simp only [det3, along, P3.sub, area2] <;> ring
  have a1 : area2 ax p q s = area2 ax s p q := by cases ax <;> simp only [area2] <;> ring
  have a2 : area2 ax p r s = area2 ax r s p := by cases ax <;> simp only [area2] <;> ring
  have a3 : det3 (r.sub p) (s.sub q) (along ax t) = t * (area2 ax p q r + area2 ax r s p) := by
    rw [det3_along]
    cases ax <;> simp only [det3, along, P3.sub, area2] <;> ring
  have hw := oblique_prism (p.add (along ax (level height l))) (q.add (along ax (level height l)))
    (r.add (along ax (level height l))) (s.add (along ax (level height l))) (along ax t) (pts := m'.points)
    (cell := standing base.length l c) (by simpa only [add_along] using hv') (by simpa only [hsub] using hpl) (by
      simp only [hsub, ha, a1, a2]
      rcases hc with ⟨c1, c2, c3, c4⟩ | ⟨c1, c2, c3, c4⟩ <;> rcases le_total 0 t with ht | ht
      · exact .inl ⟨mul_nonneg ht c4, mul_nonneg ht c1, mul_nonneg ht c2, mul_nonneg ht c3⟩
      · exact .inr ⟨mul_nonpos_of_nonpos_of_nonneg ht c4, mul_nonpos_of_nonpos_of_nonneg ht c1,
          mul_nonpos_of_nonpos_of_nonneg ht c2, mul_nonpos_of_nonpos_of_nonneg ht c3⟩
      · exact .inr ⟨mul_nonpos_of_nonneg_of_nonpos ht c4, mul_nonpos_of_nonneg_of_nonpos ht c1,
          mul_nonpos_of_nonneg_of_nonpos ht c2, mul_nonpos_of_nonneg_of_nonpos ht c3⟩
      · exact .inl ⟨mul_nonneg_of_nonpos_of_nonpos ht c4, mul_nonneg_of_nonpos_of_nonpos ht c1,
          mul_nonneg_of_nonpos_of_nonpos ht c2, mul_nonneg_of_nonpos_of_nonpos ht c3⟩)
  rw [hw, hsub, hsub, a3, abs_mul]
  congr 1
  have : |area2 ax p q r + area2 ax r s p| = |area2 ax p q r| + |area2 ax r s p| := by
    rcases hc with ⟨c1, c2, c3, c4⟩ | ⟨c1, c2, c3, c4⟩
    · rw [abs_of_nonneg c1, abs_of_nonneg c3, abs_of_nonneg (add_nonneg c1 c3)]
    · rw [abs_of_nonpos c1, abs_of_nonpos c3, abs_of_nonpos (add_nonpos c1 c3)]; ring
  rw [this]
  ring

end

/-- A quad next to a triangle, in the plane. -/
def flatMesh : Mesh ℚ ℤ :=
  { points := []
    cells := [⟨.quad, [[0, 1, 2, 3]]⟩, ⟨.triangle, [[1, 4, 2]]⟩]
    pointData := [("p".toList, [10, 11, 12, 13, 14])]
    cellData := [("material".toList, [5, 6])]
    fieldData := [("rock".toList, 5, 2)] }

def flatPoints : Points ℚ := .two [(0, 0), (2, 0), (2, 1), (0, 1), (3, 0)]

/-- The result for two heights: the order of the cells is that of `C44_cells`. -/
example : extrude flatPoints flatMesh [1, 3] 2 = .ok
    { points := [⟨0, 0, 0⟩, ⟨2, 0, 0⟩, ⟨2, 1, 0⟩, ⟨0, 1, 0⟩, ⟨3, 0, 0⟩,
        ⟨0, 0, 1⟩, ⟨2, 0, 1⟩, ⟨2, 1, 1⟩, ⟨0, 1, 1⟩, ⟨3, 0, 1⟩,
        ⟨0, 0, 4⟩, ⟨2, 0, 4⟩, ⟨2, 1, 4⟩, ⟨0, 1, 4⟩, ⟨3, 0, 4⟩]
      cells := [⟨.hexahedron, [[0, 1, 2, 3, 5, 6, 7, 8], [5, 6, 7, 8, 10, 11, 12, 13]]⟩,
        ⟨.wedge, [[1, 4, 2, 6, 9, 7], [6, 9, 7, 11, 14, 12]]⟩]
      pointData := [("p".toList, [10, 11, 12, 13, 14, 10, 11, 12, 13, 14, 10, 11, 12, 13, 14])]
      cellData := [("material".toList, [5, 5, 6, 6])]
      fieldData := [("rock".toList, 5, 3)] } := by decide +kernel

example : Flat flatMesh.cells ∧ Vertices [(⟨0, 0, 0⟩ : P3 ℚ), ⟨2, 0, 0⟩, ⟨2, 1, 0⟩, ⟨0, 1, 0⟩] [0, 1, 2, 3]
    [⟨0, 0, 0⟩, ⟨2, 0, 0⟩, ⟨2, 1, 0⟩, ⟨0, 1, 0⟩] ∧
    Convex .z (⟨0, 0, 0⟩ : P3 ℚ) ⟨2, 0, 0⟩ ⟨2, 1, 0⟩ ⟨0, 1, 0⟩ := by
  refine ⟨by decide, ?_, ?_⟩
  · exact .cons rfl (.cons rfl (.cons rfl (.cons rfl .nil)))
  · left
    norm_num [area2]

/-- C44. In a mesh with other cells, such as lines, these are dropped while their data
are kept, so the data no longer fit the cells. -/
theorem C44_other_cells : ∃ (m m' : Mesh ℚ ℤ) (kv : Str × List ℤ),
    (∀ kv ∈ m.cellData, kv.2.length = (allCells m.cells).length) ∧
    extrude (.two [(0, 0), (1, 0), (0, 1)]) m [1] 2 = .ok m' ∧ kv ∈ m'.cellData ∧
      kv.2.length ≠ (allCells m'.cells).length :=
  ⟨{ points := [], cells := [⟨.other "line".toList, [[0, 1]]⟩, ⟨.triangle, [[0, 1, 2]]⟩], pointData := [],
      cellData := [("material".toList, [1, 2])], fieldData := [] },
    { points := [⟨0, 0, 0⟩, ⟨1, 0, 0⟩, ⟨0, 1, 0⟩, ⟨0, 0, 1⟩, ⟨1, 0, 1⟩, ⟨0, 1, 1⟩],
      cells := [⟨.wedge, [[0, 1, 2, 3, 4, 5]]⟩], pointData := [],
      cellData := [("material".toList, [1, 2])], fieldData := [] },
    ("material".toList, [1, 2]), by decide, by decide +kernel, by decide, by decide⟩

end Verif.Props
