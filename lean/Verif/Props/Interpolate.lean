import Verif.Lemmas.Interpolate

/-!
# C74: interpolation between cells and points
-/

namespace Verif.Props
open Verif.Py Verif.Model Verif.Mesh Verif.Spec Verif.Lemmas

variable {K : Type} [Field K] [LinearOrder K]

/-- One array, from cells to points. -/
theorem one_to_points {cells : List (List ℕ)} {vols vs : List K} {n : ℕ}
    (hv : vs.length = cells.length)
    (h0 : ∀ p < n, ∑ i ∈ Finset.range cells.length, weightAt cells vols p i ≠ 0) :
    interpolateOne (vs.map Row.num)
      (((List.range n).map fun p : ℕ => (around cells.zipIdx p,
        (around cells.zipIdx p).map fun i => vols.getD i 0)).map (·.1))
      (((List.range n).map fun p : ℕ => (around cells.zipIdx p,
        (around cells.zipIdx p).map fun i => vols.getD i 0)).map (·.2)) =
      .ok ((List.range n).map fun p : ℕ => Row.num
        ((∑ i ∈ Finset.range cells.length, weightAt cells vols p i * vs.getD i 0) /
          ∑ i ∈ Finset.range cells.length, weightAt cells vols p i)) := by
  by_cases hn : n = 0
  · subst hn; rfl
  unfold interpolateOne
  rw [if_neg (by simp [hn]), List.zip_map', List.mapM_map, List.mapM_map]
  apply mapM_ok
  intro p hp
  simp only [Function.comp_apply]
  rw [rowsAt_num (fun i hi => by rw [hv]; exact mem_around hi), ok_bind, any_isVec,
    average_ok (h0 p (List.mem_range.1 hp))]
  rfl

/-- C74. From cells to points: if every point is a vertex of a cell with a volume, the value
of each array at a point is the mean of the values of the cells around it, weighted by their
volumes; the arrays take the place of those of the same name, the others stay, no cell data
are left. -/
theorem C74_to_points_partial (m : Mesh K (Row K)) (vols : List K) (hv : volumes m = .ok vols)
    (hi : ∀ c ∈ vertexLists m, ∀ p ∈ c, p < m.points.length)
    (h0 : ∀ p < m.points.length,
      ∑ i ∈ Finset.range (vertexLists m).length, weightAt (vertexLists m) vols p i ≠ 0)
    (hd : ScalarData (vertexLists m).length m.cellData) :
    ∃ r, cellToPoint m = .ok r ∧ r.points = m.points ∧ r.cells = m.cells ∧ r.fieldData = m.fieldData ∧
      r.cellData = [] ∧
      (∀ e ∈ m.cellData, ∃ vs xs : List K, e.2 = vs.map Row.num ∧ dictGet r.pointData e.1 = .ok (xs.map Row.num) ∧
        xs.length = m.points.length ∧ ∀ p x, xs[p]? = some x → VolumeMean (vertexLists m) vols vs p x) ∧
      ∀ k, k ∉ m.cellData.map (·.1) → dictGet r.pointData k = dictGet m.pointData k := by
  obtain ⟨hn, hs⟩ := hd
  choose! f hf using fun e he => scalar_rows (hs e he).2
  let val : Str × List (Row K) → List K := fun e => (List.range m.points.length).map fun p : ℕ =>
    (∑ i ∈ Finset.range (vertexLists m).length, weightAt (vertexLists m) vols p i * (f e).getD i 0) /
      ∑ i ∈ Finset.range (vertexLists m).length, weightAt (vertexLists m) vols p i
  have hint : interpolateData m.cellData
      (((List.range m.points.length).map fun p : ℕ => (around (vertexLists m).zipIdx p,
        (around (vertexLists m).zipIdx p).map fun i => vols.getD i 0)).map (·.1))
      (((List.range m.points.length).map fun p : ℕ => (around (vertexLists m).zipIdx p,
        (around (vertexLists m).zipIdx p).map fun i => vols.getD i 0)).map (·.2)) =
      .ok (m.cellData.map fun e => (e.1, (val e).map Row.num)) := by
    unfold interpolateData
    apply mapM_ok
    intro e he
    rw [hf e he, one_to_points (by rw [← (hs e he).1, hf e he, List.length_map]) h0]
    simp [val]
  have hkeys : ((m.cellData.map fun e => (e.1, (val e).map Row.num)).map (·.1)) = m.cellData.map (·.1) := by
    rw [List.map_map]; rfl
  obtain ⟨g1, g2⟩ := dictGet_updated (base := m.pointData)
    (d := m.cellData.map fun e => (e.1, (val e).map Row.num)) (by rw [hkeys]; exact hn)
  refine ⟨{ m with
    pointData := updateDict m.pointData (m.cellData.map fun e => (e.1, (val e).map Row.num)), cellData := [] },
    ?_, rfl, rfl, rfl, rfl, ?_, ?_⟩
  · unfold cellToPoint
    rw [hv, ok_bind]
    change (pointCells m.points.length (vertexLists m) vols >>= _) = _
    rw [pointCells_ok (volumes_parts hv).1 hi, ok_bind, hint]
    rfl
  · intro e he
    refine ⟨f e, val e, hf e he, g1 _ (List.mem_map_of_mem he), by simp [val], ?_⟩
    intro p x hx
    simp only [val, List.getElem?_map] at hx
    obtain ⟨q, hq, rfl⟩ := Option.map_eq_some_iff.1 hx
    rw [List.getElem?_eq_some_iff] at hq
    obtain ⟨hl, hq⟩ := hq
    simp only [List.getElem_range] at hq
    subst hq
    rfl
  · intro k hk
    exact g2 k (by rw [hkeys]; exact hk)

/-- C74. From points to cells: the value of each array in a cell is the mean of the values
at its vertices; the arrays take the place of those of the same name, the others stay, no
point data are left. -/
theorem C74_to_cells_partial (m : Mesh K (Row K)) (hi : ∀ c ∈ vertexLists m, ∀ p ∈ c, p < m.points.length)
    (hd : ScalarData m.points.length m.pointData) :
    ∃ r, pointToCell m = .ok r ∧ r.points = m.points ∧ r.cells = m.cells ∧ r.fieldData = m.fieldData ∧
      r.pointData = [] ∧
      (∀ e ∈ m.pointData, ∃ vs xs : List K, e.2 = vs.map Row.num ∧ dictGet r.cellData e.1 = .ok (xs.map Row.num) ∧
        List.Forall₂ (VertexMean vs) (vertexLists m) xs) ∧
      ∀ k, k ∉ m.pointData.map (·.1) → dictGet r.cellData k = dictGet m.cellData k := by
  obtain ⟨hn, hs⟩ := hd
  choose! f hf using fun e he => scalar_rows (hs e he).2
  let val : Str × List (Row K) → List K := fun e => (vertexLists m).map fun c =>
    (c.map fun p => (f e).getD p 0).sum / (c.length : K)
  have hint : interpolateData m.pointData (vertexLists m) [] =
      .ok (m.pointData.map fun e => (e.1, (val e).map Row.num)) := by
    unfold interpolateData
    apply mapM_ok
    intro e he
    have hl : (f e).length = m.points.length := by rw [← (hs e he).1, hf e he, List.length_map]
    have : interpolateOne e.2 (vertexLists m) [] = .ok ((val e).map Row.num) := by
      unfold interpolateOne
      rw [if_pos rfl]
      simp only [val, List.map_map]
      apply mapM_ok
      intro c hc
      rw [hf e he, rowsAt_num (fun p hp => by rw [hl]; exact hi c hc p hp), ok_bind]
      unfold npMean
      rw [entries_num, List.length_map]
      rfl
    rw [this]
    rfl
  have hkeys : ((m.pointData.map fun e => (e.1, (val e).map Row.num)).map (·.1)) = m.pointData.map (·.1) := by
    rw [List.map_map]; rfl
  obtain ⟨g1, g2⟩ := dictGet_updated (base := m.cellData)
    (d := m.pointData.map fun e => (e.1, (val e).map Row.num)) (by rw [hkeys]; exact hn)
  refine ⟨{ m with
    cellData := updateDict m.cellData (m.pointData.map fun e => (e.1, (val e).map Row.num)), pointData := [] },
    ?_, rfl, rfl, rfl, rfl, ?_, ?_⟩
  · unfold pointToCell
    change (interpolateData m.pointData (vertexLists m) [] >>= _) = _
    rw [hint]
    rfl
  · intro e he
    refine ⟨f e, val e, hf e he, g1 _ (List.mem_map_of_mem he), ?_⟩
    simp only [val]
    rw [List.forall₂_map_right_iff, List.forall₂_same]
    intro c _
    rfl
  · intro k hk
    exact g2 k (by rw [hkeys]; exact hk)

section Ordered
variable [IsStrictOrderedRing K]

/-- C74. A value interpolated to a point is between the smallest and the largest value of
the cells around it. -/
theorem C74_points_between {D : Type} (m : Mesh K D) (vols vs : List K) (hv : volumes m = .ok vols) (p : ℕ) (x a b : K)
    (h0 : ∑ i ∈ Finset.range (vertexLists m).length, weightAt (vertexLists m) vols p i ≠ 0)
    (hab : ∀ i c, (vertexLists m)[i]? = some c → p ∈ c → a ≤ vs.getD i 0 ∧ vs.getD i 0 ≤ b)
    (h : VolumeMean (vertexLists m) vols vs p x) : a ≤ x ∧ x ≤ b := by
  have hw : ∀ i, 0 ≤ weightAt (vertexLists m) vols p i := fun i =>
    mul_nonneg (Nat.cast_nonneg _) (volumes_nonneg hv i)
  have hpos : 0 < ∑ i ∈ Finset.range (vertexLists m).length, weightAt (vertexLists m) vols p i :=
    lt_of_le_of_ne (Finset.sum_nonneg fun i _ => hw i) (Ne.symm h0)
  have hcell : ∀ i ∈ Finset.range (vertexLists m).length,
      a * weightAt (vertexLists m) vols p i ≤ weightAt (vertexLists m) vols p i * vs.getD i 0 ∧
      weightAt (vertexLists m) vols p i * vs.getD i 0 ≤ b * weightAt (vertexLists m) vols p i := by
    intro i hir
    rw [Finset.mem_range] at hir
    have hg : (vertexLists m)[i]? = some (vertexLists m)[i] := List.getElem?_eq_getElem hir
    by_cases hp : p ∈ (vertexLists m)[i]
    · obtain ⟨h1, h2⟩ := hab i _ hg hp
      exact ⟨by rw [mul_comm]; exact mul_le_mul_of_nonneg_left h1 (hw i),
        by rw [mul_comm b]; exact mul_le_mul_of_nonneg_left h2 (hw i)⟩
    · have : weightAt (vertexLists m) vols p i = 0 := by
        unfold weightAt
        rw [List.getD_eq_getElem?_getD, hg]
        simp [List.count_eq_zero_of_not_mem hp]
      simp [this]
  unfold VolumeMean at h
  rw [h, le_div_iff₀ hpos, div_le_iff₀ hpos, Finset.mul_sum, Finset.mul_sum]
  exact ⟨Finset.sum_le_sum fun i hir => (hcell i hir).1, Finset.sum_le_sum fun i hir => (hcell i hir).2⟩

/-- C74. The weights at a point do not sum to zero if it is a vertex of a cell with a
positive volume. -/
theorem C74_weight {D : Type} (m : Mesh K D) (vols : List K) (hv : volumes m = .ok vols) (p i : ℕ) (c : List ℕ)
    (hc : (vertexLists m)[i]? = some c) (hp : p ∈ c) (hpos : 0 < vols.getD i 0) :
    ∑ i ∈ Finset.range (vertexLists m).length, weightAt (vertexLists m) vols p i ≠ 0 := by
  apply ne_of_gt
  have hw : ∀ i, 0 ≤ weightAt (vertexLists m) vols p i := fun i =>
    mul_nonneg (Nat.cast_nonneg _) (volumes_nonneg hv i)
  refine Finset.sum_pos' (fun i _ => hw i) ⟨i, Finset.mem_range.2 (List.getElem?_eq_some_iff.1 hc).1, ?_⟩
  unfold weightAt
  rw [List.getD_eq_getElem?_getD, hc]
  refine mul_pos ?_ hpos
  simpa [List.count_pos_iff] using hp

/-- C74. A value interpolated to a cell is between the smallest and the largest value at
its vertices. -/
theorem C74_cells_between (vs : List K) (cell : List ℕ) (x a b : K) (hc : cell ≠ [])
    (hab : ∀ p ∈ cell, a ≤ vs.getD p 0 ∧ vs.getD p 0 ≤ b) (h : VertexMean vs cell x) : a ≤ x ∧ x ≤ b := by
  have hl : (0 : K) < cell.length := by
    exact_mod_cast List.length_pos_iff.2 hc
  unfold VertexMean at h
  rw [h, le_div_iff₀ hl, div_le_iff₀ hl]
  clear h hl hc
  induction cell with
  | nil => simp
  | cons p cell ih =>
    obtain ⟨h1, h2⟩ := ih fun q hq => hab q (by simp [hq])
    obtain ⟨h3, h4⟩ := hab p (by simp)
    rw [List.map_cons, List.sum_cons, List.length_cons]
    push_cast
    constructor <;> nlinarith

/-- C74. What depends linearly on the place at the points has the right value at the centre of
every cell. -/
theorem C74_linear (pts ps : List (P3 K)) (cell : List ℕ) (a b c d x : K) (hc : cell ≠ [])
    (hp : rowsAt pts cell = .ok ps)
    (h : VertexMean (pts.map fun q => a * q.x + b * q.y + c * q.z + d) cell x) :
    x = a * (mean ps).x + b * (mean ps).y + c * (mean ps).z + d := by
  have hl : (cell.length : K) ≠ 0 := by
    exact_mod_cast (List.length_pos_iff.2 hc).ne'
  have hf := mapM_eq_ok hp
  have hlen := hf.length_eq
  have hsum : (cell.map fun p => (pts.map fun q => a * q.x + b * q.y + c * q.z + d).getD p 0).sum =
      a * (ps.map (·.x)).sum + b * (ps.map (·.y)).sum + c * (ps.map (·.z)).sum + d * (cell.length : K) := by
    clear h hp hc hl hlen
    induction hf with
    | nil => simp
    | @cons i q cell ps h1 _ ih =>
      have : pts[i]? = some q := by
        cases hq : pts[i]? with
        | none => rw [hq] at h1; exact absurd h1 (by simp)
        | some r => rw [hq] at h1; injection h1 with h1; rw [h1]
      simp only [List.map_cons, List.sum_cons, List.length_cons]
      rw [ih, List.getD_eq_getElem?_getD, List.getElem?_map, this]
      simp only [Option.map_some, Option.getD_some]
      push_cast
      ring
  unfold VertexMean at h
  rw [h, hsum]
  unfold mean
  simp only
  rw [← hlen]
  field_simp

/-- C74. An array with the same value everywhere keeps it from cells to points and back. -/
theorem C74_constant (m : Mesh K (Row K)) (vols : List K) (hv : volumes m = .ok vols)
    (hi : ∀ c ∈ vertexLists m, c ≠ [] ∧ ∀ p ∈ c, p < m.points.length)
    (h0 : ∀ p < m.points.length,
      ∑ i ∈ Finset.range (vertexLists m).length, weightAt (vertexLists m) vols p i ≠ 0)
    (k : Str) (a : K) (hd : m.cellData = [(k, List.replicate (vertexLists m).length (.num a))])
    (hp : m.pointData = []) :
    ∃ r, cellToPoint m = .ok { m with pointData := [(k, List.replicate m.points.length (.num a))], cellData := [] } ∧
      pointToCell { m with pointData := [(k, List.replicate m.points.length (.num a))], cellData := [] } = .ok r ∧
      r = m := by
  have hone : (List.replicate (vertexLists m).length (.num a) : List (Row K)) =
      (List.replicate (vertexLists m).length a).map Row.num := by rw [List.map_replicate]
  have hone' : (List.replicate m.points.length (.num a) : List (Row K)) =
      (List.replicate m.points.length a).map Row.num := by rw [List.map_replicate]
  refine ⟨m, ?_, ?_, rfl⟩
  · unfold cellToPoint
    rw [hv, ok_bind]
    change (pointCells m.points.length (vertexLists m) vols >>= _) = _
    rw [pointCells_ok (volumes_parts hv).1 (fun c hc => (hi c hc).2), ok_bind, hd]
    unfold interpolateData
    rw [List.mapM_cons]
    simp only
    rw [hone, one_to_points (by simp) h0, hp]
    have : ((List.range m.points.length).map fun p : ℕ => Row.num
        ((∑ i ∈ Finset.range (vertexLists m).length, weightAt (vertexLists m) vols p i *
          (List.replicate (vertexLists m).length a).getD i 0) /
          ∑ i ∈ Finset.range (vertexLists m).length, weightAt (vertexLists m) vols p i)) =
        List.replicate m.points.length (Row.num a) := by
      rw [List.eq_replicate_iff]
      refine ⟨by simp, fun r hr => ?_⟩
      obtain ⟨p, hpm, rfl⟩ := List.mem_map.1 hr
      rw [List.mem_range] at hpm
      have hb := C74_points_between m vols (List.replicate (vertexLists m).length a) hv p _ a a (h0 p hpm)
        (fun i c hc _ => by
          have := (List.getElem?_eq_some_iff.1 hc).1
          simp [List.getElem?_replicate, this]) rfl
      rw [le_antisymm hb.2 hb.1]
    rw [this]
    rfl
  · unfold pointToCell
    change (interpolateData [(k, List.replicate m.points.length (.num a))] (vertexLists m) [] >>= _) = _
    unfold interpolateData
    rw [List.mapM_cons]
    have : interpolateOne (List.replicate m.points.length (.num a)) (vertexLists m) [] =
        .ok (List.replicate (vertexLists m).length (Row.num a)) := by
      unfold interpolateOne
      rw [if_pos rfl, hone', show List.replicate (vertexLists m).length (Row.num a) =
        (vertexLists m).map fun _ => Row.num a by simp]
      apply mapM_ok
      intro c hc
      rw [rowsAt_num (fun p hp => by rw [List.length_replicate]; exact (hi c hc).2 p hp), ok_bind]
      unfold npMean
      rw [entries_num, List.length_map]
      have hb := C74_cells_between (List.replicate m.points.length a) c
        ((c.map fun i => (List.replicate m.points.length a).getD i 0).sum / (c.length : K)) a a (hi c hc).1
        (fun p hp => by simp [List.getElem?_replicate, (hi c hc).2 p hp]) rfl
      rw [le_antisymm hb.2 hb.1]
    simp only
    rw [this]
    have hm : m = { m with cellData := [(k, List.replicate (vertexLists m).length (.num a))], pointData := [] } := by
      rw [← hd, ← hp]
    conv_rhs => rw [hm]
    rfl

end Ordered

/-- C74. A point of no cell, or of cells without volume, makes the interpolation to the
points fail. -/
theorem C74_lone_point (m : Mesh K (Row K)) (vols : List K) (hv : volumes m = .ok vols)
    (hi : ∀ c ∈ vertexLists m, ∀ p ∈ c, p < m.points.length) (hd : ScalarData (vertexLists m).length m.cellData)
    (hne : m.cellData ≠ []) (p : ℕ) (hp : p < m.points.length)
    (h0 : ∑ i ∈ Finset.range (vertexLists m).length, weightAt (vertexLists m) vols p i = 0) :
    cellToPoint m = .error .zeroDivisionError := by
  obtain ⟨hn, hs⟩ := hd
  have key : ∀ e ∈ m.cellData, interpolateOne e.2
      (((List.range m.points.length).map fun p : ℕ => (around (vertexLists m).zipIdx p,
        (around (vertexLists m).zipIdx p).map fun i => vols.getD i 0)).map (·.1))
      (((List.range m.points.length).map fun p : ℕ => (around (vertexLists m).zipIdx p,
        (around (vertexLists m).zipIdx p).map fun i => vols.getD i 0)).map (·.2)) =
      .error .zeroDivisionError := by
    intro e he
    obtain ⟨vs, hvs⟩ := scalar_rows (hs e he).2
    have hl : vs.length = (vertexLists m).length := by rw [← (hs e he).1, hvs, List.length_map]
    unfold interpolateOne
    rw [if_neg (by simp; intro h; rw [h] at hp; simp at hp), List.zip_map', List.mapM_map, List.mapM_map]
    have hlone : ∀ q, ∑ i ∈ Finset.range (vertexLists m).length, weightAt (vertexLists m) vols q i = 0 →
        npAverage false ((around (vertexLists m).zipIdx q).map fun i => Row.num (vs.getD i 0))
        ((around (vertexLists m).zipIdx q).map fun i => vols.getD i 0) = .error .zeroDivisionError := by
      intro q hq
      unfold npAverage
      rw [if_neg (by simp), if_pos (by rw [sum_weights]; exact hq)]
    apply mapM_error_of_mem
    · intro q _
      simp only [Function.comp_apply]
      rw [hvs, rowsAt_num (fun i hi => by rw [hl]; exact mem_around hi), ok_bind, any_isVec]
      by_cases hq : ∑ i ∈ Finset.range (vertexLists m).length, weightAt (vertexLists m) vols q i = 0
      · right
        rw [hlone q hq]
        rfl
      · left
        rw [average_ok hq]
        exact ⟨_, rfl⟩
    · refine ⟨p, List.mem_range.2 hp, ?_⟩
      simp only [Function.comp_apply]
      rw [hvs, rowsAt_num (fun i hi => by rw [hl]; exact mem_around hi), ok_bind, any_isVec, hlone p h0]
      rfl
  unfold cellToPoint
  rw [hv, ok_bind]
  change (pointCells m.points.length (vertexLists m) vols >>= _) = _
  rw [pointCells_ok (volumes_parts hv).1 hi, ok_bind]
  unfold interpolateData
  cases hc : m.cellData with
  | nil => exact absurd hc hne
  | cons e d =>
    rw [List.mapM_cons, key e (by rw [hc]; simp)]
    rfl

/-- Two tetrahedra with a common face; the first has twice the volume of the second. -/
def twoTetras (cd pd : List (Str × List (Row ℚ))) : Mesh ℚ (Row ℚ) where
  points := [⟨0, 0, 0⟩, ⟨1, 0, 0⟩, ⟨0, 1, 0⟩, ⟨0, 0, 2⟩, ⟨0, 0, -1⟩]
  cells := [⟨.tetra, [[0, 1, 2, 3], [0, 1, 2, 4]]⟩]
  pointData := pd
  cellData := cd
  fieldData := [("sand".toList, 1, 3), ("clay".toList, 4, 3)]

example : volumes (twoTetras [("P".toList, [.num 3, .num 9])] []) = .ok [1/3, 1/6] ∧
    (∀ p < 5, ∑ i ∈ Finset.range 2, weightAt [[0, 1, 2, 3], [0, 1, 2, 4]] [(1/3 : ℚ), 1/6] p i ≠ 0) ∧
    cellToPoint (twoTetras [("P".toList, [.num 3, .num 9])] []) =
      .ok (twoTetras [] [("P".toList, [.num 5, .num 5, .num 5, .num 3, .num 9])]) := by
  decide +kernel

example : ScalarData 2 [("P".toList, [.num (3 : ℚ), .num 9])] :=
  ⟨by decide, by simp⟩

/-- The pressure at point 3 is that of the first cell, at point 0 it is 5. -/
example : VolumeMean [[0, 1, 2, 3], [0, 1, 2, 4]] [(1/3 : ℚ), 1/6] [3, 9] 0 5 ∧
    VolumeMean [[0, 1, 2, 3], [0, 1, 2, 4]] [(1/3 : ℚ), 1/6] [3, 9] 3 3 := by
  unfold VolumeMean
  decide +kernel

/-- `z` is -1/4 in the middle of the second cell. -/
example : VertexMean ((twoTetras [] []).points.map fun q => 0 * q.x + 0 * q.y + 1 * q.z + 0) [0, 1, 2, 4] (-1/4) := by
  unfold VertexMean
  decide +kernel

/-- A point that belongs to no cell. -/
example : cellToPoint { twoTetras [("P".toList, [.num 3, .num 9])] [] with
    points := (twoTetras [] []).points ++ [⟨7, 7, 7⟩] } = .error .zeroDivisionError := by
  decide +kernel

example : pointToCell (twoTetras [] [("P".toList, [.num 5, .num 5, .num 5, .num 3, .num 9])]) =
    .ok (twoTetras [("P".toList, [.num (9/2), .num 6])] []) := by
  decide +kernel

/-- C74. The interpolation to points refuses vectors, like those that `read_output` stores for
connections. -/
theorem C74_vector_points_violated : cellToPoint (twoTetras [("V".toList, [.vec [1, 2, 3], .vec [1, 2, 3]])] []) =
    .error .typeError := by
  decide +kernel

/-- C74. The interpolation to cells takes the mean of all components of vectors: out of
vectors `(1, 2, 6)` at all points it makes the number 3 in every cell. -/
theorem C74_vector_cells_violated :
    pointToCell (twoTetras [] [("V".toList, List.replicate 5 (.vec [1, 2, 6]))]) =
      .ok (twoTetras [("V".toList, [.num 3, .num 3])] []) := by
  decide +kernel

/-- C74. The numbers of the materials are interpolated like all other data: no cell has a
material after the interpolation to points, and back in the cells they are numbers of no
material. -/
theorem C74_material_violated :
    ∃ r s, cellToPoint (twoTetras [("material".toList, [.num 1, .num 4])] []) = .ok r ∧ r.cellData = [] ∧
      pointToCell r = .ok s ∧ s.cellData = [("material".toList, [.num (7/4), .num (5/2)])] :=
  ⟨twoTetras [] [("material".toList, [.num 2, .num 2, .num 2, .num 1, .num 4])],
    twoTetras [("material".toList, [.num (7/4), .num (5/2)])] [], by decide +kernel⟩

end Verif.Props
