import Verif.Lemmas.Reshape

/-!
# Pruning duplicate points and cells (C45)
-/

namespace Verif.Props
open Verif.Py Verif.Model Verif.Spec Verif.Mesh

section
variable {K : Type} [Field K] [LinearOrder K]

/-- C45. A mesh is pruned if every vertex exists, point data have one entry per point and
cell data one entry per cell. -/
theorem C45_total {D : Type} (m : Mesh K D) (h1 : ∀ c ∈ allCells m.cells, ∀ i ∈ c, i < m.points.length)
    (h2 : ∀ kv ∈ m.pointData, kv.2.length = m.points.length)
    (h3 : ∀ kv ∈ m.cellData, kv.2.length = (allCells m.cells).length) : ∃ m', prune m = .ok m' := by
  have hp : ∃ m1, prunePoints m = .ok m1 := by
    unfold prunePoints
    by_cases hd : (unique m.points).length < m.points.length
    · rw [if_pos hd]
      have e1 : ∃ pd, (m.pointData.mapM fun kv => do
          let v ← rowsAt kv.2 (uniqueIndex m.points)
          Except.ok (kv.1, v)) = .ok pd := by
        refine mapM_exists fun kv hkv => ?_
        have : ∀ i ∈ uniqueIndex m.points, i < kv.2.length := by
          rw [h2 kv hkv]
          exact uniqueIndex_lt _
        obtain ⟨v, hv⟩ := rowsAt_total this
        rw [hv, ok_bind]
        exact ⟨_, rfl⟩
      obtain ⟨pd, hpd⟩ := e1
      have e2 : ∃ cells, (m.cells.mapM fun b => do
          let d ← b.data.mapM (rowsAt (uniqueInverse m.points))
          Except.ok (⟨b.type, d⟩ : CellBlock)) = .ok cells := by
        refine mapM_exists fun b hb => ?_
        have : ∃ d, b.data.mapM (rowsAt (uniqueInverse m.points)) = .ok d := by
          refine mapM_exists fun c hc => rowsAt_total fun i hi => ?_
          simpa [uniqueInverse] using h1 c (List.mem_flatMap.2 ⟨b, hb, hc⟩) i hi
        obtain ⟨d, hd⟩ := this
        rw [hd, ok_bind]
        exact ⟨_, rfl⟩
      obtain ⟨cells, hcells⟩ := e2
      rw [hpd, ok_bind, hcells, ok_bind]
      exact ⟨_, rfl⟩
    · rw [if_neg hd]; exact ⟨_, rfl⟩
  obtain ⟨m1, hm1⟩ := hp
  obtain ⟨hc, hcd, -, -⟩ := prunePoints_cells hm1
  have hlen : (allCells m1.cells).length = (allCells m.cells).length := by
    unfold allCells
    clear hm1 hcd h1 h3
    generalize m1.cells = cells1 at hc
    generalize m.cells = cells at hc
    induction hc with
    | nil => rfl
    | cons hb _ ih => rw [List.flatMap_cons, List.flatMap_cons, List.length_append, List.length_append, ih, hb.2.length_eq]
  unfold prune
  rw [hm1, ok_bind]
  unfold pruneCells
  have e1 : ∃ cd, (m1.cellData.mapM fun kv => do
      let ps ← split m1.cells kv.2
      let ps ← prunePieces m1.cells ps
      Except.ok (kv.1, ps.flatten)) = .ok cd := by
    refine mapM_exists fun kv hkv => ?_
    rw [hcd] at hkv
    obtain ⟨ps, hps⟩ := split_total ((h3 kv hkv).trans hlen.symm)
    rw [hps, ok_bind]
    have : ∃ ps', prunePieces m1.cells ps = .ok ps' := by
      obtain ⟨-, -, e3, e4⟩ := split_pieces hps
      by_cases hn : m1.cells = []
      · rw [hn]; exact ⟨_, rfl⟩
      · exact prunePieces_total (e4 hn)
    obtain ⟨ps', hps'⟩ := this
    rw [hps', ok_bind]
    exact ⟨_, rfl⟩
  obtain ⟨cd, hcd⟩ := e1
  have e2 : ∃ cells, (m1.cells.mapM fun b => do
      let d ← pruneRows b.data
      Except.ok (⟨b.type, d⟩ : CellBlock)) = .ok cells := by
    refine mapM_exists fun b _ => ?_
    obtain ⟨d, hd⟩ := pruneRows_total b.data
    rw [hd, ok_bind]
    exact ⟨_, rfl⟩
  obtain ⟨cells, hcells⟩ := e2
  rw [hcd, ok_bind, hcells, ok_bind]
  exact ⟨_, rfl⟩

/-- C45. No two points are equal afterwards, and no place is lost or added. -/
theorem C45_points {D : Type} (m m' : Mesh K D) (h : prune m = .ok m') :
    m'.points.Nodup ∧ ∀ p, p ∈ m'.points ↔ p ∈ m.points := by
  obtain ⟨m1, h1, h2⟩ := prune_parts h
  obtain ⟨-, -, h3, h4⟩ := prunePoints_cells h1
  rw [(pruneCells_ok h2).1]
  exact ⟨h3, h4⟩

/-- C45. A point has the data of the first of the points that were merged into it. -/
theorem C45_point_data {D : Type} (m m' : Mesh K D) (h : prune m = .ok m') :
    List.Forall₂ (fun (kv kv' : Str × List D) => kv'.1 = kv.1 ∧
      (kv.2.length = m.points.length → kv'.2.length = m'.points.length) ∧
      ∀ (j : ℕ) p d, m'.points[j]? = some p → kv'.2[j]? = some d → ∃ i, FirstAt m.points i p ∧ kv.2[i]? = some d)
      m.pointData m'.pointData := by
  obtain ⟨m1, h1, h2⟩ := prune_parts h
  obtain ⟨e1, e2, -⟩ := pruneCells_ok h2
  rw [e1, e2]
  rcases prunePoints_ok h1 with ⟨hn, rfl⟩ | ⟨-, g1, -, -, g2, -⟩
  · rw [List.forall₂_same]
    intro kv _
    refine ⟨rfl, id, fun j p d hj hd => ⟨j, ⟨hj, fun i hi he => ?_⟩, hd⟩⟩
    obtain ⟨a1, a2⟩ := List.getElem?_eq_some_iff.1 he
    obtain ⟨b1, b2⟩ := List.getElem?_eq_some_iff.1 hj
    have := (List.Nodup.getElem_inj_iff hn).1 (a2.trans b2.symm)
    omega
  · refine g2.imp fun kv kv' hk => ⟨hk.1, ?_, ?_⟩
    · intro _
      have := (rowsAt_ok hk.2).length_eq
      rw [← this, g1]
      simp [uniqueIndex]
    · intro j p d hj hd
      rw [g1] at hj
      have hr := rowsAt_ok hk.2
      unfold uniqueIndex at hr
      rw [List.forall₂_map_left_iff, List.forall₂_iff_get] at hr
      obtain ⟨a1, a2⟩ := List.getElem?_eq_some_iff.1 hj
      obtain ⟨b1, b2⟩ := List.getElem?_eq_some_iff.1 hd
      have := hr.2 j a1 b1
      rw [List.get_eq_getElem, List.get_eq_getElem] at this
      simp only [a2, b2] at this
      exact ⟨_, firstAt_idxOf ((mem_unique _ _).1 (List.mem_of_getElem? hj)), this⟩

/-- C45, without cells of different blocks. Block by block: every remaining cell is one
of the old cells, with its vertices at the same places; every old cell has a remaining
cell with the same vertices; and no two remaining cells have the same vertices. -/
theorem C45_cells_partial {D : Type} (m m' : Mesh K D) (h : prune m = .ok m') :
    List.Forall₂ (fun b b' => b'.type = b.type ∧
      (∀ c' ∈ b'.data, ∃ c ∈ b.data, SamePlace m.points m'.points c c') ∧
      (∀ c ∈ b.data, ∃ c' ∈ b'.data, SameVertices m.points m'.points c c') ∧
      b'.data.Pairwise fun c d => ¬ c.Perm d) m.cells m'.cells := by
  obtain ⟨m1, h1, h2⟩ := prune_parts h
  obtain ⟨g1, -, -, -⟩ := prunePoints_cells h1
  obtain ⟨e1, -, -, e2, -⟩ := pruneCells_ok h2
  rw [e1]
  generalize m'.cells = cells' at e2
  generalize m1.cells = cells1 at e2 g1
  generalize m.cells = cells at g1
  clear h h1 h2 e1
  induction g1 generalizing cells' with
  | nil => cases e2; exact .nil
  | @cons b b1 _ _ hb _ ih =>
    cases e2 with
    | @cons _ b' _ _ hb' e2 =>
      refine .cons ⟨hb'.1.trans hb.1, ?_, ?_, ?_⟩ (ih _ e2)
      · intro c' hc'
        obtain ⟨i, -, hi⟩ := forall₂_mem_right (pruneRows_ok hb'.2).2 hc'
        obtain ⟨c, hc, hs⟩ := forall₂_mem_right hb.2 (List.mem_of_getElem? hi)
        exact ⟨c, hc, hs⟩
      · intro c hc
        obtain ⟨c1, hc1, hs⟩ := forall₂_mem_left hb.2 hc
        have : sortRow c1 ∈ b'.data.map sortRow := by
          rw [(pruneRows_ok hb'.2).1, mem_unique]
          exact List.mem_map_of_mem hc1
        obtain ⟨c', hc', he⟩ := List.mem_map.1 this
        refine ⟨c', hc', fun ps hv => ?_⟩
        exact vertices_perm ((sortRow_eq_iff c1 c').1 he.symm) (hs ps hv)
      · have hn : (b'.data.map sortRow).Nodup := by
          rw [(pruneRows_ok hb'.2).1]; exact unique_nodup _
        refine (List.pairwise_map.1 hn).imp fun hne hp => hne ((sortRow_eq_iff _ _).2 hp)

/-- C45. Cell data have one entry per remaining cell, and every remaining cell has the
data of an old cell with its vertices at the same places. -/
theorem C45_cell_data {D : Type} (m m' : Mesh K D) (h : prune m = .ok m') :
    List.Forall₂ (fun (kv kv' : Str × List D) => kv'.1 = kv.1 ∧
      kv'.2.length = (allCells m'.cells).length ∧
      ∀ c' d, (c', d) ∈ (allCells m'.cells).zip kv'.2 →
        ∃ c, (c, d) ∈ (allCells m.cells).zip kv.2 ∧ SamePlace m.points m'.points c c')
      m.cellData m'.cellData := by
  obtain ⟨m1, h1, h2⟩ := prune_parts h
  obtain ⟨g1, g2, -, -⟩ := prunePoints_cells h1
  obtain ⟨e1, -, -, e2, e3⟩ := pruneCells_ok h2
  rw [e1, ← g2]
  refine e3.imp ?_
  rintro kv kv' ⟨ps, ps', s1, s2, rfl⟩
  obtain ⟨p1, p2, p3, p4⟩ := split_pieces s1
  have hall : List.Forall₂ (fun c c' => SamePlace m.points m1.points c c') (allCells m.cells) (allCells m1.cells) := by
    unfold allCells
    have : m1.cells.flatMap (·.data) = (m1.cells.map (·.data)).flatten := List.flatMap_def ..
    rw [this]
    refine forall₂_flatMap ?_
    rw [List.forall₂_map_right_iff]
    exact g1.imp fun b b' hb => hb.2
  refine ⟨rfl, ?_⟩
  by_cases hc : m1.cells = []
  · have hc' : m'.cells = [] := forall₂_nil e2 hc
    have hps := p3 hc
    subst hps
    rw [hc] at s2
    cases s2
    simp [hc', allCells]
  · obtain ⟨z1, z2⟩ := prune_zip (p4 hc) e2 s2
    constructor
    · simp only
      rw [List.length_flatten, lengths_of z1]
      simp [allCells, List.length_flatMap]
    · intro c' d hcd
      have hm := z2 _ hcd
      rw [p1] at hm
      obtain ⟨n, hn⟩ := List.mem_iff_getElem?.1 hm
      obtain ⟨n1, n2⟩ := List.getElem?_zip_eq_some.1 hn
      rw [List.forall₂_iff_get] at hall
      obtain ⟨l1, l2⟩ := List.getElem?_eq_some_iff.1 n1
      have := hall.2 n (by rw [hall.1]; exact l1) l1
      rw [List.get_eq_getElem, List.get_eq_getElem] at this
      simp only [l2] at this
      exact ⟨_, List.mem_of_getElem? (List.getElem?_zip_eq_some.2 ⟨List.getElem?_eq_getElem _, n2⟩), this⟩

/-- C45. Pruning twice is the same as pruning once. -/
theorem C45_idempotent {D : Type} (m m' : Mesh K D) (h : prune m = .ok m') : prune m' = .ok m' := by
  obtain ⟨hn, -⟩ := C45_points m m' h
  obtain ⟨m1, h1, h2⟩ := prune_parts h
  obtain ⟨e1, -, -, e2, e3⟩ := pruneCells_ok h2
  unfold prune
  have hp : prunePoints m' = .ok m' := by
    unfold prunePoints
    rw [if_neg fun hlt => (unique_length_lt _).1 hlt hn]
  rw [hp, ok_bind]
  have hrows : ∀ b' ∈ m'.cells, cellOrder b'.data = List.range b'.data.length := by
    intro b' hb'
    obtain ⟨b, -, hb⟩ := forall₂_mem_right e2 hb'
    exact cellOrder_pruned hb.2
  refine pruneCells_of rfl rfl rfl ?_ ?_
  · rw [List.forall₂_same]
    intro b' hb'
    refine ⟨rfl, ?_⟩
    unfold pruneRows
    rw [hrows b' hb']
    exact rowsAt_range _
  · rw [List.forall₂_same]
    intro kv' hkv'
    obtain ⟨kv, -, ps, ps', s1, s2, rfl⟩ := forall₂_mem_right e3 hkv'
    obtain ⟨p1, p2, p3, p4⟩ := split_pieces s1
    by_cases hc : m1.cells = []
    · have hc' : m'.cells = [] := forall₂_nil e2 hc
      have hps := p3 hc
      subst hps
      rw [hc] at s2
      cases s2
      rw [hc']
      exact ⟨[[]], [[]], rfl, rfl, rfl⟩
    · obtain ⟨z1, -⟩ := prune_zip (p4 hc) e2 s2
      have hc' : m'.cells ≠ [] := by
        intro hx
        rw [hx] at e2
        cases hm : m1.cells with
        | nil => exact hc hm
        | cons a l => rw [hm] at e2; cases e2
      refine ⟨ps', ps', split_flatten hc' z1, ?_, rfl⟩
      clear s2 hkv' e2 e3 hc' hn h h2 hp
      generalize m'.cells = cells' at z1 hrows
      induction z1 with
      | nil => rfl
      | @cons b' p' cs qs hl _ ih =>
        have hr : rowsAt p' (cellOrder b'.data) = .ok p' := by
          rw [hrows b' List.mem_cons_self, ← hl]
          exact rowsAt_range _
        rw [prunePieces, hr, ok_bind, ih fun b hb => hrows b (List.mem_cons_of_mem _ hb), ok_bind]

end

/-- Two squares next to each other, made of separate points, the second one twice. -/
def doubled : Mesh ℚ ℤ :=
  { points := [⟨0, 0, 0⟩, ⟨1, 0, 0⟩, ⟨1, 1, 0⟩, ⟨0, 1, 0⟩, ⟨1, 0, 0⟩, ⟨2, 0, 0⟩, ⟨2, 1, 0⟩, ⟨1, 1, 0⟩]
    cells := [⟨.quad, [[0, 1, 2, 3], [4, 5, 6, 7], [5, 6, 2, 1]]⟩]
    pointData := [("p".toList, [0, 1, 2, 3, 4, 5, 6, 7])]
    cellData := [("material".toList, [8, 9, 10])]
    fieldData := [] }

example : prune doubled = .ok
    { points := [⟨0, 0, 0⟩, ⟨0, 1, 0⟩, ⟨1, 0, 0⟩, ⟨1, 1, 0⟩, ⟨2, 0, 0⟩, ⟨2, 1, 0⟩]
      cells := [⟨.quad, [[0, 2, 3, 1], [2, 4, 5, 3]]⟩]
      pointData := [("p".toList, [0, 3, 1, 2, 5, 6])]
      cellData := [("material".toList, [8, 9])]
      fieldData := [] } := by decide +kernel

example : (∀ c ∈ allCells doubled.cells, ∀ i ∈ c, i < doubled.points.length) ∧
    (∀ kv ∈ doubled.pointData, kv.2.length = doubled.points.length) ∧
    (∀ kv ∈ doubled.cellData, kv.2.length = (allCells doubled.cells).length) := by decide

/-- C45 fails for cells in different blocks: the same triangle in two blocks stays
twice. -/
theorem C45_cells_violated : ∃ (m m' : Mesh ℚ ℤ), prune m = .ok m' ∧
    (∀ c ∈ allCells m.cells, ∀ i ∈ c, i < m.points.length) ∧
    ¬ (allCells m'.cells).Pairwise fun c d => ¬ c.Perm d :=
  ⟨{ points := [⟨0, 0, 0⟩, ⟨0, 1, 0⟩, ⟨1, 0, 0⟩], cells := [⟨.triangle, [[0, 1, 2]]⟩, ⟨.triangle, [[1, 0, 2]]⟩],
      pointData := [], cellData := [], fieldData := [] }, _, by rfl, by decide, by decide⟩

end Verif.Props
