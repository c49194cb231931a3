import Verif.Lemmas.Connections

/-!
# Connections (C42)
-/

namespace Verif.Props
open Verif.Py Verif.Model Verif.Spec Verif.Mesh

/-- Two hexahedra and a wedge on top of the second. -/
def sampleCells : List CellBlock :=
  [⟨.hexahedron, [[0, 1, 2, 3, 4, 5, 6, 7], [1, 8, 9, 2, 5, 10, 11, 6]]⟩,
    ⟨.wedge, [[5, 10, 12, 6, 11, 13]]⟩]

/-- C42. The faces of a cell are those of the reference cell: the convex hull has
exactly these faces, listed counterclockwise seen from outside, and they close up. -/
theorem C42_face_table (t : CellType) (ps : List (ℤ × ℤ × ℤ)) (h : reference t = some ps) :
    ∃ l, faceTable t = .ok l ∧ (∀ f ∈ l, OuterFace ps f) ∧ ClosedSurface l := by
  cases t <;> simp only [reference, reduceCtorEq, Option.some.injEq] at h <;> subst h <;>
    exact ⟨_, rfl, by decide, by decide⟩

example : ∃ ps, reference .wedge = some ps := ⟨_, rfl⟩

/-- C42. The faces used are those of the cells, in the order of the cells. -/
theorem C42_faces (cells : List CellBlock) (fs : List (List (List ℕ))) (h : faces cells = .ok fs) :
    List.Forall₂ (fun (tc : CellType × List ℕ) row => ∃ t, faceTable tc.1 = .ok t ∧
      List.Forall₂ (fun idx f => List.Forall₂ (fun i v => tc.2[i]? = some v) idx f) t row)
      (typedCells cells) fs := by
  refine (faces_rows h).imp ?_
  rintro tc row ⟨t, h1, h2⟩
  exact ⟨t, h1, h2.imp fun _ _ hf => rowsAt_ok hf⟩

/-- C42. Connections exist for every mesh of solid cells with the right number of
vertices. -/
theorem C42_total (cells : List CellBlock)
    (h : ∀ tc ∈ typedCells cells, ∃ ps, reference tc.1 = some ps ∧ ps.length = tc.2.length) :
    ∃ fs, faces cells = .ok fs ∧ connections cells = .ok (connectionsOf fs) := by
  have : ∃ fs, faces cells = .ok fs := by
    unfold faces
    have : ∃ r, (cells.mapM fun b => b.data.mapM fun c => do
        let t ← faceTable b.type
        t.mapM (rowsAt c)) = .ok r := by
      refine mapM_exists fun b hb => mapM_exists fun c hc => ?_
      obtain ⟨ps, h1, h2⟩ := h (b.type, c) (List.mem_flatMap.2 ⟨b, hb, List.mem_map.2 ⟨c, hc, rfl⟩⟩)
      simp only at h1 h2
      have key : ∃ t, faceTable b.type = .ok t ∧ ∀ f ∈ t, ∀ i ∈ f, i < ps.length := by
        generalize b.type = ty at h1
        cases ty <;> simp only [reference, reduceCtorEq, Option.some.injEq] at h1 <;> subst h1 <;>
          exact ⟨_, rfl, by decide⟩
      obtain ⟨t, t1, t2⟩ := key
      rw [t1, ok_bind]
      exact mapM_exists fun f hf => rowsAt_total (by rw [← h2]; exact t2 f hf)
    obtain ⟨r, hr⟩ := this
    rw [hr, ok_bind]
    exact ⟨_, rfl⟩
  obtain ⟨fs, hfs⟩ := this
  refine ⟨fs, hfs, ?_⟩
  unfold connections
  rw [hfs, ok_bind]

example : ∀ tc ∈ typedCells sampleCells, ∃ ps, reference tc.1 = some ps ∧ ps.length = tc.2.length := by
  intro tc htc
  simp only [typedCells, sampleCells, List.flatMap_cons, List.flatMap_nil, List.map_cons, List.map_nil,
    List.cons_append, List.nil_append, List.mem_cons, List.not_mem_nil, or_false] at htc
  rcases htc with rfl | rfl | rfl <;> exact ⟨_, rfl, rfl⟩

/-- C42. The entry of the table for a face is the number of the cell on the other side
if the face belongs to exactly one other cell face, and −1 otherwise; so are the
entries beyond the faces of a cell. -/
theorem C42_entry (cells : List CellBlock) (fs : List (List (List ℕ))) (h : faces cells = .ok fs)
    (i a : ℕ) (hi : i < fs.length) (ha : a < 6) :
    (∀ j : ℕ, tableAt (connectionsOf fs) i a = some (j : ℤ) ↔
      ∃ b, Shared fs i a j b ∧ ∀ k c, Shared fs i a k c → (k, c) = (j, b)) ∧
    (tableAt (connectionsOf fs) i a = some (-1) ∨ ∃ j : ℕ, tableAt (connectionsOf fs) i a = some (j : ℤ)) := by
  obtain ⟨h1, h2⟩ := entry_connectionsOf (fun i a f hf => (faces_bounds h i a f hf).2) i a hi ha
  by_cases hm : ∃ q, Mates fs (i, a) q
  · obtain ⟨q, hq⟩ := hm
    refine ⟨fun j => ?_, .inr ⟨_, h1 q hq⟩⟩
    constructor
    · intro hj
      have := h1 q hq
      rw [hj] at this
      have hjq : j = q.1 := by simpa using this
      subst hjq
      exact ⟨q.2, hq⟩
    · rintro ⟨b, hb⟩
      exact h1 (j, b) hb
  · refine ⟨fun j => ?_, .inl (h2 hm)⟩
    rw [h2 hm]
    constructor
    · intro hj
      simp only [Option.some.injEq] at hj
      omega
    · rintro ⟨b, hb⟩
      exact absurd ⟨(j, b), hb⟩ hm

example : ∃ fs, faces sampleCells = .ok fs ∧ fs.length = 3 ∧
    connectionsOf fs = [[-1, -1, -1, 1, -1, -1], [-1, 2, -1, -1, -1, 0], [-1, -1, 1, -1, -1, -1]] :=
  ⟨_, rfl, rfl, by decide +kernel⟩

/-- C42. In a mesh in which no face belongs to three cells, two cells are neighbours in
the table exactly if they share a face. -/
theorem C42_neighbours (cells : List CellBlock) (fs : List (List (List ℕ))) (h : faces cells = .ok fs)
    (h2 : AtMostTwo fs) (i j : ℕ) :
    (∃ a, tableAt (connectionsOf fs) i a = some (j : ℤ)) ↔ ∃ a b, Shared fs i a j b := by
  constructor
  · rintro ⟨a, ha⟩
    by_cases hb : i < fs.length ∧ a < 6
    · obtain ⟨b, hs, -⟩ := ((C42_entry cells fs h i a hb.1 hb.2).1 j).1 ha
      exact ⟨a, b, hs⟩
    · rw [entry_connectionsOf_none i a hb] at ha
      cases ha
  · rintro ⟨a, b, hs⟩
    have hs' := hs
    obtain ⟨_, f, g, hf, _, _⟩ := hs'
    have hi : i < fs.length := by
      obtain ⟨row, e, _⟩ := hf
      exact (List.getElem?_eq_some_iff.1 e).1
    exact ⟨a, ((C42_entry cells fs h i a hi (faces_bounds h i a f hf).1).1 j).2
      ⟨b, hs, fun k c hk => h2 i a k c j b hk hs⟩⟩

/-- C42. The table is symmetric. -/
theorem C42_symmetric (cells : List CellBlock) (fs : List (List (List ℕ))) (h : faces cells = .ok fs)
    (i j : ℕ) (hij : ∃ a, tableAt (connectionsOf fs) i a = some (j : ℤ)) :
    ∃ b, tableAt (connectionsOf fs) j b = some (i : ℤ) := by
  obtain ⟨a, ha⟩ := hij
  by_cases hb : i < fs.length ∧ a < 6
  · obtain ⟨b, hs⟩ := ((C42_entry cells fs h i a hb.1 hb.2).1 j).1 ha
    have hm : Mates fs (j, b) (i, a) := mates_symm (p := (i, a)) (q := (j, b)) hs
    have hs' := hm.1
    obtain ⟨_, f, g, hf, _, _⟩ := hs'
    have hj : j < fs.length := by
      obtain ⟨row, e, _⟩ := hf
      exact (List.getElem?_eq_some_iff.1 e).1
    exact ⟨b, ((C42_entry cells fs h j b hj (faces_bounds h j b f hf).1).1 i).2 ⟨a, hm⟩⟩
  · rw [entry_connectionsOf_none i a hb] at ha
    cases ha

/-- C42. A cell whose vertices are different is not connected to itself. -/
theorem C42_no_self (cells : List CellBlock) (fs : List (List (List ℕ))) (h : faces cells = .ok fs)
    (hd : ∀ c ∈ allCells cells, c.Nodup) (i a : ℕ) : tableAt (connectionsOf fs) i a ≠ some (i : ℤ) := by
  intro ha
  by_cases hb : i < fs.length ∧ a < 6
  · obtain ⟨b, hs, -⟩ := ((C42_entry cells fs h i a hb.1 hb.2).1 i).1 ha
    exact no_self h hd i a b hs
  · rw [entry_connectionsOf_none i a hb] at ha
    cases ha

example : (∀ c ∈ allCells sampleCells, c.Nodup) ∧
    (∃ a, tableAt [[-1, -1, -1, 1, -1, -1], [-1, 2, -1, -1, -1, 0], [-1, -1, 1, -1, -1, -1]] 0 a = some ((1 : ℕ) : ℤ)) :=
  ⟨by decide, 3, rfl⟩

/-- C42. The connections written are the entries of the table that lead to a cell with a
higher number, each of them once. -/
theorem C42_written (cells : List CellBlock) (fs : List (List (List ℕ))) (h : faces cells = .ok fs)
    (hd : ∀ c ∈ allCells cells, c.Nodup) :
    (writtenConnections (connectionsOf fs)).Nodup ∧
    ∀ i j a, (i, j, a) ∈ writtenConnections (connectionsOf fs) ↔
      tableAt (connectionsOf fs) i a = some (j : ℤ) ∧ i < j := by
  refine ⟨connRows_nodup _ 0 [] (by simp), fun i j a => ?_⟩
  unfold writtenConnections
  rw [mem_connRows _ 0 [] (by simp)]
  constructor
  · rintro ⟨d, rfl, h2, h3⟩
    rw [Nat.zero_add] at *
    refine ⟨h2, lt_of_le_of_ne h3 ?_⟩
    rintro rfl
    exact C42_no_self cells fs h hd _ a h2
  · rintro ⟨h1, h2⟩
    exact ⟨i, (Nat.zero_add _).symm, h1, h2.le⟩

/-- C42. In a mesh in which no face belongs to three cells and whose cells have
different vertices, every common face of two cells is written exactly once: under the
first of the two cells, with the number of the face in that cell. -/
theorem C42_faces_once (cells : List CellBlock) (fs : List (List (List ℕ))) (h : faces cells = .ok fs)
    (hd : ∀ c ∈ allCells cells, c.Nodup) (h2 : AtMostTwo fs) (i j a : ℕ) :
    (writtenConnections (connectionsOf fs)).count (i, j, a) = 1 ↔ i < j ∧ ∃ b, Shared fs i a j b := by
  obtain ⟨hn, hm⟩ := C42_written cells fs h hd
  have hc : (writtenConnections (connectionsOf fs)).count (i, j, a) = 1 ↔
      (i, j, a) ∈ writtenConnections (connectionsOf fs) := by
    refine ⟨fun e => ?_, List.count_eq_one_of_mem hn⟩
    by_contra hc
    rw [List.count_eq_zero_of_not_mem hc] at e
    cases e
  rw [hc, hm]
  constructor
  · rintro ⟨h1, hlt⟩
    by_cases hb : i < fs.length ∧ a < 6
    · obtain ⟨b, hs, -⟩ := ((C42_entry cells fs h i a hb.1 hb.2).1 j).1 h1
      exact ⟨hlt, b, hs⟩
    · rw [entry_connectionsOf_none i a hb] at h1
      cases h1
  · rintro ⟨hlt, b, hs⟩
    have hs' := hs
    obtain ⟨_, f, g, hf, _, _⟩ := hs'
    have hi : i < fs.length := by
      obtain ⟨row, e, _⟩ := hf
      exact (List.getElem?_eq_some_iff.1 e).1
    exact ⟨((C42_entry cells fs h i a hi (faces_bounds h i a f hf).1).1 j).2
      ⟨b, hs, fun k c hk => h2 i a k c j b hk hs⟩, hlt⟩

/-- C42. If moreover any two cells have at most one common face, as convex cells have,
every pair of cells with a common face is written exactly once and no other pair is. -/
theorem C42_pairs_once (cells : List CellBlock) (fs : List (List (List ℕ))) (h : faces cells = .ok fs)
    (hd : ∀ c ∈ allCells cells, c.Nodup) (h2 : AtMostTwo fs)
    (h1 : ∀ i a b j c d, Shared fs i a j c → Shared fs i b j d → a = b) :
    let pairs := (writtenConnections (connectionsOf fs)).map fun w => (w.1, w.2.1)
    pairs.Nodup ∧ (∀ i j, (i, j) ∈ pairs ↔ i < j ∧ ∃ a b, Shared fs i a j b) := by
  obtain ⟨hn, hm⟩ := C42_written cells fs h hd
  have hf : ∀ i j a, (i, j, a) ∈ writtenConnections (connectionsOf fs) ↔ i < j ∧ ∃ b, Shared fs i a j b := by
    intro i j a
    rw [← C42_faces_once cells fs h hd h2]
    constructor
    · exact List.count_eq_one_of_mem hn
    · intro e
      by_contra hc
      rw [List.count_eq_zero_of_not_mem hc] at e
      cases e
  refine ⟨?_, fun i j => ?_⟩
  · refine List.Nodup.map_on ?_ hn
    rintro ⟨i, j, a⟩ hx ⟨i', j', a'⟩ hy e
    simp only [Prod.mk.injEq] at e
    obtain ⟨rfl, rfl⟩ := e
    obtain ⟨_, b, hb⟩ := (hf _ _ _).1 hx
    obtain ⟨_, b', hb'⟩ := (hf _ _ _).1 hy
    rw [h1 _ _ _ _ _ _ hb hb']
  · simp only [List.mem_map, Prod.exists, Prod.mk.injEq]
    constructor
    · rintro ⟨i', j', a, hmem, rfl, rfl⟩
      obtain ⟨hlt, b, hb⟩ := (hf _ _ _).1 hmem
      exact ⟨hlt, a, b, hb⟩
    · rintro ⟨hlt, a, b, hb⟩
      exact ⟨i, j, a, (hf _ _ _).2 ⟨hlt, b, hb⟩, rfl, rfl⟩

/-- The faces of the sample. -/
def sampleFaces : List (List (List ℕ)) :=
  [[[0, 3, 2, 1], [4, 5, 6, 7], [0, 1, 5, 4], [1, 2, 6, 5], [2, 3, 7, 6], [0, 4, 7, 3]],
    [[1, 2, 9, 8], [5, 10, 11, 6], [1, 8, 10, 5], [8, 9, 11, 10], [9, 2, 6, 11], [1, 5, 6, 2]],
    [[5, 12, 10], [6, 11, 13], [5, 10, 11, 6], [10, 12, 13, 11], [5, 6, 13, 12]]]

example : faces sampleCells = .ok sampleFaces ∧ AtMostTwo sampleFaces ∧
    (∀ i a b j c d, Shared sampleFaces i a j c → Shared sampleFaces i b j d → a = b) ∧
    writtenConnections (connectionsOf sampleFaces) = [(0, 1, 3), (1, 2, 1)] := by
  have hn : ∀ r ∈ sampleFaces, r.length ≤ 6 := by decide
  have hl : sampleFaces.length = 3 := rfl
  have d1 : ∀ i ∈ List.range 3, ∀ a ∈ List.range 6, ∀ j ∈ List.range 3, ∀ b ∈ List.range 6,
      sharedB sampleFaces i a j b = true →
      ((i, a), j, b) ∈ [((0, 3), 1, 5), ((1, 5), 0, 3), ((1, 1), 2, 2), ((2, 2), 1, 1)] := by decide +kernel
  have d2 : ∀ i a j b, Shared sampleFaces i a j b →
      ((i, a), j, b) ∈ [((0, 3), 1, 5), ((1, 5), 0, 3), ((1, 1), 2, 2), ((2, 2), 1, 1)] := by
    intro i a j b h
    obtain ⟨h1, h2, h3, h4⟩ := shared_bounds hn h
    exact d1 i (List.mem_range.2 h1) a (List.mem_range.2 h2) j (List.mem_range.2 h3) b (List.mem_range.2 h4) ((sharedB_iff _ _ _ _ _).2 h)
  refine ⟨rfl, ?_, ?_, by decide +kernel⟩
  · intro i a j b k c h1 h2
    have e1 := d2 _ _ _ _ h1
    have e2 := d2 _ _ _ _ h2
    simp only [List.mem_cons, Prod.mk.injEq, List.not_mem_nil, or_false] at e1 e2
    rw [Prod.mk.injEq]
    omega
  · intro i a b j c d h1 h2
    have e1 := d2 _ _ _ _ h1
    have e2 := d2 _ _ _ _ h2
    simp only [List.mem_cons, Prod.mk.injEq, List.not_mem_nil, or_false] at e1 e2
    omega

end Verif.Props
