import Verif.Lemmas.Export
import Verif.Props.ReadOutput

/-!
# C77: exporting results
-/

namespace Verif.Props
open Verif.Py Verif.Model Verif.Mesh Verif.Spec Verif.Lemmas

section
variable {K T : Type} [Field K] [LinearOrder K]

/-- C77. The points have the coordinates of the output on all axes on which they differ and
zero on the others; if they do not differ at all they keep the first coordinate. The axes are
those on which the points differ, the first one if there is none. -/
theorem C77_points (data : List (Str × List K)) (n : ℕ) (x y z : List K) (hn : (data.map (·.1)).Nodup)
    (h0 : ∃ kv r, data = kv :: r ∧ kv.2.length = n) (hpos : 0 < n)
    (hx : Column data n "X".toList x) (hy : Column data n "Y".toList y) (hz : Column data n "Z".toList z)
    (lx : x.length = n) (ly : y.length = n) (lz : z.length = n) (hs : ∃ k ∈ data.map (·.1), ¬ Plain k) :
    ∃ pts axis, getPoints data = .ok (pts, axis) ∧
      pts.map (·.x) = (if 0 ∈ axis then x else List.replicate n 0) ∧
      pts.map (·.y) = (if 1 ∈ axis then y else List.replicate n 0) ∧
      pts.map (·.z) = (if 2 ∈ axis then z else List.replicate n 0) ∧ axis.Pairwise (· < ·) ∧
      ∀ k, k ∈ axis ↔ (k = 0 ∧ TwoValues x) ∨ (k = 1 ∧ TwoValues y) ∨ (k = 2 ∧ TwoValues z) ∨
        (k = 0 ∧ ¬ TwoValues x ∧ ¬ TwoValues y ∧ ¬ TwoValues z) := by
  obtain ⟨⟨k0, v0⟩, r, rfl, rfl⟩ := h0
  have hcol : ∀ k c, Column ((k0, v0) :: r) v0.length k c → coordColumn ((k0, v0) :: r) v0.length k = c := by
    intro k c h
    unfold coordColumn
    rcases h with h | ⟨h, rfl⟩
    · rw [Verif.Model.dictGet_mem hn h]
    · rw [dictGet_absent]
      intro e he hk
      exact h (List.mem_map.2 ⟨e, he, hk⟩)
  have hst : ∀ a b c : List K, a.length = v0.length → b.length = v0.length → c.length = v0.length →
      ∃ p, pointStack a b c = .ok p ∧ p.map (·.x) = a ∧ p.map (·.y) = b ∧ p.map (·.z) = c := by
    intro a b c ha hb hc
    refine ⟨_, if_pos ⟨ha.trans hb.symm, hb.trans hc.symm⟩, ?_, ?_, ?_⟩
    · rw [List.map_map]
      exact List.map_fst_zip (by simp [ha, hb, hc])
    · rw [List.map_map]
      have : ((fun p : P3 K => p.y) ∘ fun v : K × K × K => (⟨v.1, v.2.1, v.2.2⟩ : P3 K)) = Prod.fst ∘ Prod.snd := rfl
      rw [this, ← List.map_map, List.map_snd_zip (by simp [ha, hb, hc]), List.map_fst_zip (by simp [hb, hc])]
    · rw [List.map_map]
      have : ((fun p : P3 K => p.z) ∘ fun v : K × K × K => (⟨v.1, v.2.1, v.2.2⟩ : P3 K)) = Prod.snd ∘ Prod.snd := rfl
      rw [this, ← List.map_map, List.map_snd_zip (by simp [ha, hb, hc]), List.map_snd_zip (by simp [hb, hc])]
  have lr : (List.replicate v0.length (0 : K)).length = v0.length := List.length_replicate
  have hne : ∀ l : List K, l.length = v0.length → l ≠ [] := by
    rintro l hl rfl
    exact absurd hpos (by rw [← hl]; simp)
  have ex := one_unique (hne x lx)
  have ey := one_unique (hne y ly)
  have ez := one_unique (hne z lz)
  unfold getPoints
  simp only
  rw [hcol _ _ hx, hcol _ _ hy, hcol _ _ hz, if_neg]
  swap
  · rintro ⟨h1, h2, h3⟩
    obtain ⟨k, hk, hp⟩ := hs
    simp only [Plain, List.mem_cons, List.not_mem_nil, or_false, not_not] at hp
    rcases hp with rfl | rfl | rfl
    · exact h1 hk
    · exact h2 hk
    · exact h3 hk
  classical
  simp only [ex, ey, ez]
  by_cases tx : TwoValues x <;> by_cases ty : TwoValues y <;> by_cases tz : TwoValues z <;>
    simp only [tx, ty, tz, not_true_eq_false, not_false_eq_true, and_self, and_false, false_and, if_true, if_false]
  · obtain ⟨p, h1, h2, h3, h4⟩ := hst x y z lx ly lz
    rw [h1]
    exact ⟨p, [0, 1, 2], rfl, h2, h3, h4, by decide, by simp⟩
  · obtain ⟨p, h1, h2, h3, h4⟩ := hst x y _ lx ly lr
    rw [h1]
    exact ⟨p, [0, 1], rfl, h2, h3, h4, by decide, by simp⟩
  · obtain ⟨p, h1, h2, h3, h4⟩ := hst x _ z lx lr lz
    rw [h1]
    exact ⟨p, [0, 2], rfl, h2, h3, h4, by decide, by simp⟩
  · obtain ⟨p, h1, h2, h3, h4⟩ := hst x _ _ lx lr lr
    rw [h1]
    exact ⟨p, [0], rfl, h2, h3, h4, by decide, by simp⟩
  · obtain ⟨p, h1, h2, h3, h4⟩ := hst _ y z lr ly lz
    rw [h1]
    exact ⟨p, [1, 2], rfl, h2, h3, h4, by decide, by simp⟩
  · obtain ⟨p, h1, h2, h3, h4⟩ := hst _ y _ lr ly lr
    rw [h1]
    exact ⟨p, [1], rfl, h2, h3, h4, by decide, by simp⟩
  · obtain ⟨p, h1, h2, h3, h4⟩ := hst _ _ z lr lr lz
    rw [h1]
    exact ⟨p, [2], rfl, h2, h3, h4, by decide, by simp⟩
  · obtain ⟨p, h1, h2, h3, h4⟩ := hst x _ _ lx lr lr
    rw [h1]
    exact ⟨p, [0], rfl, h2, h3, h4, by decide, by simp⟩

/-- Two rows of points at one height. -/
def flatOut : ExportOut ℚ ℤ where
  tecplot := false
  time := 7
  labels := .element ["A1101".toList, "A1100".toList]
  data := [("X".toList, [1, 3]), ("Z".toList, [5, 5]), ("P".toList, [10, 30])]

example : Column flatOut.data 2 "X".toList [1, 3] ∧ Column flatOut.data 2 "Y".toList [0, 0] ∧
    getPoints flatOut.data = .ok ([⟨1, 0, 0⟩, ⟨3, 0, 0⟩], [0]) :=
  ⟨.inl (by decide), .inr (by decide), by decide +kernel⟩

variable (delaunay : List (List K) → Except PyErr (List (List ℕ))) (argsort : List T → List ℕ) (ofNat : ℕ → T)
  (readOn : Mesh K (Row K) → ExportOut K T → Except PyErr (Mesh K (Row K))) (len : Option ℤ)

/-- C77. The voxelized mesh: the result has the cells of the grid, and each array with the
values of the output; they are at the right cells if all points are at the same height and
either the cells are listed by layers or the points are on a line along an axis.
Missing: all other grids, see `C77_voxel_violated` and `C77_column_violated`. -/
theorem C77_voxel_partial [IsStrictOrderedRing K] (a : ExportArgs K) (mesh : MeshArg K) (outs : List (ExportOut K T))
    (o : ExportOut K T) (pts : List (P3 K)) (axis : List ℕ) (q : P3 K) (m : Mesh K ℤ)
    (hf : a.format ≠ .xdmf) (hc : Chosen a.timeStep outs o) (hm : NoMesh mesh o.tecplot)
    (hp : getPoints o.data = .ok (pts, axis)) (hq : a.origin = some [q.x, q.y, q.z])
    (hv : a.voxelize = true ∨ axis.length = 1) (hg : voxelize pts q a.layer "dfalt".toList = .ok m)
    (hne : pts ≠ []) (hd : pts.Nodup) (hn : (o.data.map (·.1)).Nodup)
    (hl : ∀ kv ∈ o.data, Plain kv.1 → kv.2.length = pts.length) :
    ∃ r cs, exportCmd delaunay argsort ofNat readOn len a mesh (some (.ok outs)) = .ok (.mesh (exportName a) a.format r) ∧
      r.points = m.points ∧ r.cells = m.cells ∧ r.pointData = [] ∧ centers r = .ok cs ∧ cs.length = pts.length ∧
      (∀ kv ∈ o.data, Plain kv.1 → ∃ w, dictGet r.cellData kv.1 = .ok (w.map Row.num) ∧ w.Perm kv.2 ∧
        (SameHeight a.layer pts → AtPoints pts cs kv.2 w)) ∧
      ∀ k, (¬ Plain k ∨ k ∉ o.data.map (·.1)) → k ≠ "material".toList → dictGet r.cellData k = .error .keyError := by
  obtain ⟨d, d1, d2⟩ := dataAt_ok (pts := pts) (data := plainData o.data) (by
    intro kv hkv
    rw [plainData_eq, results, List.mem_filter] at hkv
    exact hl kv hkv.1 (by simpa using hkv.2))
  obtain ⟨fx, fy, fz, c1, c2, c3, -⟩ := voxel_centers hne hg
  have hb := baseMesh_voxel (delaunay := delaunay) hp hq hv hg
  have hnames : d.map (·.1) = (plainData o.data).map (·.1) := by
    have : ∀ {l e : List (Str × List K)}, List.Forall₂ (fun kv e => e.1 = kv.1 ∧ e.2.Perm kv.2 ∧
        e.2.length = pts.length ∧ ∀ i j : ℕ, (voxelOrder pts)[i]? = some j → e.2[i]? = kv.2[j]?) l e →
        e.map (·.1) = l.map (·.1) := by
      intro l e h
      induction h with
      | nil => rfl
      | cons h1 _ ih => rw [List.map_cons, List.map_cons, ih, h1.1]
    exact this d2
  have hnd : ((d.map fun kv => (kv.1, kv.2.map Row.num)).map (·.1)).Nodup := by
    rw [List.map_map]
    change (d.map (·.1)).Nodup
    rw [hnames, plainData_eq]
    exact hn.sublist ((List.filter_sublist).map _)
  have hlen : ∀ kv ∈ d, kv.2.length = nCells (rowMesh m).cells := by
    intro kv hkv
    obtain ⟨e, -, he⟩ := forall₂_mem_right d2 hkv
    rw [he.2.2.1]
    exact c2.symm
  have hrun : exportCmd delaunay argsort ofNat readOn len a mesh (some (.ok outs)) = .ok (.mesh (exportName a) a.format
      { rowMesh m with
          cellData := updateDict (rowMesh m).cellData (d.map fun kv => (kv.1, kv.2.map Row.num)) }) := by
    refine exportCmd_one (noMesh_missing hm) (fun _ _ => by rw [hq]; rfl) hf hc ?_
    rw [exportOne_none hm]
    unfold exportFresh
    rw [hb, ok_bind]
    simp only
    rw [d1, ok_bind, addArrays_ok hlen]
    rfl
  obtain ⟨u1, u2⟩ := dictGet_updated (base := (rowMesh m).cellData) hnd
  refine ⟨_, _, hrun, rfl, rfl, ?_, c1, ?_, ?_, ?_⟩
  · simp [rowMesh, (voxelize_data hg).2]
  · rw [List.length_map, (C39_listing _ _ _ _).2.1, c3]
  · intro kv hkv hpl
    have hm : kv ∈ plainData o.data := by
      rw [plainData_eq, results, List.mem_filter]
      exact ⟨hkv, by simpa using hpl⟩
    obtain ⟨e, he, h1, h2, h3, h4⟩ := forall₂_mem_left d2 hm
    refine ⟨e.2, ?_, h2, fun hs => atPoints_of hne hd hg c1 hs h3 h4⟩
    have := u1 _ (List.mem_map_of_mem (f := fun kv : Str × List K => (kv.1, kv.2.map Row.num)) he)
    simp only [h1] at this
    exact this
  · intro k hk hmat
    rw [u2 k]
    · apply dictGet_absent
      intro e he h
      simp only [rowMesh, (voxelize_data hg).1, List.map_cons, List.map_nil, List.mem_singleton] at he
      rw [he] at h
      exact hmat h.symm
    · rw [List.map_map]
      change k ∉ d.map (·.1)
      rw [hnames, plainData_eq]
      intro h
      obtain ⟨e, he, rfl⟩ := List.mem_map.1 h
      rw [results, List.mem_filter] at he
      rcases hk with hk | hk
      · exact hk (by simpa using he.2)
      · exact hk (List.mem_map_of_mem he.1)

/-- To one file, on a mesh made from the points. -/
def voxelArgs : ExportArgs ℚ where
  infile := "run.d/OUTPUT_ELEME.csv".toList
  timeStep := none
  outputFile := none
  format := .vtk
  voxelize := true
  origin := some [0, 0, 0]
  layer := false

example : Chosen (some (-1)) [flatOut] flatOut ∧ NoMesh (K := ℚ) .absent flatOut.tecplot ∧
    (∃ m, voxelize [⟨1, 0, 0⟩, ⟨3, 0, 0⟩] (⟨0, 0, 0⟩ : P3 ℚ) false "dfalt".toList = .ok m) ∧
    SameHeight false ([⟨1, 0, 0⟩, ⟨3, 0, 0⟩] : List (P3 ℚ)) := by
  refine ⟨.inr (.inr ⟨0, rfl, rfl⟩), .inl rfl, ⟨_, rfl⟩, ?_, .inr (.inr ?_)⟩ <;>
  · rintro ⟨a, b, h⟩
    simp at h
    grind

/-- C77 is violated by the voxels of a cube: the values are put in the order of height, then
depth, then width, while the cells are listed the other way round. -/
theorem C77_voxel_violated : ∃ (o : ExportOut ℚ ℤ) (v w : List ℚ) (pts cs : List (P3 ℚ)) (r : Mesh ℚ (Row ℚ)) (i j : ℕ),
    getPoints o.data = .ok (pts, [0, 1, 2]) ∧ ("P".toList, v) ∈ o.data ∧
    exportCmd (fun _ => .error .valueError) sortIdx (fun n => n) (fun m _ => .ok m) none voxelArgs .absent
      (some (.ok [o])) = .ok (.mesh "run.d/OUTPUT_ELEME.vtk".toList .vtk r) ∧
    centers r = .ok cs ∧ dictGet r.cellData "P".toList = .ok (w.map .num) ∧
    i < cs.length ∧ cs[i]? = pts[j]? ∧ w[i]? ≠ v[j]? := by
  refine ⟨⟨false, 0, .unlabelled, [("X".toList, [1, 3, 1, 3, 1, 3, 1, 3]), ("Y".toList, [1, 1, 3, 3, 1, 1, 3, 3]),
    ("Z".toList, [1, 1, 1, 1, 3, 3, 3, 3]), ("P".toList, [0, 1, 2, 3, 4, 5, 6, 7])]⟩, [0, 1, 2, 3, 4, 5, 6, 7],
    [0, 1, 2, 3, 4, 5, 6, 7], _, _, _, 0, 4, rfl, by decide, rfl, rfl, rfl, ?_⟩
  decide +kernel

/-- C77 is violated by a column of voxels: the lowest value is put into the highest cell. -/
theorem C77_column_violated : ∃ (o : ExportOut ℚ ℤ) (r : Mesh ℚ (Row ℚ)),
    o.data = [("Z".toList, [1, 3]), ("P".toList, [10, 30])] ∧
    exportCmd (fun _ => .error .valueError) sortIdx (fun n => n) (fun m _ => .ok m) none voxelArgs .absent
      (some (.ok [o])) = .ok (.mesh "run.d/OUTPUT_ELEME.vtk".toList .vtk r) ∧
    centers r = .ok [⟨1 / 2, 1 / 2, 3⟩, ⟨1 / 2, 1 / 2, 1⟩] ∧
    dictGet r.cellData "P".toList = .ok [.num 10, .num 30] := by
  refine ⟨⟨false, 0, .unlabelled, [("Z".toList, [1, 3]), ("P".toList, [10, 30])]⟩, _, rfl, rfl, ?_⟩
  decide +kernel

/-- C77. The triangulated mesh: its points are those of the output, in the plane of the first
two axes if they are given on two, its cells those of the triangulation, and its point data
the arrays of the output. -/
theorem C77_triangulated (a : ExportArgs K) (mesh : MeshArg K) (outs : List (ExportOut K T))
    (o : ExportOut K T) (pts : List (P3 K)) (axis : List ℕ) (cells : List (List ℕ))
    (hf : a.format ≠ .xdmf) (hc : Chosen a.timeStep outs o) (hm : NoMesh mesh o.tecplot)
    (hp : getPoints o.data = .ok (pts, axis)) (hv : a.voxelize = false) (hx : axis.length = 2 ∨ axis.length = 3)
    (hd : delaunay (pts.map (columnsAt axis)) = .ok cells) (hn : (o.data.map (·.1)).Nodup)
    (hl : ∀ kv ∈ o.data, Plain kv.1 → kv.2.length = pts.length) :
    ∃ r, exportCmd delaunay argsort ofNat readOn len a mesh (some (.ok outs)) = .ok (.mesh (exportName a) a.format r) ∧
      List.Forall₂ (Flattened axis) pts r.points ∧
      r.cells = [⟨if axis.length = 2 then .triangle else .tetra, cells⟩] ∧
      r.pointData = (results o.data).map (fun kv => (kv.1, kv.2.map Row.num)) ∧
      r.cellData = [("material".toList, List.replicate cells.length (.num 1))] := by
  have hb := baseMesh_triangle (delaunay := delaunay) (a := a) hp hv hx hd
  set g := gridMesh ((pts.map (columnsAt axis)).map padPoint) (if axis.length = 2 then .triangle else .tetra) cells
    "dfalt".toList with hgr
  have hrun : exportCmd delaunay argsort ofNat readOn len a mesh (some (.ok outs)) = .ok (.mesh (exportName a) a.format
      { rowMesh g with
          pointData := updateDict (rowMesh g).pointData ((plainData o.data).map fun kv => (kv.1, kv.2.map Row.num)) }) := by
    refine exportCmd_one (noMesh_missing hm) (fun _ h => by rw [hv] at h; cases h) hf hc ?_
    rw [exportOne_none hm]
    unfold exportFresh
    rw [hb, ok_bind]
    simp only
    rw [addArrays_ok, ok_bind]
    intro kv hkv
    rw [plainData_eq, results, List.mem_filter] at hkv
    rw [hl kv hkv.1 (by simpa using hkv.2)]
    simp [hgr, rowMesh, gridMesh]
  refine ⟨_, hrun, ?_, ?_, ?_, ?_⟩
  · simp only [hgr, rowMesh, gridMesh, List.map_map]
    rw [List.forall₂_map_right_iff]
    exact List.forall₂_same.2 fun p _ => flattened axis p
  · rfl
  · simp only [hgr, rowMesh, gridMesh, List.map_nil]
    rw [plainData_eq]
    have : ∀ l : List (Str × List (Row K)), (l.map (·.1)).Nodup → updateDict [] l = l := by
      intro l hl
      have := foldl_dictSet (·.1) (·.2) l [] (by simpa using hl)
      simpa [updateDict] using this
    rw [this]
    rw [List.map_map]
    exact hn.sublist ((List.filter_sublist).map _)
  · simp only [hgr, rowMesh, gridMesh]
    simp [← List.map_eq_flatMap]

/-- Three points in the plane `y = 5`. -/
def planeOut : ExportOut ℚ ℤ where
  tecplot := false
  time := 7
  labels := .unlabelled
  data := [("X".toList, [1, 3, 1]), ("Y".toList, [5, 5, 5]), ("Z".toList, [0, 0, 2]), ("P".toList, [10, 30, 20])]

/-- C77 is violated by points in a plane: the coordinate they have in common is lost, and the
height of the points becomes their second coordinate. -/
theorem C77_plane_violated : ∃ r,
    exportCmd (fun _ => .ok [[0, 1, 2]]) sortIdx (fun n => n) (fun m _ => .ok m) none
      { voxelArgs with voxelize := false } .absent (some (.ok [planeOut])) =
        .ok (.mesh "run.d/OUTPUT_ELEME.vtk".toList .vtk r) ∧
    r.points = [⟨1, 0, 0⟩, ⟨3, 0, 0⟩, ⟨1, 2, 0⟩] ∧ r.pointData = [("P".toList, [.num 10, .num 30, .num 20])] := by
  refine ⟨_, rfl, ?_⟩
  decide +kernel

example : getPoints planeOut.data = .ok ([⟨1, 0, 0⟩, ⟨3, 0, 0⟩, ⟨1, 0, 2⟩], [0, 2]) ∧
    (planeOut.data.map (·.1)).Nodup ∧ ∀ kv ∈ planeOut.data, Plain kv.1 → kv.2.length = 3 := by
  decide +kernel

/-- C77. The time series on a triangulated mesh. -/
theorem C77_series_points [LE T] (ha : SortsTimes argsort) (a : ExportArgs K) (mesh : MeshArg K)
    (outs : List (ExportOut K T)) (first last : ExportOut K T) (pts : List (P3 K)) (axis : List ℕ)
    (cells : List (List ℕ)) (hf : a.format = .xdmf) (hh : outs.head? = some first) (hl : outs.getLast? = some last)
    (hm : NoMesh mesh last.tecplot) (hp : getPoints first.data = .ok (pts, axis)) (hv : a.voxelize = false)
    (hx : axis.length = 2 ∨ axis.length = 3) (hd : delaunay (pts.map (columnsAt axis)) = .ok cells) :
    ∃ f r, exportCmd delaunay argsort ofNat readOn len a mesh (some (.ok outs)) = .ok (.series (exportName a) f) ∧
      readSeries f = .ok r ∧ List.Forall₂ (Flattened axis) pts r.points ∧
      r.cells = [⟨if axis.length = 2 then .triangle else .tetra, cells⟩] ∧
      r.steps.Perm (outs.map fun o => (o.time, results o.data, [])) ∧ r.steps.Pairwise (fun a b => a.1 ≤ b.1) := by
  have hb := baseMesh_triangle (delaunay := delaunay) (a := a) hp hv hx hd
  set g := gridMesh ((pts.map (columnsAt axis)).map padPoint) (if axis.length = 2 then .triangle else .tetra) cells
    "dfalt".toList with hgr
  have hne : outs ≠ [] := by rintro rfl; cases hh
  obtain ⟨-, f, r, h1, h2, h3, h4, h5, h6⟩ := series_ok ha ofNat g.points g.cells (ts := outs.map (·.time))
    (ds := outs.map fun o => plainData o.data) (by simpa using hne) (by simp)
  refine ⟨f, r, exportCmd_all (noMesh_missing hm) (fun _ h => by rw [hv] at h; cases h) hf ?_, h2, ?_, ?_, ?_, h6⟩
  · rw [exportAll_none hh hl hm]
    unfold seriesFresh
    rw [hb, ok_bind]
    exact h1
  · rw [h3]
    simp only [hgr, gridMesh, List.map_map]
    rw [List.forall₂_map_right_iff]
    exact List.forall₂_same.2 fun p _ => flattened axis p
  · rw [h4]
    rfl
  · have : List.zipWith (fun t d => (t, d, ([] : List (Str × List K)))) (outs.map (·.time))
        (outs.map fun o => plainData o.data) = outs.map fun o => (o.time, results o.data, []) := by
      rw [List.zipWith_map, List.zipWith_self]
      exact List.map_congr_left fun o _ => by rw [plainData_eq]
    rwa [this] at h5

example : SortsTimes sortIdx ∧ [planeOut, { planeOut with time := 3 }].head? = some planeOut ∧
    ∃ f, exportCmd (fun _ => .ok [[0, 1, 2]]) sortIdx (fun n => n) (fun m _ => .ok m) none
      { voxelArgs with voxelize := false, format := .xdmf } .absent (some (.ok [planeOut, { planeOut with time := 3 }])) =
        .ok (.series "run.d/OUTPUT_ELEME.xdmf".toList f) ∧ f.steps.map (·.1) = [3, 7] := by
  refine ⟨sortIdx_sorts, rfl, _, rfl, ?_⟩
  decide +kernel

/-- C77. The time series on a voxelized mesh; the values are at the right cells in the same
cases as in `C77_voxel_partial`. -/
theorem C77_series_voxel_partial [IsStrictOrderedRing K] [LE T] (ha : SortsTimes argsort) (a : ExportArgs K)
    (mesh : MeshArg K) (outs : List (ExportOut K T)) (first last : ExportOut K T) (pts : List (P3 K)) (axis : List ℕ)
    (q : P3 K) (m : Mesh K ℤ) (hf : a.format = .xdmf) (hh : outs.head? = some first) (hl : outs.getLast? = some last)
    (hm : NoMesh mesh last.tecplot) (hp : getPoints first.data = .ok (pts, axis))
    (hq : a.origin = some [q.x, q.y, q.z]) (hv : a.voxelize = true ∨ axis.length = 1)
    (hg : voxelize pts q a.layer "dfalt".toList = .ok m) (hne : pts ≠ []) (hd : pts.Nodup)
    (hlen : ∀ o ∈ outs, ∀ kv ∈ o.data, Plain kv.1 → kv.2.length = pts.length) :
    ∃ f r cs ds, exportCmd delaunay argsort ofNat readOn len a mesh (some (.ok outs)) = .ok (.series (exportName a) f) ∧
      readSeries f = .ok r ∧ r.points = m.points ∧ r.cells = m.cells ∧ centers m = .ok cs ∧ cs.length = pts.length ∧
      r.steps.Perm (List.zipWith (fun o d => (o.time, [], d)) outs ds) ∧ r.steps.Pairwise (fun a b => a.1 ≤ b.1) ∧
      List.Forall₂ (fun o d => List.Forall₂ (fun kv e => e.1 = kv.1 ∧ e.2.Perm kv.2 ∧
        (SameHeight a.layer pts → AtPoints pts cs kv.2 e.2)) (results o.data) d) outs ds := by
  have hb := baseMesh_voxel (delaunay := delaunay) hp hq hv hg
  obtain ⟨fx, fy, fz, c1, c2, c3, -⟩ := voxel_centers hne hg
  have hne' : outs ≠ [] := by rintro rfl; cases hh
  have hds : ∃ ds, outs.mapM (fun o => dataAt (voxelOrder pts) (plainData o.data)) = .ok ds ∧
      List.Forall₂ (fun o d => List.Forall₂ (fun kv e => e.1 = kv.1 ∧ e.2.Perm kv.2 ∧
        e.2.length = pts.length ∧ ∀ i j : ℕ, (voxelOrder pts)[i]? = some j → e.2[i]? = kv.2[j]?)
          (plainData o.data) d) outs ds := by
    clear hh hl hm hp hb hne'
    induction outs with
    | nil => exact ⟨[], rfl, .nil⟩
    | cons o outs ih =>
      obtain ⟨ds, h1, h2⟩ := ih fun o ho => hlen o (by simp [ho])
      obtain ⟨d, g1, g2⟩ := dataAt_ok (pts := pts) (data := plainData o.data) (by
        intro kv hkv
        rw [plainData_eq, results, List.mem_filter] at hkv
        exact hlen o (by simp) kv hkv.1 (by simpa using hkv.2))
      refine ⟨d :: ds, ?_, .cons g2 h2⟩
      rw [List.mapM_cons, g1, h1]
      rfl
  obtain ⟨ds, e1, e2⟩ := hds
  have hlds : outs.length = ds.length := e2.length_eq
  obtain ⟨⟨f, r, h1, h2, h3, h4, h5, h6⟩, -⟩ := series_ok ha ofNat m.points m.cells (ts := outs.map (·.time))
    (ds := ds) (by rintro rfl; exact hne' (List.length_eq_zero_iff.1 hlds)) (by simpa using hlds)
  refine ⟨f, r, _, ds, exportCmd_all (noMesh_missing hm) (fun _ _ => by rw [hq]; rfl) hf ?_, h2, h3, h4, c1, ?_, ?_, h6, ?_⟩
  · rw [exportAll_none hh hl hm]
    unfold seriesFresh
    rw [hb, ok_bind]
    simp only
    rw [e1, ok_bind]
    exact h1
  · rw [List.length_map, (C39_listing _ _ _ _).2.1, c3]
  · rwa [List.zipWith_map_left] at h5
  · refine e2.imp fun o d h => ?_
    rw [plainData_eq] at h
    refine h.imp fun kv e he => ?_
    exact ⟨he.1, he.2.1, fun hs => atPoints_of hne hd hg c1 hs he.2.2.1 he.2.2.2⟩

example : (∀ o ∈ [flatOut, { flatOut with time := 3 }], ∀ kv ∈ o.data, Plain kv.1 → kv.2.length = 2) ∧
    ∃ f, exportCmd (fun _ => .ok []) sortIdx (fun n => n) (fun m _ => .ok m) none
      { voxelArgs with format := .xdmf } .absent (some (.ok [flatOut, { flatOut with time := 3 }])) =
        .ok (.series "run.d/OUTPUT_ELEME.xdmf".toList f) ∧ f.steps.map (·.1) = [3, 7] := by
  refine ⟨by decide, _, rfl, ?_⟩
  decide +kernel

/-- C77. The time series on a given mesh: every cell gets the values of the row with its
label. -/
theorem C77_series_mesh [LE T] (ha : SortsTimes argsort) (a : ExportArgs K) (m : Mesh K (Row K))
    (outs : List (ExportOut K T)) (last : ExportOut K T) (labels : List Str) (ols : List (List Str))
    (hf : a.format = .xdmf) (hl : outs.getLast? = some last) (ht : last.tecplot = false)
    (hlab : labeler (nCells m.cells) len = .ok labels)
    (ho : List.Forall₂ (fun o ls => o.labels = .element ls ∧ ls.Perm labels ∧ ls.Nodup ∧
      ∀ kv ∈ o.data, kv.2.length = ls.length) outs ols) :
    ∃ f r ds, exportCmd delaunay argsort ofNat readOn len a (.mesh m) (some (.ok outs)) =
        .ok (.series (exportName a) f) ∧
      readSeries f = .ok r ∧ r.points = m.points ∧ r.cells = m.cells ∧
      r.steps.Perm (List.zipWith (fun o d => (o.time, [], d)) outs ds) ∧ r.steps.Pairwise (fun a b => a.1 ≤ b.1) ∧
      List.Forall₂ (fun o d => ∀ ls, o.labels = .element ls → List.Forall₂ (fun kv e => e.1 = kv.1 ∧
        e.2.length = nCells m.cells ∧ ∀ (i j : ℕ) s, labels[i]? = some s → ls[j]? = some s → e.2[i]? = kv.2[j]?)
          (results o.data) d) outs ds := by
  have hne : outs ≠ [] := by rintro rfl; cases hl
  have hll : labels.length = nCells m.cells := labeler_length hlab
  have hre : ∃ os, outs.mapM (reorderOut labels) = .ok os ∧ List.Forall₂ (fun o p => p.time = o.time ∧
      ∀ ls, o.labels = .element ls → List.Forall₂ (fun kv e => e.1 = kv.1 ∧
        e.2.length = nCells m.cells ∧ ∀ (i j : ℕ) s, labels[i]? = some s → ls[j]? = some s → e.2[i]? = kv.2[j]?)
          (results o.data) (plainData p.data)) outs os := by
    clear hne hl
    induction ho with
    | nil => exact ⟨[], rfl, .nil⟩
    | @cons o ls outs ols h _ ih =>
      obtain ⟨os, i1, i2⟩ := ih
      obtain ⟨h1, h2, h3, h4⟩ := h
      obtain ⟨r, r1, r2, -, r4⟩ := C36_reorder (⟨none, ls, o.data⟩ : Output Str K) labels h4 h3 h2.symm.length_eq
        (fun s hs => h2.mem_iff.2 hs)
      refine ⟨{ o with labels := .element r.labels, data := r.data } :: os, ?_, .cons ⟨rfl, ?_⟩ i2⟩
      · rw [List.mapM_cons, i1]
        unfold reorderOut
        rw [h1]
        simp only
        rw [r1]
        rfl
      · intro ls' hls'
        rw [h1] at hls'
        injection hls' with hls'
        subst hls'
        rw [plainData_eq]
        unfold RowsKept at r4
        unfold results
        simp only at r4 ⊢
        clear r1 h1 h4
        generalize o.data = xs at r4 ⊢
        generalize r.data = ys at r4 ⊢
        induction r4 with
        | nil => exact .nil
        | @cons kv e l l' he _ ih =>
          have hee : e.1 = kv.1 := he.1
          by_cases hp : Plain kv.1
          · rw [List.filter_cons_of_pos (by simpa using hp), List.filter_cons_of_pos (by rw [hee]; simpa using hp)]
            refine .cons ⟨hee, by rw [he.2.1, r2, hll], ?_⟩ ih
            intro i j s hi hj
            refine he.2.2 i j ?_ ?_ ?_
            · rw [r2]; exact (List.getElem?_eq_some_iff.1 hi).1
            · exact (List.getElem?_eq_some_iff.1 hj).1
            · rw [r2, hi, hj]
          · rw [List.filter_cons_of_neg (by simpa using hp), List.filter_cons_of_neg (by rw [hee]; simpa using hp)]
            exact ih
  obtain ⟨os, e1, e2⟩ := hre
  have hlos : outs.length = os.length := e2.length_eq
  obtain ⟨⟨f, r, h1, h2, h3, h4, h5, h6⟩, -⟩ := series_ok ha ofNat m.points m.cells (ts := os.map (·.time))
    (ds := os.map fun o => plainData o.data)
    (by
      intro h
      rw [List.map_eq_nil_iff] at h
      rw [h] at hlos
      exact hne (List.length_eq_zero_iff.1 hlos)) (by simp)
  have htimes : os.map (·.time) = outs.map (·.time) := by
    have : ∀ {l : List (ExportOut K T)} {k : List (ExportOut K T)}, List.Forall₂ (fun o p => p.time = o.time) l k →
        k.map (·.time) = l.map (·.time) := by
      intro l k h
      induction h with
      | nil => rfl
      | cons h _ ih => rw [List.map_cons, List.map_cons, h, ih]
    exact this (e2.imp fun o p h => h.1)
  refine ⟨f, r, os.map fun o => plainData o.data, exportCmd_all (by simp) (by simp) hf ?_, h2, h3, h4, ?_, h6, ?_⟩
  · unfold exportAll
    cases hh : outs.head? with
    | none => rw [List.head?_eq_none_iff] at hh; exact absurd hh hne
    | some x =>
      rw [hl]
      simp only
      rw [if_neg (by rw [ht]; simp)]
      unfold seriesOn
      rw [hlab, ok_bind, e1, ok_bind]
      exact h1
  · rwa [htimes, List.zipWith_map_left] at h5
  · rw [List.forall₂_map_right_iff]
    exact e2.imp fun o p h => h.2

/-- Two cells next to each other. -/
def pairMesh : Mesh ℚ (Row ℚ) where
  points := [⟨0, 0, 0⟩, ⟨1, 0, 0⟩, ⟨0, 1, 0⟩, ⟨1, 1, 0⟩]
  cells := [⟨.triangle, [[0, 1, 2], [1, 2, 3]]⟩]
  pointData := []
  cellData := [("material".toList, [.num 1, .num 1])]
  fieldData := []

example : labeler (nCells pairMesh.cells) none = .ok ["A1100".toList, "A1101".toList] ∧
    flatOut.labels = .element ["A1101".toList, "A1100".toList] ∧
    ["A1101".toList, "A1100".toList].Perm ["A1100".toList, "A1101".toList] ∧
    (∀ kv ∈ flatOut.data, kv.2.length = 2) ∧
    exportCmd (fun _ => .ok []) sortIdx (fun n => n) (fun m _ => .ok m) none
      { voxelArgs with format := .xdmf } (.mesh pairMesh) (some (.ok [flatOut])) =
        .ok (.series "run.d/OUTPUT_ELEME.xdmf".toList
          ⟨pairMesh.points, pairMesh.cells, [(7, [], [("P".toList, [[30, 10]])])]⟩) :=
  ⟨by decide +kernel, rfl, .swap _ _ _, by decide, by decide +kernel⟩

/-- C77. What is refused: files that are not there, an unreadable mesh, voxels without an
origin, steps that are not there, outputs without coordinates, and points on a line without
an origin; without outputs there is nothing to choose. -/
theorem C77_refused (a : ExportArgs K) (mesh : MeshArg K) (outs : List (ExportOut K T)) (o : ExportOut K T) :
    exportCmd delaunay argsort ofNat readOn len a mesh none = .error .valueError ∧
    exportCmd delaunay argsort ofNat readOn len a .missing (some (.ok outs)) = .error .valueError ∧
    (a.voxelize = true → a.origin = none →
      exportCmd delaunay argsort ofNat readOn len a .absent (some (.ok outs)) = .error .valueError) ∧
    (∀ s : ℤ, a.timeStep = some s → a.format ≠ .xdmf → (s < -outs.length ∨ outs.length ≤ s) →
      exportCmd delaunay argsort ofNat readOn len a mesh (some (.ok outs)) = .error .valueError) ∧
    (a.voxelize = false → a.timeStep = none → mesh ≠ .missing →
      exportCmd delaunay argsort ofNat readOn len a mesh (some (.ok [])) = .error .indexError) ∧
    (a.format ≠ .xdmf → Chosen a.timeStep outs o → (o.tecplot = false ∧ mesh = .unreadable) ∨
        (NoMesh mesh o.tecplot ∧ o.data ≠ [] ∧ ∀ k ∈ o.data.map (·.1), Plain k) ∨
        (∃ pts axis, NoMesh mesh o.tecplot ∧ getPoints o.data = .ok (pts, axis) ∧ axis.length = 1 ∧ a.origin = none) →
      exportCmd delaunay argsort ofNat readOn len a mesh (some (.ok outs)) = .error .valueError) := by
  have key : ∀ (P Q : Prop) [Decidable P] [Decidable Q] (x : Except PyErr (Exported K T)),
      x = .error .valueError →
      (if P then .error .valueError else if Q then .error .valueError else x) = .error .valueError := by
    rintro P Q _ _ x rfl
    rw [ite_self, ite_self]
  refine ⟨rfl, rfl, ?_, ?_, ?_, ?_⟩
  · intro h1 h2
    unfold exportCmd
    simp only
    rw [if_neg (by simp), if_pos ⟨by simp, h1, by rw [h2]; simp⟩]
  · intro s hs hf hr
    have hc : chosenOutput a.timeStep outs = .error .valueError := by
      unfold chosenOutput
      rw [hs]
      simp only
      rw [if_pos]
      rintro ⟨h1, h2⟩
      rcases hr with h | h
      · exact absurd h1 (not_le.2 h)
      · exact absurd h2 (not_lt.2 h)
    unfold exportCmd
    simp only
    apply key
    rw [ok_bind, if_pos hf, hc]
    rfl
  · intro hv ht hm
    unfold exportCmd
    simp only
    rw [if_neg (by cases mesh <;> simp_all), if_neg (by rw [hv]; simp), ok_bind]
    split
    · rw [ht]
      rfl
    · rfl
  · intro hf hc hr
    have h1 : exportOne delaunay readOn a mesh o = .error .valueError := by
      rcases hr with ⟨h, rfl⟩ | ⟨h, h0, hp⟩ | ⟨pts, axis, h, hp, hx, ho⟩
      · unfold exportOne
        rw [if_neg (by rw [h]; simp)]
      · rw [exportOne_none h]
        unfold exportFresh baseMesh
        have : getPoints o.data = .error .valueError := by
          unfold getPoints
          cases hd : o.data with
          | nil => exact absurd hd h0
          | cons kv r =>
            rw [hd] at hp
            obtain ⟨k, v⟩ := kv
            simp only
            rw [if_pos]
            exact ⟨fun h => hp _ h (by simp), fun h => hp _ h (by simp), fun h => hp _ h (by simp)⟩
        rw [this]
        rfl
      · rw [exportOne_none h]
        unfold exportFresh baseMesh
        rw [hp, ok_bind]
        simp only
        rw [if_pos (.inr hx), if_pos ⟨hx, by rw [ho]; simp⟩]
        rfl
    unfold exportCmd
    simp only
    apply key
    rw [ok_bind, if_pos hf, chosen_ok hc, ok_bind, h1]
    rfl

example : getPoints (K := ℚ) [("X".toList, [1, 3])] = .ok ([⟨1, 0, 0⟩, ⟨3, 0, 0⟩], [0]) ∧
    Plain "P".toList ∧ Chosen (some 0) [flatOut] flatOut :=
  ⟨by decide +kernel, by decide, .inr (.inl ⟨0, rfl, rfl⟩)⟩

/-- C77. What is refused in a time series: an unreadable mesh if the last output is not one of
Tecplot, and if the mesh is made from the first output, a first output without coordinates or
with points on a line and no origin of three numbers. -/
theorem C77_series_refused (a : ExportArgs K) (mesh : MeshArg K) (outs : List (ExportOut K T))
    (first last : ExportOut K T) (hf : a.format = .xdmf) (h1 : outs.head? = some first)
    (h2 : outs.getLast? = some last)
    (hr : (last.tecplot = false ∧ mesh = .unreadable) ∨
      (NoMesh mesh last.tecplot ∧ first.data ≠ [] ∧ ∀ k ∈ first.data.map (·.1), Plain k) ∨
      (∃ pts axis, NoMesh mesh last.tecplot ∧ getPoints first.data = .ok (pts, axis) ∧ axis.length = 1 ∧
        ∀ o, a.origin = some o → o.length ≠ 3)) :
    exportCmd delaunay argsort ofNat readOn len a mesh (some (.ok outs)) = .error .valueError := by
  have none_mesh : NoMesh mesh last.tecplot → exportAll delaunay argsort ofNat len a mesh outs =
      seriesFresh delaunay argsort ofNat a first.data outs := by
    intro h
    unfold exportAll
    rw [h1, h2]
    simp only
    rcases h with rfl | ⟨h, -⟩
    · rw [ite_self]
    · rw [if_pos h]
  have main : exportAll delaunay argsort ofNat len a mesh outs = .error .valueError := by
    rcases hr with ⟨h, rfl⟩ | ⟨h, h0, hp⟩ | ⟨pts, axis, h, hp, hx, ho⟩
    · unfold exportAll
      rw [h1, h2]
      simp only
      rw [if_neg (by rw [h]; simp)]
    · rw [none_mesh h]
      unfold seriesFresh baseMesh
      have : getPoints first.data = .error .valueError := by
        unfold getPoints
        cases hd : first.data with
        | nil => exact absurd hd h0
        | cons kv r =>
          rw [hd] at hp
          obtain ⟨k, v⟩ := kv
          simp only
          rw [if_pos]
          exact ⟨fun h => hp _ h (by simp), fun h => hp _ h (by simp), fun h => hp _ h (by simp)⟩
      rw [this]
      rfl
    · rw [none_mesh h]
      have h3 : a.origin.map List.length ≠ some 3 := by
        cases hO : a.origin with
        | none => simp
        | some o => simpa using ho o hO
      unfold seriesFresh baseMesh
      rw [hp, ok_bind]
      simp only
      rw [if_pos (.inr hx), if_pos ⟨hx, h3⟩]
      rfl
  unfold exportCmd
  simp only
  rw [ok_bind, if_neg (c := a.format ≠ .xdmf) (by rw [hf]; simp), main]
  show ite _ _ (ite _ _ (Except.error PyErr.valueError)) = _
  rw [ite_self, ite_self]

example : exportCmd (T := ℤ) (fun _ => .ok []) sortIdx (fun n => n) (fun m _ => .ok m) none
    { voxelArgs with format := .xdmf } .unreadable (some (.ok [flatOut])) = .error .valueError :=
  C77_series_refused (first := flatOut) (last := flatOut) (hf := rfl) (h1 := rfl) (h2 := rfl)
    (hr := .inl ⟨rfl, rfl⟩) ..

omit [Field K] [LinearOrder K] in
/-- C77. The name of the file: the one asked for, or that of the output with the extension of
the format. -/
theorem C77_name (a : ExportArgs K) :
    (∀ f, a.outputFile = some f → exportName a = f) ∧
    (∀ stem e, a.outputFile = none → a.infile = stem ++ e → (HasExt a.infile e ∨ (e = [] ∧ ¬ ∃ e, HasExt a.infile e)) →
      exportName a = stem ++ (match a.format with
        | .tecplot => ".dat".toList
        | .vtk => ".vtk".toList
        | .vtu => ".vtu".toList
        | .xdmf => ".xdmf".toList)) := by
  have hsplit : ∀ p : Str, (splitext p).1 ++ (splitext p).2 = p := by
    intro p
    unfold splitext
    simp only
    split
    · exact List.take_append_drop _ _
    · exact List.append_nil _
  refine ⟨fun f h => by unfold exportName; rw [h]; rfl, ?_⟩
  intro stem e h hi he
  have h2 : (splitext a.infile).2 = e := by
    rcases he with he | ⟨rfl, he⟩
    · exact splitext_ext he
    · exact splitext_none he
  have h1 : (splitext a.infile).1 = stem := by
    have := hsplit a.infile
    rw [h2] at this
    conv_rhs at this => rw [hi]
    exact List.append_cancel_right this
  unfold exportName
  rw [h, h1]
  cases a.format <;> rfl

example : HasExt "run.d/OUTPUT_ELEME.csv".toList ".csv".toList ∧ exportName voxelArgs = "run.d/OUTPUT_ELEME.vtk".toList :=
  ⟨⟨"run.d/".toList, "OUTPUT_ELEME".toList, "csv".toList, rfl, rfl, .inr rfl, by decide, by decide, by decide, 'O',
    by decide, by decide⟩, by decide⟩

end

/-- C77. One output on a given mesh: every cell gets in every array the value of the row with
its label; the points and cells are those of the mesh, its point data and groups are left
out. Missing: the cell data of the mesh, which stay, see `C77_leftover_violated`. -/
theorem C77_mesh_partial {T : Type} (delaunay : List (List ℝ) → Except PyErr (List (List ℕ)))
    (argsort : List T → List ℕ) (ofNat : ℕ → T) (len : Option ℤ) (a : ExportArgs ℝ) (m : Mesh ℝ (Row ℝ))
    (outs : List (ExportOut ℝ T)) (o : ExportOut ℝ T) (labels ls : List Str)
    (hf : a.format ≠ .xdmf) (hc : Chosen a.timeStep outs o) (ht : o.tecplot = false)
    (hl : labeler (nCells m.cells) len = .ok labels) (ho : o.labels = .element ls) (hd : ls.Nodup)
    (hp : ls.Perm labels) (hn : (o.data.map (·.1)).Nodup) (hfull : ∀ kv ∈ o.data, kv.2.length = ls.length) :
    ∃ r, exportCmd delaunay argsort ofNat (readExport len) len a (.mesh m) (some (.ok outs)) =
        .ok (.mesh (exportName a) a.format r) ∧
      r.points = m.points ∧ r.cells = m.cells ∧ r.pointData = [] ∧ r.fieldData = [] ∧
      (∀ kv ∈ o.data, ∃ w, dictGet r.cellData kv.1 = .ok w ∧ w.length = nCells m.cells ∧
        ∀ (i j : ℕ) s v, labels[i]? = some s → ls[j]? = some s → kv.2[j]? = some v → w[i]? = some (.num v)) ∧
      ∀ k, k ∉ o.data.map (·.1) → dictGet r.cellData k = dictGet m.cellData k := by
  obtain ⟨r, h1, h2, h3, h4, h5, h6, h7⟩ := C75_element { m with pointData := [], fieldData := [] } len labels
    ⟨none, ls, o.data.map fun kv => (kv.1, kv.2.map .num)⟩ hl
    (by
      intro e he
      obtain ⟨kv, hkv, rfl⟩ := List.mem_map.1 he
      simpa using hfull kv hkv)
    (hp.nodup_iff.1 hd) hp.symm (by rw [List.map_map]; exact hn)
  refine ⟨r, exportCmd_one (by simp) (by simp) hf hc ?_, h2, h3, h4, h5, ?_, ?_⟩
  · unfold exportOne
    rw [if_neg (by rw [ht]; simp)]
    simp only
    unfold readExport
    rw [ho]
    exact h1
  · intro kv hkv
    obtain ⟨v, g1, g2, g3⟩ := h6 _ (List.mem_map_of_mem hkv)
    refine ⟨v, g1, g2, ?_⟩
    intro i j s x hi hj hx
    rw [g3 i j s hi hj]
    simp [hx]
  · intro k hk
    apply h7 k
    rw [List.map_map]
    exact hk

/-- The pressure of two cells, the second first. -/
noncomputable def pressureOut : ExportOut ℝ ℤ where
  tecplot := false
  time := 7
  labels := .element ["A1101".toList, "A1100".toList]
  data := [("P".toList, [30, 10])]

/-- To one file. -/
noncomputable def meshArgs : ExportArgs ℝ where
  infile := "OUTPUT_ELEME.csv".toList
  timeStep := none
  outputFile := none
  format := .vtk
  voxelize := false
  origin := none
  layer := false

example : labeler (nCells tetraPair.cells) none = .ok ["A1100".toList, "A1101".toList] ∧
    ["A1101".toList, "A1100".toList].Perm ["A1100".toList, "A1101".toList] ∧
    (pressureOut.data.map (·.1)).Nodup ∧ ∀ kv ∈ pressureOut.data, kv.2.length = 2 := by
  refine ⟨by decide +kernel, .swap _ _ _, List.nodup_singleton _, ?_⟩
  intro e he
  simp only [pressureOut, List.mem_singleton] at he
  subst he
  rfl

/-- C77 is violated by the cell data of the mesh: they should be left out like the other data
but are written along with the results, since another name is set to the empty dictionary. -/
theorem C77_leftover_violated : ∃ r,
    exportCmd (fun _ => .error .valueError) sortIdx (fun n => (n : ℤ)) (readExport none) none meshArgs
      (.mesh tetraPair) (some (.ok [pressureOut])) = .ok (.mesh (exportName meshArgs) .vtk r) ∧
    "material".toList ∉ pressureOut.data.map (·.1) ∧
    dictGet r.cellData "material".toList = .ok [.num 1, .num 1] := by
  obtain ⟨r, h1, -, -, -, -, -, h7⟩ := C77_mesh_partial (fun _ => .error .valueError) sortIdx (fun n => (n : ℤ)) none
    meshArgs tetraPair [pressureOut] pressureOut ["A1100".toList, "A1101".toList] ["A1101".toList, "A1100".toList]
    (fun h => nomatch h) (.inl ⟨rfl, rfl⟩) rfl (by decide +kernel) rfl (by decide) (.swap _ _ _)
    (List.nodup_singleton _) (by
      intro e he
      simp only [pressureOut, List.mem_singleton] at he
      subst he
      rfl)
  have hk : "material".toList ∉ pressureOut.data.map (·.1) := by
    simp only [pressureOut, List.map_cons, List.map_nil]
    decide
  refine ⟨r, h1, hk, ?_⟩
  rw [h7 _ hk]
  rfl

end Verif.Props
