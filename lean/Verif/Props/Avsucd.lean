import Verif.Lemmas.Avsucd

/-!
# C64: AVS-UCD mesh files
-/

namespace Verif.Mesh
open Verif.Py Verif.Model Verif.Spec

/-- C64. A mesh written as an AVS-UCD file and read again has the same points, exactly,
the same cells in the same order (in blocks of different types, none of them empty), the
data under names with underscores, rounded to 15 digits, and the materials as integers;
whatever is in memory that `numpy.empty` does not clear.

Left out: meshes without points or cells, names of data that contain a comma or differ by
blanks and underscores only, data without columns: the code violates the claim for them, as
shown below. -/
theorem C64_round_trip_partial (version : Str) {m : AvsMesh} (h : AvsOk m) :
    ∃ r mats, (∀ junk, (do let ls ← writeAvs version m; readAvs junk ls) = .ok r) ∧
      r.points = m.points.map (fun p => [p.x, p.y, p.z]) ∧ typedCells r.cells = typedCells m.cells ∧
      (∀ b ∈ r.cells, b.data ≠ []) ∧ (r.cells.IsChain fun a b => a.type ≠ b.type) ∧
      r.pointData = m.pointData.map dataRead ∧ r.cellData = (otherData m).map dataRead ∧
      r.material = .inl mats ∧ MaterialsOf m mats :=
  avs_round version h

/-- A number. -/
def avsNum (n : ℕ) : Flt := .fin false n

/-- Six points. -/
def avsPoints : List (P3 Flt) :=
  [⟨avsNum 0, avsNum 0, avsNum 0⟩, ⟨avsNum 1, avsNum 0, avsNum 0⟩, ⟨avsNum 1, .fin true 1, avsNum 0⟩,
    ⟨avsNum 0, .fin false (1 / 2), avsNum 0⟩, ⟨avsNum 0, avsNum 0, avsNum 1⟩, ⟨avsNum 0, avsNum 0, avsNum 2⟩]

/-- A pyramid and two tetrahedra in two blocks. -/
def avsExample : AvsMesh where
  points := avsPoints
  cells := [⟨.pyramid, [[0, 1, 2, 3, 4]]⟩, ⟨.tetra, [[0, 1, 2, 5]]⟩, ⟨.tetra, [[1, 2, 3, 5]]⟩]
  pointData := [("a b".toList, ⟨none, avsPoints.map fun _ => [avsNum 3]⟩)]
  cellData := [("material".toList, ⟨none, [[avsNum 1], [avsNum 2], [avsNum 1]]⟩),
    ("v".toList, ⟨some 2, [[avsNum 1, avsNum 2], [avsNum 3, .nan], [avsNum 5, .inf true]]⟩)]

theorem isDouble_num {n : ℕ} (neg : Bool) (h : n < 2 ^ 53) : IsDouble (.fin neg n) :=
  ⟨n, 0, h, by norm_num, by norm_num, by simp⟩

theorem avsExample_ok : AvsOk avsExample where
  points := by
    refine ⟨by decide, by decide, ?_⟩
    have h0 : IsDouble (avsNum 0) := isDouble_num _ (by norm_num)
    have h1 : IsDouble (avsNum 1) := isDouble_num _ (by norm_num)
    have h2 : IsDouble (avsNum 2) := isDouble_num _ (by norm_num)
    have h3 : IsDouble (.fin true 1) := by simpa using isDouble_num (n := 1) true (by norm_num)
    have h4 : IsDouble (.fin false (1 / 2)) := ⟨1, -1, by norm_num, by norm_num, by norm_num, by norm_num⟩
    simp only [avsExample, avsPoints, List.forall_mem_cons, List.not_mem_nil, false_imp_iff, implies_true, and_true]
    exact ⟨⟨h0, h0, h0⟩, ⟨h1, h0, h0⟩, ⟨h1, h3, h0⟩, ⟨h0, h4, h0⟩, ⟨h0, h0, h1⟩, ⟨h0, h0, h2⟩⟩
  cells := ⟨_, List.mem_cons_self, by decide⟩
  vertices := by
    simp only [avsExample, List.forall_mem_cons, List.not_mem_nil, false_imp_iff, implies_true, and_true]
    exact ⟨⟨5, rfl, by decide⟩, ⟨4, rfl, by decide⟩, ⟨4, rfl, by decide⟩⟩
  pointData := ⟨by decide +kernel, by decide +kernel, by decide +kernel, by decide +kernel⟩
  lengths := by decide +kernel
  cellData := ⟨by decide +kernel, by decide +kernel, by decide +kernel, by decide +kernel⟩
  materials := by
    simp only [avsExample, List.forall_mem_cons, List.not_mem_nil, false_imp_iff, implies_true, and_true]
    exact ⟨fun _ => ⟨⟨_, _, rfl⟩, ⟨_, _, rfl⟩, ⟨_, _, rfl⟩⟩, fun h => absurd h (by decide +kernel)⟩
  names := by decide +kernel

/-- C64. The lines of the file that is written. -/
theorem C64_file (version : Str) {m : AvsMesh} (h : AvsPlain m) :
    ∃ mats, MaterialsOf m mats ∧ writeAvs version m = .ok (avsFile version m mats) :=
  avsFile_eq version h

example : avsFile "1.0".toList (⟨[⟨avsNum 0, avsNum 1, avsNum 2⟩], [⟨.other "vertex".toList, [[0]]⟩], [],
    [("a".toList, ⟨some 2, [[avsNum 3, .nan]]⟩)]⟩) [7] =
    ["# Written by toughio v1.0\n".toList, "1 1 0 2 0\n".toList, "1 0.0 1.0 2.0\n".toList, "1 7 pt 1\n".toList,
      "1 2\n".toList, "a, real\n".toList, "1 3.00000000000000e+00 nan\n".toList] := by
  decide +kernel

/-- Points with two coordinates get zero as third. -/
theorem C64_plane (version : Str) (ps : List (Flt × Flt)) (cells : List CellBlock)
    (pd cd : List (Str × NArray)) (h : AvsOk ⟨ps.map fun p : Flt × Flt => ⟨p.1, p.2, .fin false 0⟩, cells, pd, cd⟩) :
    ∃ r, (∀ junk, (do
        let ls ← writeAvsRows version (ps.map fun p : Flt × Flt => [p.1, p.2]) cells pd cd
        readAvs junk ls) = .ok r) ∧
      r.points = ps.map (fun p => [p.1, p.2, .fin false 0]) ∧ typedCells r.cells = typedCells cells ∧
      r.pointData = pd.map dataRead := by
  obtain ⟨r, mats, h1, h2, h3, -, -, h4, -⟩ := avs_round version h
  have hp : (ps.map fun p => [p.1, p.2]).mapM spacePoint =
      .ok (ps.map fun p => ⟨p.1, p.2, .fin false 0⟩) := by
    rw [List.mapM_map]
    exact mapM_ok fun p _ => rfl
  refine ⟨r, fun junk => ?_, ?_, h3, h4⟩
  · rw [writeAvsRows, hp, ok_bind]
    exact h1 junk
  · rw [h2, List.map_map]
    rfl

example : AvsOk ⟨[(avsNum 0, avsNum 0), (avsNum 1, avsNum 0), (avsNum 0, avsNum 2)].map
    fun p : Flt × Flt => ⟨p.1, p.2, .fin false 0⟩, [⟨.triangle, [[0, 1, 2]]⟩], [], []⟩ where
  points := by
    refine ⟨by decide, by decide, ?_⟩
    have h0 : IsDouble (avsNum 0) := isDouble_num _ (by norm_num)
    have h1 : IsDouble (avsNum 1) := isDouble_num _ (by norm_num)
    have h2 : IsDouble (avsNum 2) := isDouble_num _ (by norm_num)
    have h3 : IsDouble (.fin false 0) := by simpa using isDouble_num (n := 0) false (by norm_num)
    simp only [List.map_cons, List.map_nil, List.forall_mem_cons, List.not_mem_nil, false_imp_iff, implies_true,
      and_true]
    exact ⟨⟨h0, h0, h3⟩, ⟨h1, h0, h3⟩, ⟨h0, h2, h3⟩⟩
  cells := ⟨_, List.mem_cons_self, by decide⟩
  vertices := by
    simp only [List.forall_mem_cons, List.not_mem_nil, false_imp_iff, implies_true, and_true]
    exact ⟨3, rfl, by decide⟩
  pointData := ⟨by decide, by decide, by decide, by decide⟩
  lengths := by decide
  cellData := ⟨by decide, by decide, by decide, by decide⟩
  materials := by simp
  names := by decide

/-- Points with three coordinates are written as they are. -/
theorem C64_space (version : Str) (ps : List (P3 Flt)) (cells : List CellBlock) (pd cd : List (Str × NArray)) :
    writeAvsRows version (ps.map fun p => [p.x, p.y, p.z]) cells pd cd = writeAvs version ⟨ps, cells, pd, cd⟩ := by
  have hp : (ps.map fun p => [p.x, p.y, p.z]).mapM spacePoint = .ok ps := by
    rw [List.mapM_map]
    exact (mapM_ok (g := id) fun p _ => rfl).trans (by rw [List.map_id])
  rw [writeAvsRows, hp, ok_bind]

/-- Other numbers of coordinates are refused. -/
theorem C64_coordinates (version : Str) (points : List (List Flt)) (cells : List CellBlock)
    (pd cd : List (Str × NArray)) (h : ∃ p ∈ points, p.length ≠ 2 ∧ p.length ≠ 3) :
    ∃ e, writeAvsRows version points cells pd cd = .error e := by
  cases hw : writeAvsRows version points cells pd cd with
  | error e => exact ⟨e, rfl⟩
  | ok ls =>
    exfalso
    obtain ⟨p, hp, h2, h3⟩ := h
    obtain ⟨qs, hq, -⟩ := bind_eq_ok.1 hw
    obtain ⟨q, hq⟩ := mapM_mem hq hp
    unfold spacePoint at hq
    split at hq
    · exact h2 rfl
    · exact h3 rfl
    · cases hq

example : ∃ p ∈ [[avsNum 1]], p.length ≠ 2 ∧ p.length ≠ 3 := by decide

/-- A cell of a type this format does not know, or a block of such cells, is refused. -/
theorem C64_unknown_type (version : Str) (m : AvsMesh) (h : ∃ b ∈ m.cells, vertexCount b.type = none) :
    ∃ e, writeAvs version m = .error e := by
  cases hw : writeAvs version m with
  | error e => exact ⟨e, rfl⟩
  | ok ls =>
    exfalso
    obtain ⟨b, hb, hn⟩ := h
    rw [writeAvs] at hw
    split at hw
    · cases hw
    · obtain ⟨mats, _, hw⟩ := bind_eq_ok.1 hw
      obtain ⟨cells, hc, _⟩ := bind_eq_ok.1 hw
      obtain ⟨texts, ht, _⟩ := bind_eq_ok.1 hc
      obtain ⟨t, hbt⟩ := mapM_mem ht hb
      rw [avsTexts] at hbt
      obtain ⟨name, hname, _⟩ := bind_eq_ok.1 hbt
      rw [avsName] at hname
      cases hf : avsTypes.find? (fun e => decide (e.1 = b.type)) with
      | none => rw [hf] at hname; cases hname
      | some e =>
        have h1 := List.find?_some hf
        have h2 := List.mem_of_find?_eq_some hf
        have h3 : ∀ e ∈ avsTypes, vertexCount e.1 ≠ none := by decide +kernel
        exact h3 e h2 (by rw [of_decide_eq_true h1]; exact hn)

example : ∃ b ∈ [(⟨.other "polygon".toList, []⟩ : CellBlock)], vertexCount b.type = none := by decide +kernel

/-- Cell data of the wrong length are refused. -/
theorem C64_wrong_length (version : Str) (m : AvsMesh)
    (h : ∃ e ∈ m.cellData, e.2.rows.length ≠ (typedCells m.cells).length) :
    writeAvs version m = .error .valueError := by
  rw [writeAvs, if_pos]
  obtain ⟨e, he, hl⟩ := h
  rw [List.any_eq_true]
  rw [typedCells_length] at hl
  exact ⟨e, he, by simpa using hl⟩

/-- A mesh with one triangle. -/
def avsTriangle (pd cd : List (Str × NArray)) : AvsMesh where
  points := [⟨avsNum 0, avsNum 0, avsNum 0⟩, ⟨avsNum 0, avsNum 0, avsNum 0⟩, ⟨avsNum 0, avsNum 0, avsNum 0⟩]
  cells := [⟨.triangle, [[0, 1, 2]]⟩]
  pointData := pd
  cellData := cd

example : ∃ e ∈ (avsTriangle [] [("v".toList, ⟨none, []⟩)]).cellData,
    e.2.rows.length ≠ (typedCells (avsTriangle [] []).cells).length := by decide +kernel

/-- The names of point and cell data after writing and reading. -/
def avsNames (m : AvsMesh) : Except PyErr (List Str × List Str) := do
  let ls ← writeAvs [] m
  let r ← readAvs .nan ls
  .ok (r.pointData.map (·.1), r.cellData.map (·.1))

/-- A name is cut at a comma, so that data may be lost. -/
theorem C64_comma_violated :
    avsNames (avsTriangle [] [("a,b".toList, ⟨none, [[avsNum 0]]⟩), ("a,c".toList, ⟨none, [[avsNum 0]]⟩)]) =
      .ok ([], ["a".toList]) := by
  decide +kernel

/-- Of two names that differ by a blank and an underscore one is lost. -/
theorem C64_blank_violated :
    avsNames (avsTriangle [] [("a b".toList, ⟨none, [[avsNum 0]]⟩), ("a_b".toList, ⟨none, [[avsNum 0]]⟩)]) =
      .ok ([], ["a_b".toList]) := by
  decide +kernel

/-- Of two arrays that are taken for the material the second is lost. -/
theorem C64_material_violated :
    (do
      let ls ← writeAvs [] (avsTriangle [] [("flac3d:group".toList, ⟨none, [[avsNum 1]]⟩),
        ("material".toList, ⟨none, [[avsNum 2]]⟩)])
      let r ← readAvs .nan ls
      .ok (r.material, r.cellData)) = .ok (.inl [1], []) := by
  decide +kernel

/-- Data without columns are lost if there are no others. -/
theorem C64_columns_violated : avsNames (avsTriangle [("a".toList, ⟨some 0, [[], [], []]⟩)] []) = .ok ([], []) := by
  decide +kernel

/-- A mesh without cells is written, but it cannot be read, whatever its points and their
data. -/
theorem C64_no_cells_violated (version : Str) {m : AvsMesh} (h : AvsPlain m) (h0 : typedCells m.cells = [])
    (junk : Flt) : (∃ ls, writeAvs version m = .ok ls) ∧
      (do let ls ← writeAvs version m; readAvs junk ls) = .error .valueError := by
  obtain ⟨r, mats, hw, h1, -, h3, h4, -⟩ := avs_read version h
  have hr : r.cells = [] := by
    rw [h0] at h3
    cases hc : r.cells with
    | nil => rfl
    | cons b bs =>
      obtain ⟨c, hcm⟩ := List.exists_mem_of_ne_nil _ (h4 b (by rw [hc]; exact List.mem_cons_self))
      have : (b.type, c) ∈ typedCells r.cells :=
        List.mem_flatMap.2 ⟨b, by rw [hc]; exact List.mem_cons_self, List.mem_map.2 ⟨c, hcm, rfl⟩⟩
      rw [h3] at this
      cases this
  have h2 := h1 junk
  rw [if_pos hr] at h2
  exact ⟨hw, h2⟩

example : AvsPlain ⟨[⟨avsNum 0, avsNum 0, avsNum 1⟩], [], [], []⟩ where
  points := by
    refine ⟨by decide, by decide, ?_⟩
    have h0 : IsDouble (avsNum 0) := isDouble_num _ (by norm_num)
    have h1 : IsDouble (avsNum 1) := isDouble_num _ (by norm_num)
    simpa using ⟨h0, h1⟩
  vertices := by decide
  pointData := ⟨by decide, by decide, by decide, by decide⟩
  lengths := by decide
  cellData := ⟨by decide, by decide, by decide, by decide⟩
  materials := by simp
  names := by decide

/-- A mesh without points that is written cannot be read. -/
theorem C64_no_points_violated (version : Str) {m : AvsMesh} (h0 : m.points = []) (ls : List Str)
    (h : writeAvs version m = .ok ls) (junk : Flt) : readAvs junk ls = .error .indexError := by
  rw [writeAvs] at h
  split at h
  · cases h
  · obtain ⟨mats, -, h⟩ := bind_eq_ok.1 h
    obtain ⟨cells, -, h⟩ := bind_eq_ok.1 h
    obtain ⟨pd, -, h⟩ := bind_eq_ok.1 h
    obtain ⟨cd, -, h⟩ := bind_eq_ok.1 h
    cases h
    rw [readAvs, ← countsLine, avsStart_eq]
    simp only
    rw [avsCounts_eq, ok_bind, h0]
    rfl

example : ∃ ls, writeAvs [] ⟨[], [⟨.triangle, []⟩], [], []⟩ = .ok ls := ⟨_, rfl⟩

end Verif.Mesh
