import Verif.Lemmas.Resave

/-!
# C98: Mesh files that are loaded and saved
-/

namespace Verif.Mesh
open Verif.Py Verif.Model Verif.Spec

/-- C98. The AVS-UCD file of a mesh that is loaded and saved stays the same.

Left out: names that the file does not keep (the claim is violated for them, as shown below);
numbers outside the range in which floats have full precision. -/
theorem C98_avs_partial (version : Str) {m : AvsMesh} (h : AvsOk m) (hs : AvsSettled m) :
    ∃ lines r, writeAvs version m = .ok lines ∧ (∀ junk, readAvs junk lines = .ok r) ∧
      saveAvsRead version r = .ok lines :=
  avs_again version h hs

/-- A pyramid and two tetrahedra with data whose numbers are rounded. -/
def settledExample : AvsMesh where
  points := avsPoints
  cells := [⟨.pyramid, [[0, 1, 2, 3, 4]]⟩, ⟨.tetra, [[0, 1, 2, 5]]⟩, ⟨.tetra, [[1, 2, 3, 5]]⟩]
  pointData := [("a_b".toList, ⟨some 1, avsPoints.map fun _ => [.fin false (1 / 3)]⟩)]
  cellData := [("v".toList, ⟨some 2, [[avsNum 1, avsNum 2], [avsNum 3, .nan], [avsNum 5, .inf true]]⟩),
    ("gmsh:physical".toList, ⟨none, [[.fin true (5 / 2)], [avsNum 2], [avsNum 1]]⟩)]

theorem settledExample_ok : AvsOk settledExample where
  points := avsExample_ok.points
  cells := ⟨_, List.mem_cons_self, by decide⟩
  vertices := by
    simp only [settledExample, List.forall_mem_cons, List.not_mem_nil, false_imp_iff, implies_true, and_true]
    exact ⟨⟨5, rfl, by decide⟩, ⟨4, rfl, by decide⟩, ⟨4, rfl, by decide⟩⟩
  pointData := ⟨by decide +kernel, by decide +kernel, by decide +kernel, by decide +kernel⟩
  lengths := by decide +kernel
  cellData := ⟨by decide +kernel, by decide +kernel, by decide +kernel, by decide +kernel⟩
  materials := by
    simp only [settledExample, List.forall_mem_cons, List.not_mem_nil, false_imp_iff, implies_true, and_true]
    exact ⟨fun h => absurd h (by decide +kernel), fun _ => ⟨⟨_, _, rfl⟩, ⟨_, _, rfl⟩, ⟨_, _, rfl⟩⟩⟩
  names := by decide +kernel

example : AvsOk settledExample ∧ AvsSettled settledExample :=
  ⟨settledExample_ok, by decide +kernel, by decide +kernel⟩

/-- Names with blanks are changed. -/
theorem C98_avs_names_violated : ∃ m lines lines' r, AvsOk m ∧ writeAvs "1".toList m = .ok lines ∧
    (∀ junk, readAvs junk lines = .ok r) ∧ saveAvsRead "1".toList r = .ok lines' ∧ lines ≠ lines' := by
  obtain ⟨r, mats, h1, -⟩ := C64_round_trip_partial "1".toList avsExample_ok
  obtain ⟨mats', -, hw⟩ := C64_file "1".toList avsExample_ok.toAvsPlain
  have hd : (do let ls ← writeAvs "1".toList avsExample; let r ← readAvs .nan ls; saveAvsRead "1".toList r) ≠
      writeAvs "1".toList avsExample := by decide +kernel
  have hk : ((do let ls ← writeAvs "1".toList avsExample; let r ← readAvs .nan ls; saveAvsRead "1".toList r).toBool) =
      true := by decide +kernel
  have h1' : ∀ junk, readAvs junk (avsFile "1".toList avsExample mats') = .ok r := fun junk => by
    have := h1 junk
    rwa [hw, ok_bind] at this
  rw [hw, ok_bind, h1' .nan, ok_bind] at hd hk
  cases hs : saveAvsRead "1".toList r with
  | error e =>
    rw [hs] at hk
    cases hk
  | ok lines' =>
    rw [hs] at hd
    exact ⟨_, _, lines', r, avsExample_ok, hw, h1', hs, fun h => hd (congrArg _ h.symm)⟩

/-- C98. The Tecplot file of a mesh that is loaded and saved stays the same, also if the cells
were written as cells of another type.

Left out: names of two words and materials that have another name or do not come last (the
claim is violated for them, as shown below), and what C65 leaves out. -/
theorem C98_tecplot_partial (flat : Bool) (version : Str) {m : AvsMesh} (h : TecMeshOk m) (hs : TecSettled m) :
    ∃ lines r, writeTecMesh flat version m = .ok lines ∧ readTecMesh lines = .ok r ∧
      saveTecRead version r = .ok lines :=
  tec_again flat version h hs

/-- A pyramid and two tetrahedra, written as hexahedra. -/
def tecSettledExample : AvsMesh where
  points := avsPoints
  cells := [⟨.pyramid, [[0, 1, 2, 3, 4]]⟩, ⟨.tetra, [[0, 1, 2, 5]]⟩, ⟨.tetra, [[1, 2, 3, 5]]⟩]
  pointData := [("a".toList, ⟨some 1, avsPoints.map fun _ => [avsNum 3]⟩)]
  cellData := [("v".toList, ⟨some 2, [[avsNum 1, avsNum 2], [avsNum 3, .nan], [avsNum 5, .inf true]]⟩),
    ("material".toList, ⟨none, [[avsNum 1], [avsNum 2], [avsNum 1]]⟩)]

theorem tecSettledExample_ok : TecMeshOk tecSettledExample where
  first := ⟨_, _, _, _, rfl⟩
  points := tecExample_ok.points
  cells := by decide +kernel
  vertices := by decide +kernel
  solidFirst := by decide +kernel
  pointShape := by
    have h3 : IsDouble (avsNum 3) := isDouble_num _ (by norm_num)
    simp only [tecSettledExample, avsPoints, List.forall_mem_cons, List.not_mem_nil, false_imp_iff, implies_true, and_true,
      List.map_cons, List.map_nil, List.length_cons, List.length_nil, Option.getD_some, true_and]
    exact ⟨h3, h3, h3, h3, h3, h3⟩
  cellShape := by
    have h1 : IsDouble (avsNum 1) := isDouble_num _ (by norm_num)
    have h2 : IsDouble (avsNum 2) := isDouble_num _ (by norm_num)
    have h3 : IsDouble (avsNum 3) := isDouble_num _ (by norm_num)
    have h5 : IsDouble (avsNum 5) := isDouble_num _ (by norm_num)
    have hn : IsDouble .nan := trivial
    have hi : IsDouble (.inf true) := trivial
    simp only [tecSettledExample, List.forall_mem_cons, List.not_mem_nil, false_imp_iff, implies_true, and_true]
    exact ⟨⟨by decide, ⟨by decide, h1, h2⟩, ⟨by decide, h3, hn⟩, by decide, h5, hi⟩, ⟨by decide, ⟨by decide, h1⟩, ⟨by decide, h2⟩, by decide, h1⟩⟩
  names := by decide +kernel
  distinct := by decide +kernel
  material := by decide +kernel

example : TecMeshOk tecSettledExample ∧ TecSettled tecSettledExample :=
  ⟨tecSettledExample_ok, by decide +kernel, by decide +kernel⟩

theorem tec_changed {m : AvsMesh} (h : TecMeshOk m)
    (hd : (do let ls ← writeTecMesh false "1".toList m; let r ← readTecMesh ls; saveTecRead "1".toList r) ≠
      writeTecMesh false "1".toList m)
    (hk : (do let ls ← writeTecMesh false "1".toList m; let r ← readTecMesh ls; saveTecRead "1".toList r).toBool =
      true) :
    ∃ lines lines' r, writeTecMesh false "1".toList m = .ok lines ∧ readTecMesh lines = .ok r ∧
      saveTecRead "1".toList r = .ok lines' ∧ lines ≠ lines' := by
  obtain ⟨r, h1, -⟩ := C65_round_trip_partial false "1".toList h
  obtain ⟨shape, -, hw⟩ := C65_file false "1".toList h
  rw [hw, ok_bind] at h1
  rw [hw, ok_bind, h1, ok_bind] at hd hk
  cases hs : saveTecRead "1".toList r with
  | error e =>
    rw [hs] at hk
    cases hk
  | ok lines' =>
    rw [hs] at hd
    exact ⟨_, lines', r, hw, h1, hs, fun h => hd (congrArg _ h.symm)⟩

/-- A pyramid and two tetrahedra, with a name of two words. -/
def tecBlankExample : AvsMesh where
  points := avsPoints
  cells := [⟨.pyramid, [[0, 1, 2, 3, 4]]⟩, ⟨.tetra, [[0, 1, 2, 5]]⟩, ⟨.tetra, [[1, 2, 3, 5]]⟩]
  pointData := [("a b".toList, ⟨some 1, avsPoints.map fun _ => [avsNum 3]⟩)]
  cellData := [("v".toList, ⟨some 2, [[avsNum 1, avsNum 2], [avsNum 3, .nan], [avsNum 5, .inf true]]⟩),
    ("material".toList, ⟨none, [[avsNum 1], [avsNum 2], [avsNum 1]]⟩)]

theorem tecBlankExample_ok : TecMeshOk tecBlankExample where
  first := ⟨_, _, _, _, rfl⟩
  points := tecExample_ok.points
  cells := by decide +kernel
  vertices := by decide +kernel
  solidFirst := by decide +kernel
  pointShape := by
    have h3 : IsDouble (avsNum 3) := isDouble_num _ (by norm_num)
    simp only [tecBlankExample, avsPoints, List.forall_mem_cons, List.not_mem_nil, false_imp_iff, implies_true, and_true,
      List.map_cons, List.map_nil, List.length_cons, List.length_nil, Option.getD_some, true_and]
    exact ⟨h3, h3, h3, h3, h3, h3⟩
  cellShape := by
    have h1 : IsDouble (avsNum 1) := isDouble_num _ (by norm_num)
    have h2 : IsDouble (avsNum 2) := isDouble_num _ (by norm_num)
    have h3 : IsDouble (avsNum 3) := isDouble_num _ (by norm_num)
    have h5 : IsDouble (avsNum 5) := isDouble_num _ (by norm_num)
    have hn : IsDouble .nan := trivial
    have hi : IsDouble (.inf true) := trivial
    simp only [tecBlankExample, List.forall_mem_cons, List.not_mem_nil, false_imp_iff, implies_true, and_true]
    exact ⟨⟨by decide, ⟨by decide, h1, h2⟩, ⟨by decide, h3, hn⟩, by decide, h5, hi⟩, ⟨by decide, ⟨by decide, h1⟩, ⟨by decide, h2⟩, by decide, h1⟩⟩
  names := by decide +kernel
  distinct := by decide +kernel
  material := by decide +kernel

/-- A pyramid and two tetrahedra, with the material in front. -/
def tecOrderExample : AvsMesh where
  points := avsPoints
  cells := [⟨.pyramid, [[0, 1, 2, 3, 4]]⟩, ⟨.tetra, [[0, 1, 2, 5]]⟩, ⟨.tetra, [[1, 2, 3, 5]]⟩]
  pointData := [("a".toList, ⟨some 1, avsPoints.map fun _ => [avsNum 3]⟩)]
  cellData := [("material".toList, ⟨none, [[avsNum 1], [avsNum 2], [avsNum 1]]⟩),
    ("v".toList, ⟨some 2, [[avsNum 1, avsNum 2], [avsNum 3, .nan], [avsNum 5, .inf true]]⟩)]

theorem tecOrderExample_ok : TecMeshOk tecOrderExample where
  first := ⟨_, _, _, _, rfl⟩
  points := tecExample_ok.points
  cells := by decide +kernel
  vertices := by decide +kernel
  solidFirst := by decide +kernel
  pointShape := by
    have h3 : IsDouble (avsNum 3) := isDouble_num _ (by norm_num)
    simp only [tecOrderExample, avsPoints, List.forall_mem_cons, List.not_mem_nil, false_imp_iff, implies_true, and_true,
      List.map_cons, List.map_nil, List.length_cons, List.length_nil, Option.getD_some, true_and]
    exact ⟨h3, h3, h3, h3, h3, h3⟩
  cellShape := by
    have h1 : IsDouble (avsNum 1) := isDouble_num _ (by norm_num)
    have h2 : IsDouble (avsNum 2) := isDouble_num _ (by norm_num)
    have h3 : IsDouble (avsNum 3) := isDouble_num _ (by norm_num)
    have h5 : IsDouble (avsNum 5) := isDouble_num _ (by norm_num)
    have hn : IsDouble .nan := trivial
    have hi : IsDouble (.inf true) := trivial
    simp only [tecOrderExample, List.forall_mem_cons, List.not_mem_nil, false_imp_iff, implies_true, and_true]
    exact ⟨⟨by decide, ⟨by decide, h1⟩, ⟨by decide, h2⟩, by decide, h1⟩, ⟨by decide, ⟨by decide, h1, h2⟩, ⟨by decide, h3, hn⟩, by decide, h5, hi⟩⟩
  names := by decide +kernel
  distinct := by decide +kernel
  material := by decide +kernel

/-- Names with blanks are changed. -/
theorem C98_tecplot_names_violated : ∃ m, TecMeshOk m ∧ materialLast (cellVariables m) = cellVariables m ∧
    ∃ lines lines' r, writeTecMesh false "1".toList m = .ok lines ∧ readTecMesh lines = .ok r ∧
      saveTecRead "1".toList r = .ok lines' ∧ lines ≠ lines' :=
  ⟨tecBlankExample, tecBlankExample_ok, by decide +kernel,
    tec_changed tecBlankExample_ok (by decide +kernel) (by decide +kernel)⟩

/-- A material that does not come last changes its place. -/
theorem C98_tecplot_order_violated : ∃ m, TecMeshOk m ∧
    (∀ e ∈ pointVariables m ++ cellVariables m, wordsJoined e.1 = e.1) ∧
    ∃ lines lines' r, writeTecMesh false "1".toList m = .ok lines ∧ readTecMesh lines = .ok r ∧
      saveTecRead "1".toList r = .ok lines' ∧ lines ≠ lines' :=
  ⟨tecOrderExample, tecOrderExample_ok, by decide +kernel,
    tec_changed tecOrderExample_ok (by decide +kernel) (by decide +kernel)⟩

end Verif.Mesh
