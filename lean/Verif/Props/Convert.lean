import Verif.Lemmas.Convert
import Verif.Props.Resave

/-!
# C99: Mesh files that are converted
-/

namespace Verif.Mesh
open Verif.Py Verif.Model Verif.Spec

/-- C99. An AVS-UCD file that is loaded and saved as a Tecplot file gives the Tecplot file of the
mesh itself.

Left out: meshes without material, numbers of more than 15 digits and arrays of one column (the
claim is violated for them, as shown below), names with blanks, empty blocks, and what C64 and C65
leave out. -/
theorem C99_avs_to_tecplot_partial (version : Str) {m : AvsMesh} (h : AvsOk m) (ht : TecMeshOk m) (hk : AvsKept m) :
    ∃ lines r, writeAvs version m = .ok lines ∧ (∀ junk, readAvs junk lines = .ok r) ∧
      saveAvsAsTec version r = writeTecMesh false version m :=
  avs_to_tec version h ht hk

/-- A pyramid and two tetrahedra in three blocks. -/
def convertExample : AvsMesh where
  points := avsPoints
  cells := [⟨.pyramid, [[0, 1, 2, 3, 4]]⟩, ⟨.tetra, [[0, 1, 2, 5]]⟩, ⟨.tetra, [[1, 2, 3, 5]]⟩]
  pointData := [("a".toList, ⟨none, avsPoints.map fun _ => [avsNum 3]⟩)]
  cellData := [("v".toList, ⟨some 2, [[avsNum 1, avsNum 2], [avsNum 3, .nan], [avsNum 5, .inf true]]⟩),
    ("material".toList, ⟨none, [[avsNum 1], [avsNum 2], [.fin true 1]]⟩)]

theorem convertExample_avs : AvsOk convertExample where
  points := avsExample_ok.points
  cells := ⟨_, List.mem_cons_self, by decide⟩
  vertices := by
    simp only [convertExample, List.forall_mem_cons, List.not_mem_nil, false_imp_iff, implies_true, and_true]
    exact ⟨⟨5, rfl, by decide⟩, ⟨4, rfl, by decide⟩, ⟨4, rfl, by decide⟩⟩
  pointData := ⟨by decide +kernel, by decide +kernel, by decide +kernel, by decide +kernel⟩
  lengths := by decide +kernel
  cellData := ⟨by decide +kernel, by decide +kernel, by decide +kernel, by decide +kernel⟩
  materials := by
    simp only [convertExample, List.forall_mem_cons, List.not_mem_nil, false_imp_iff, implies_true, and_true]
    exact ⟨fun h => absurd h (by decide +kernel), fun _ => ⟨⟨_, _, rfl⟩, ⟨_, _, rfl⟩, ⟨_, _, rfl⟩⟩⟩
  names := by decide +kernel

theorem convertExample_tec : TecMeshOk convertExample where
  first := ⟨_, _, _, _, rfl⟩
  points := tecExample_ok.points
  cells := by decide +kernel
  vertices := by decide +kernel
  solidFirst := by decide +kernel
  pointShape := by
    have h3 : IsDouble (avsNum 3) := isDouble_num _ (by norm_num)
    simp only [convertExample, avsPoints, List.forall_mem_cons, List.not_mem_nil, false_imp_iff, implies_true,
      and_true, List.map_cons, List.map_nil, List.length_cons, List.length_nil, Option.getD_none, true_and]
    exact ⟨h3, h3, h3, h3, h3, h3⟩
  cellShape := by
    have h1 : IsDouble (avsNum 1) := isDouble_num _ (by norm_num)
    have h1' : IsDouble (.fin true 1) := by simpa using isDouble_num (n := 1) true (by norm_num)
    have h2 : IsDouble (avsNum 2) := isDouble_num _ (by norm_num)
    have h3 : IsDouble (avsNum 3) := isDouble_num _ (by norm_num)
    have h5 : IsDouble (avsNum 5) := isDouble_num _ (by norm_num)
    have hn : IsDouble .nan := trivial
    have hi : IsDouble (.inf true) := trivial
    simp only [convertExample, List.forall_mem_cons, List.not_mem_nil, false_imp_iff, implies_true, and_true]
    exact ⟨⟨by decide, ⟨by decide, h1, h2⟩, ⟨by decide, h3, hn⟩, by decide, h5, hi⟩, ⟨by decide, ⟨by decide, h1⟩, ⟨by decide, h2⟩, by decide, h1'⟩⟩
  names := by decide +kernel
  distinct := by decide +kernel
  material := by decide +kernel

example : AvsOk convertExample ∧
    TecMeshOk convertExample ∧
    AvsKept convertExample :=
  ⟨convertExample_avs, convertExample_tec, by decide +kernel, by decide +kernel, by decide +kernel, by decide +kernel,
    [1, 2, -1], by decide +kernel⟩

/-- The same cells with other data. -/
def otherExample (w : Option ℕ) (x : Flt) (material : List (Str × NArray)) : AvsMesh :=
  ⟨convertExample.points, convertExample.cells, [("a".toList, ⟨w, avsPoints.map fun _ => [x]⟩)],
    otherData convertExample ++ material⟩

/-- The material of the three cells. -/
def convertMaterial : List (Str × NArray) := [("material".toList, ⟨none, [[avsNum 1], [avsNum 2], [.fin true 1]]⟩)]

/-- The Tecplot file of a mesh by way of an AVS-UCD file. -/
def byWayOfAvs (m : AvsMesh) : Except PyErr (List Str) := do
  let lines ← writeAvs "1".toList m
  let r ← readAvs .nan lines
  saveAvsAsTec "1".toList r

/-- Cells without material get the material zero. -/
theorem C99_material_violated :
    byWayOfAvs (otherExample none (avsNum 3) []) =
      writeTecMesh false "1".toList (otherExample none (avsNum 3)
        [("material".toList, ⟨none, [[avsNum 0], [avsNum 0], [avsNum 0]]⟩)]) ∧
    byWayOfAvs (otherExample none (avsNum 3) []) ≠
      writeTecMesh false "1".toList (otherExample none (avsNum 3) []) := by
  constructor <;> decide +kernel

/-- Numbers lose their digits after the fifteenth. -/
theorem C99_digits_violated :
    byWayOfAvs (otherExample none (avsNum 1000000000000001) convertMaterial) =
      writeTecMesh false "1".toList (otherExample none (avsNum 1000000000000000) convertMaterial) ∧
    byWayOfAvs (otherExample none (avsNum 1000000000000001) convertMaterial) ≠
      writeTecMesh false "1".toList (otherExample none (avsNum 1000000000000001) convertMaterial) := by
  constructor <;> decide +kernel

/-- An array with one column becomes a flat one, so that its variable has another name. -/
theorem C99_column_violated :
    byWayOfAvs (otherExample (some 1) (avsNum 3) convertMaterial) =
      writeTecMesh false "1".toList convertExample ∧
    byWayOfAvs (otherExample (some 1) (avsNum 3) convertMaterial) ≠
      writeTecMesh false "1".toList (otherExample (some 1) (avsNum 3) convertMaterial) := by
  constructor <;> decide +kernel

/-- C99. A Tecplot file that is loaded and saved as an AVS-UCD file gives the AVS-UCD file of the
mesh itself.

Left out: cells that have no zone of their own and arrays of several columns (the claim is violated
for them, as shown below), and what C64, C65 and C98 leave out. -/
theorem C99_tecplot_to_avs_partial (flat : Bool) (version : Str) {m : AvsMesh} (h : TecMeshOk m) (hs : TecSettled m)
    (ha : AvsPlain m) (hk : TecKept flat m) :
    ∃ lines r, writeTecMesh flat version m = .ok lines ∧ readTecMesh lines = .ok r ∧
      saveTecAsAvs version r = writeAvs version m :=
  tec_to_avs flat version h hs ha hk

/-- Two tetrahedra in two blocks. -/
def tetraExample (cells : List CellBlock) (v : NArray) : AvsMesh where
  points := avsPoints
  cells := cells
  pointData := [("a".toList, ⟨none, avsPoints.map fun _ => [.fin false (1 / 2)]⟩)]
  cellData := [("v".toList, v), ("material".toList, ⟨none, [[avsNum 1], [avsNum 2]]⟩)]

/-- The blocks. -/
def twoTetras : List CellBlock := [⟨.tetra, [[0, 1, 2, 5]]⟩, ⟨.tetra, [[1, 2, 3, 5]]⟩]

/-- A flat array. -/
def flatValues : NArray := ⟨none, [[avsNum 3], [.nan]]⟩

theorem tetraExample_avs : AvsPlain (tetraExample twoTetras flatValues) where
  points := avsExample_ok.points
  vertices := by
    simp only [tetraExample, twoTetras, List.forall_mem_cons, List.not_mem_nil, false_imp_iff, implies_true, and_true]
    exact ⟨⟨4, rfl, by decide⟩, ⟨4, rfl, by decide⟩⟩
  pointData := ⟨by decide +kernel, by decide +kernel, by decide +kernel, by decide +kernel⟩
  lengths := by decide +kernel
  cellData := ⟨by decide +kernel, by decide +kernel, by decide +kernel, by decide +kernel⟩
  materials := by
    simp only [tetraExample, flatValues, List.forall_mem_cons, List.not_mem_nil, false_imp_iff, implies_true, and_true]
    exact ⟨fun h => absurd h (by decide +kernel), fun _ => ⟨⟨_, _, rfl⟩, ⟨_, _, rfl⟩⟩⟩
  names := by decide +kernel

theorem tetraExample_tec : TecMeshOk (tetraExample twoTetras flatValues) where
  first := ⟨_, _, _, _, rfl⟩
  points := tecExample_ok.points
  cells := by decide +kernel
  vertices := by decide +kernel
  solidFirst := by decide +kernel
  pointShape := by
    have h3 : IsDouble (.fin false (1 / 2)) :=
      (avsExample_ok.points.2.2 ⟨avsNum 0, .fin false (1 / 2), avsNum 0⟩ (by decide +kernel)).2.1
    simp only [tetraExample, avsPoints, List.forall_mem_cons, List.not_mem_nil, false_imp_iff, implies_true,
      and_true, List.map_cons, List.map_nil, List.length_cons, List.length_nil, Option.getD_none, true_and]
    exact ⟨h3, h3, h3, h3, h3, h3⟩
  cellShape := by
    have h1 : IsDouble (avsNum 1) := isDouble_num _ (by norm_num)
    have h2 : IsDouble (avsNum 2) := isDouble_num _ (by norm_num)
    have h3 : IsDouble (avsNum 3) := isDouble_num _ (by norm_num)
    have hn : IsDouble .nan := trivial
    simp only [tetraExample, flatValues, List.forall_mem_cons, List.not_mem_nil, false_imp_iff, implies_true, and_true]
    exact ⟨⟨by decide, ⟨by decide, h3⟩, by decide, hn⟩, ⟨by decide, ⟨by decide, h1⟩, by decide, h2⟩⟩
  names := by decide +kernel
  distinct := by decide +kernel
  material := by decide +kernel

example : TecMeshOk (tetraExample twoTetras flatValues) ∧ TecSettled (tetraExample twoTetras flatValues) ∧
    AvsPlain (tetraExample twoTetras flatValues) ∧ TecKept false (tetraExample twoTetras flatValues) :=
  ⟨tetraExample_tec, ⟨by decide +kernel, by decide +kernel⟩, tetraExample_avs,
    ⟨⟨.tetra, by decide, by decide +kernel⟩, by decide, by decide +kernel, by decide +kernel⟩⟩

/-- The AVS-UCD file of a mesh by way of a Tecplot file. -/
def byWayOfTec (m : AvsMesh) : Except PyErr (List Str) := do
  let lines ← writeTecMesh false "1".toList m
  let r ← readTecMesh lines
  saveTecAsAvs "1".toList r

/-- A pyramid and a tetrahedron become hexahedra. -/
theorem C99_type_violated :
    byWayOfTec (tetraExample [⟨.pyramid, [[0, 1, 2, 3, 4]]⟩, ⟨.tetra, [[1, 2, 3, 5]]⟩] flatValues) =
      writeAvs "1".toList (tetraExample [⟨.hexahedron, [[0, 1, 2, 3, 4, 4, 4, 4], [1, 2, 3, 3, 5, 5, 5, 5]]⟩] flatValues) ∧
    byWayOfTec (tetraExample [⟨.pyramid, [[0, 1, 2, 3, 4]]⟩, ⟨.tetra, [[1, 2, 3, 5]]⟩] flatValues) ≠
      writeAvs "1".toList (tetraExample [⟨.pyramid, [[0, 1, 2, 3, 4]]⟩, ⟨.tetra, [[1, 2, 3, 5]]⟩] flatValues) := by
  constructor <;> decide +kernel

/-- An array with two columns becomes two arrays. -/
theorem C99_vector_violated :
    (byWayOfTec (tetraExample twoTetras ⟨some 2, [[avsNum 1, avsNum 2], [avsNum 3, .nan]]⟩)).toBool = true ∧
    byWayOfTec (tetraExample twoTetras ⟨some 2, [[avsNum 1, avsNum 2], [avsNum 3, .nan]]⟩) ≠
      writeAvs "1".toList (tetraExample twoTetras ⟨some 2, [[avsNum 1, avsNum 2], [avsNum 3, .nan]]⟩) := by
  constructor <;> decide +kernel

end Verif.Mesh
