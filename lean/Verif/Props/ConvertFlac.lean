import Verif.Lemmas.ConvertFlac
import Verif.Props.Convert

/-!
# C100: Mesh files of FLAC3D that are converted
-/

namespace Verif.Mesh
open Verif.Py Verif.Model Verif.Spec

/-- C100. A text file for FLAC3D that is loaded and saved as an AVS-UCD file gives the AVS-UCD file
of the mesh itself.

Left out: zones that are not right-handed and materials that are not numbered from one (the claim
is violated for them, as shown below), coordinates of more digits than are written, faces before
zones, cells with more vertices than corners, and what C64 and C66 leave out. -/
theorem C100_flac_to_avs_partial (p : ℕ) (pos : P3 Flt → P3 Flt → P3 Flt → P3 Flt → Bool) (version date : Str)
    {m : FlacMesh} (h : FlacOk m) (hg : ∀ mat, materialOfCells m = some mat → TextGroupsOk m mat)
    (hk : FlacKept (quant p) pos m) (ha : AvsPlain (plainMesh m)) :
    ∃ lines r, writeFlac p pos version date m = .ok lines ∧ readFlac lines = .ok r ∧
      saveFlacAsAvs version r = writeAvs version (plainMesh m) := by
  obtain ⟨lines, r, m', h1, h2, h3, h4, h5, h6, h7⟩ := flac_text_kept p pos version date h hg hk
  exact ⟨lines, r, h1, h2, kept_to_avs version ha h3 h4 h5 h6 h7⟩

/-- A tetrahedron, a wedge that is right-handed for FLAC3D, and two triangles. -/
def rightExample : FlacMesh where
  points := [⟨.fin false 0, .fin false 0, .fin false 0⟩, ⟨.fin false 1, .fin false 0, .fin false 0⟩,
    ⟨.fin false 0, .fin false 1, .fin false 0⟩, ⟨.fin false 0, .fin false 0, .fin false 1⟩,
    ⟨.fin false 1, .fin false 0, .fin false 1⟩, ⟨.fin false 0, .fin false 1, .fin false 1⟩]
  cells := [⟨.tetra, [[0, 1, 2, 3]]⟩, ⟨.wedge, [[0, 2, 1, 3, 5, 4]]⟩, ⟨.triangle, [[0, 1, 2], [3, 4, 5]]⟩]
  cellData := [("material".toList, [2, 1, 3, 3])]
  fieldData := [("rock".toList, 1, 3), ("fault".toList, 3, 2)]

theorem rightExample_material : materialOfCells rightExample = some [2, 1, 3, 3] := by decide

theorem rightExample_ok : FlacOk rightExample where
  cells := ⟨⟨.tetra, [[0, 1, 2, 3]]⟩, by decide, by decide⟩
  vertices := by
    intro b hb d t n hs
    fin_cases hb <;> cases hs <;> decide
  lengths := by decide

theorem rightExample_groups : TextGroupsOk rightExample [2, 1, 3, 3] where
  known := by decide
  order := by decide
  different := by decide +kernel
  words := by decide +kernel
  single := by decide +kernel

theorem rightExample_bin : BinGroupsOk rightExample [2, 1, 3, 3] :=
  ⟨rightExample_groups.toGroupsOk, by decide +kernel, by decide +kernel⟩

theorem rightExample_doubles : ∀ q ∈ rightExample.points, IsDouble q.x ∧ IsDouble q.y ∧ IsDouble q.z :=
  flacExample2_ok.2.1.doubles

theorem rightExample_kept {num : Flt → Flt}
    (hq : ∀ q ∈ rightExample.points, num q.x = q.x ∧ num q.y = q.y ∧ num q.z = q.z) :
    FlacKept num turnsRight rightExample where
  zones := by decide
  corners := by decide
  right := by
    intro e he
    have hl : cornersOf 3 rightExample.cells = [(.tetra, [0, 1, 2, 3]), (.wedge, [0, 2, 1, 3, 5, 4])] := by decide
    rw [hl] at he
    rw [isRightHanded_iff]
    fin_cases he <;> decide +kernel
  digits := hq
  numbers := by
    intro mat hm
    rw [rightExample_material] at hm
    cases hm
    exact ⟨3, by decide +kernel⟩

theorem rightExample_avs : AvsPlain (plainMesh rightExample) where
  points := ⟨by decide, by decide, rightExample_doubles⟩
  vertices := by
    simp only [plainMesh, rightExample, List.forall_mem_cons, List.not_mem_nil, false_imp_iff, implies_true, and_true]
    exact ⟨⟨4, rfl, by decide⟩, ⟨6, rfl, by decide⟩, ⟨3, rfl, by decide⟩⟩
  pointData := ⟨by decide +kernel, by decide +kernel, by decide +kernel, by decide +kernel⟩
  lengths := by decide +kernel
  cellData := ⟨by decide +kernel, by decide +kernel, by decide +kernel, by decide +kernel⟩
  materials := by
    have : (plainMesh rightExample).cellData = [("material".toList, ⟨none, [[.fin false 2], [.fin false 1], [.fin false 3],
      [.fin false 3]]⟩)] := by decide +kernel
    rw [this]
    simp only [List.forall_mem_cons, List.not_mem_nil, false_imp_iff, implies_true, and_true]
    exact fun _ => ⟨⟨_, _, rfl⟩, ⟨_, _, rfl⟩, ⟨_, _, rfl⟩, ⟨_, _, rfl⟩⟩
  names := by decide +kernel

example : FlacOk rightExample ∧ (∀ mat, materialOfCells rightExample = some mat → TextGroupsOk rightExample mat) ∧
    FlacKept (quant 16) turnsRight rightExample ∧ AvsPlain (plainMesh rightExample) := by
  refine ⟨rightExample_ok, fun mat hm => ?_, rightExample_kept fun q hq => ?_, rightExample_avs⟩
  · rw [rightExample_material] at hm
    cases hm
    exact rightExample_groups
  · obtain ⟨h1, h2, h3⟩ := rightExample_doubles q hq
    exact ⟨quant_double (le_refl _) h1, quant_double (le_refl _) h2, quant_double (le_refl _) h3⟩

/-- C100. So it is for binary files. -/
theorem C100_flac_binary_to_avs_partial (pos : P3 Flt → P3 Flt → P3 Flt → P3 Flt → Bool) (version : Str)
    {m : FlacMesh} (h : FlacOk m) (hb : BinOk m) (hg : ∀ mat, materialOfCells m = some mat → BinGroupsOk m mat)
    (hk : FlacKept id pos m) (ha : AvsPlain (plainMesh m)) :
    ∃ bytes r, writeFlacBin pos m = .ok bytes ∧ readFlacBin bytes = .ok r ∧
      saveFlacAsAvs version r = writeAvs version (plainMesh m) := by
  obtain ⟨bytes, r, m', h1, h2, h3, h4, h5, h6, h7⟩ := flac_bin_kept pos h hb hg hk
  exact ⟨bytes, r, h1, h2, kept_to_avs version ha h3 h4 h5 h6 h7⟩

example : FlacOk rightExample ∧ BinOk rightExample ∧
    (∀ mat, materialOfCells rightExample = some mat → BinGroupsOk rightExample mat) ∧
    FlacKept id turnsRight rightExample ∧ AvsPlain (plainMesh rightExample) := by
  refine ⟨rightExample_ok, ⟨rightExample_doubles, by decide, by decide⟩, fun mat hm => ?_,
    rightExample_kept fun q hq => ⟨rfl, rfl, rfl⟩, rightExample_avs⟩
  rw [rightExample_material] at hm
  cases hm
  exact rightExample_bin

/-- C100. A file for FLAC3D that is loaded and saved as a Tecplot file gives the Tecplot file of
the mesh itself. What is left out is the same, with C65 in place of C64, and empty blocks. -/
theorem C100_flac_to_tecplot_partial (p : ℕ) (pos : P3 Flt → P3 Flt → P3 Flt → P3 Flt → Bool) (version date : Str)
    {m : FlacMesh} (h : FlacOk m) (hg : ∀ mat, materialOfCells m = some mat → TextGroupsOk m mat)
    (hk : FlacKept (quant p) pos m) (ht : TecMeshOk (plainMesh m)) (hb : ∀ b ∈ m.cells, b.data ≠ []) :
    ∃ lines r, writeFlac p pos version date m = .ok lines ∧ readFlac lines = .ok r ∧
      saveFlacAsTec version r = writeTecMesh false version (plainMesh m) := by
  obtain ⟨lines, r, m', h1, h2, h3, h4, h5, h6, h7⟩ := flac_text_kept p pos version date h hg hk
  exact ⟨lines, r, h1, h2, kept_to_tec version ht hb h3 h4 h5 h6 h7⟩

/-- C100. So it is for binary files. -/
theorem C100_flac_binary_to_tecplot_partial (pos : P3 Flt → P3 Flt → P3 Flt → P3 Flt → Bool) (version : Str)
    {m : FlacMesh} (h : FlacOk m) (hb : BinOk m) (hg : ∀ mat, materialOfCells m = some mat → BinGroupsOk m mat)
    (hk : FlacKept id pos m) (ht : TecMeshOk (plainMesh m)) (hf : ∀ b ∈ m.cells, b.data ≠ []) :
    ∃ bytes r, writeFlacBin pos m = .ok bytes ∧ readFlacBin bytes = .ok r ∧
      saveFlacAsTec version r = writeTecMesh false version (plainMesh m) := by
  obtain ⟨bytes, r, m', h1, h2, h3, h4, h5, h6, h7⟩ := flac_bin_kept pos h hb hg hk
  exact ⟨bytes, r, h1, h2, kept_to_tec version ht hf h3 h4 h5 h6 h7⟩

theorem rightExample_tec : TecMeshOk (plainMesh rightExample) where
  first := ⟨_, _, _, _, rfl⟩
  points := rightExample_doubles
  cells := by decide +kernel
  vertices := by decide +kernel
  solidFirst := by decide +kernel
  pointShape := by
    intro e he
    cases he
  cellShape := by
    have h1 : IsDouble (.fin false 1) := by simpa using isDouble_num (n := 1) false (by norm_num)
    have h2 : IsDouble (.fin false 2) := by simpa using isDouble_num (n := 2) false (by norm_num)
    have h3 : IsDouble (.fin false 3) := by simpa using isDouble_num (n := 3) false (by norm_num)
    have : (plainMesh rightExample).cellData = [("material".toList, ⟨none, [[.fin false 2], [.fin false 1], [.fin false 3],
      [.fin false 3]]⟩)] := by decide +kernel
    rw [this]
    simp only [List.forall_mem_cons, List.not_mem_nil, false_imp_iff, implies_true, and_true]
    exact ⟨by decide, ⟨by decide, h2⟩, ⟨by decide, h1⟩, ⟨by decide, h3⟩, by decide, h3⟩
  names := by decide +kernel
  distinct := by decide +kernel
  material := by decide +kernel

example : FlacKept id turnsRight rightExample ∧ TecMeshOk (plainMesh rightExample) ∧
    ∀ b ∈ rightExample.cells, b.data ≠ [] :=
  ⟨rightExample_kept fun q hq => ⟨rfl, rfl, rfl⟩, rightExample_tec, by decide⟩

/-- The AVS-UCD file of a mesh by way of a file for FLAC3D. -/
def byWayOfFlac (m : FlacMesh) : Except PyErr (List Str) := do
  let lines ← writeFlac 2 turnsRight "1".toList "today".toList m
  let r ← readFlac lines
  saveFlacAsAvs "1".toList r

/-- Materials get other numbers: five becomes one. -/
theorem C100_numbers_violated :
    byWayOfFlac { rightExample with cellData := [("material".toList, [5, 5, 7, 7])] } =
      writeAvs "1".toList (plainMesh { rightExample with cellData := [("material".toList, [1, 1, 2, 2])] }) ∧
    byWayOfFlac { rightExample with cellData := [("material".toList, [5, 5, 7, 7])] } ≠
      writeAvs "1".toList (plainMesh { rightExample with cellData := [("material".toList, [5, 5, 7, 7])] }) := by
  constructor <;> decide +kernel

/-- The reference wedge is turned. -/
theorem C100_orientation_violated :
    byWayOfFlac flacExample = writeAvs "1".toList (plainMesh { rightExample with cellData := flacExample.cellData }) ∧
    byWayOfFlac flacExample ≠ writeAvs "1".toList (plainMesh flacExample) := by
  constructor <;> decide +kernel

/-- C100. An AVS-UCD file that is loaded and saved for FLAC3D gives the files for FLAC3D of the
mesh itself, with materials that have no names.

Left out: names of materials (which AVS-UCD files do not have, as shown below), cells without
a type of FLAC3D, other data with a name of the material once blanks around it are left out, and what C64
leaves out. -/
theorem C100_avs_to_flac_partial (p : ℕ) (pos : P3 Flt → P3 Flt → P3 Flt → P3 Flt → Bool) (version date : Str)
    {m : AvsMesh} (h : AvsOk m) (hn : ∀ e ∈ otherData m, ¬ IsMaterialName (underscored e.1)) {mats : List ℤ}
    (hm : MaterialsOf m mats) (hf : FlacOk ⟨m.points, m.cells, [("material".toList, mats)], []⟩)
    (hz : cornersOf 3 m.cells ≠ []) (hk : ∀ b ∈ m.cells, dimOf b.type ≠ 0) :
    ∃ lines r, writeAvs version m = .ok lines ∧ (∀ junk, readAvs junk lines = .ok r) ∧
      saveAvsAsFlac p pos version date r =
        writeFlac p pos version date ⟨m.points, m.cells, [("material".toList, mats)], []⟩ := by
  obtain ⟨lines, r, cells, h1, h2, h3, h4, h5⟩ := avs_flacMesh version h hn hm
  refine ⟨lines, r, h1, h2, ?_⟩
  rw [saveAvsAsFlac, h3, ok_bind]
  exact writeFlac_cells (m := ⟨m.points, m.cells, [("material".toList, mats)], []⟩) p pos version date hf hz hk h5 h4

/-- C100. So it is for binary files. -/
theorem C100_avs_to_flac_binary_partial (pos : P3 Flt → P3 Flt → P3 Flt → P3 Flt → Bool) (version : Str)
    {m : AvsMesh} (h : AvsOk m) (hn : ∀ e ∈ otherData m, ¬ IsMaterialName (underscored e.1)) {mats : List ℤ}
    (hm : MaterialsOf m mats) (hf : FlacOk ⟨m.points, m.cells, [("material".toList, mats)], []⟩)
    (hb : BinOk ⟨m.points, m.cells, [("material".toList, mats)], []⟩)
    (hg : BinNames ⟨m.points, m.cells, [("material".toList, mats)], []⟩ mats) (hz : cornersOf 3 m.cells ≠ []) :
    ∃ lines r, writeAvs version m = .ok lines ∧ (∀ junk, readAvs junk lines = .ok r) ∧
      saveAvsAsFlacBin pos r = writeFlacBin pos ⟨m.points, m.cells, [("material".toList, mats)], []⟩ := by
  obtain ⟨lines, r, cells, h1, h2, h3, h4, h5⟩ := avs_flacMesh version h hn hm
  refine ⟨lines, r, h1, h2, ?_⟩
  rw [saveAvsAsFlacBin, h3, ok_bind]
  refine writeFlacBin_cells (m := ⟨m.points, m.cells, [("material".toList, mats)], []⟩) pos hf hb (fun mat hmat => ?_)
    hz h5 h4
  have : materialOfCells ⟨m.points, m.cells, [("material".toList, mats)], []⟩ = some mats := by
    rw [materialOfCells]
    rfl
  rw [this] at hmat
  cases hmat
  exact hg

theorem convertExample_flac : FlacOk ⟨convertExample.points, convertExample.cells, [("material".toList, [1, 2, -1])], []⟩ where
  cells := ⟨⟨.pyramid, [[0, 1, 2, 3, 4]]⟩, by decide, by decide⟩
  vertices := by
    intro b hb d t n hs
    fin_cases hb <;> cases hs <;> decide
  lengths := by decide

example : AvsOk convertExample ∧ (∀ e ∈ otherData convertExample, ¬ IsMaterialName (underscored e.1)) ∧
    MaterialsOf convertExample [1, 2, -1] ∧
    FlacOk ⟨convertExample.points, convertExample.cells, [("material".toList, [1, 2, -1])], []⟩ ∧
    BinOk ⟨convertExample.points, convertExample.cells, [("material".toList, [1, 2, -1])], []⟩ ∧
    BinNames ⟨convertExample.points, convertExample.cells, [("material".toList, [1, 2, -1])], []⟩ [1, 2, -1] ∧
    cornersOf 3 convertExample.cells ≠ [] ∧ ∀ b ∈ convertExample.cells, dimOf b.type ≠ 0 :=
  ⟨convertExample_avs, by decide +kernel, materialsOf_kept (by decide +kernel), convertExample_flac,
    ⟨convertExample_avs.points.2.2, by decide, by decide⟩, ⟨by decide, by decide +kernel, by decide +kernel⟩,
    by decide, by decide⟩

/-- Names of materials are lost by way of an AVS-UCD file. -/
theorem C100_names_violated :
    (do let lines ← writeAvs "1".toList (plainMesh rightExample)
        let r ← readAvs .nan lines
        saveAvsAsFlac 2 turnsRight "1".toList "today".toList r) =
      writeFlac 2 turnsRight "1".toList "today".toList { rightExample with fieldData := [] } ∧
    writeFlac 2 turnsRight "1".toList "today".toList { rightExample with fieldData := [] } ≠
      writeFlac 2 turnsRight "1".toList "today".toList rightExample := by
  constructor <;> decide +kernel

end Verif.Mesh
