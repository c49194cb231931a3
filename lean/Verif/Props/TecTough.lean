import Verif.Model.TecTough
import Verif.Props.Convert

/-!
# C103: meshes that are saved for TOUGH by way of Tecplot files
-/

namespace Verif.Mesh
open Verif.Py Verif.Model Verif.Spec Verif.Props

/-- Floats are written with a point or an exponent. -/
theorem fltStr_mark (neg : Bool) (q : ℚ≥0) : '.' ∈ fltStr (.fin neg q) ∨ 'e' ∈ fltStr (.fin neg q) := by
  unfold fltStr
  simp only
  split
  · left
    simp
  · unfold reprText
    split
    · left
      split <;> simp
    · right
      simp [expStr]

/-- Integers are written with digits and a minus. -/
theorem intStr_notMem (k : ℤ) {c : Char} (h1 : isDigit c = false) (h2 : c ≠ '-') : c ∉ intStr k := by
  intro h
  rcases List.mem_append.1 h with h | h
  · split at h
    · exact h2 (List.mem_singleton.1 h)
    · cases h
  · rw [natStr_isDigit _ _ h] at h1
    cases h1

/-- What is written for the materials of a mesh by way of a Tecplot file. -/
def materialsByTec (m : AvsMesh) : Except PyErr (List Val) := do
  let lines ← writeTecMesh false "1".toList m
  let r ← readTecMesh lines
  .ok r.materialVals

/-- C103 is violated by Tecplot files: the materials 1 and 2 become the floats 1.0 and 2.0, which
stand in the records of the cells as they are and which no rock has for its name or number. -/
theorem C103_tecplot_violated :
    materialsByTec (tetraExample twoTetras flatValues) = .ok [.str "  1.0".toList, .str "  2.0".toList] ∧
    (materialList (materials 2 (some [1, 2]) [])).map (fun m => materialVal (padMaterial m)) =
      [.str "    1".toList, .str "    2".toList] := by
  constructor <;> decide +kernel

/-- C103. So it is for all numbers of materials. -/
theorem C103_tecplot_numbers (k : ℤ) :
    floatMaterialVal (intFlt k) ≠ materialVal (padMaterial (.number k)) := by
  intro h
  have h : padLeft 5 (fltStr (intFlt k)) = padLeft 5 (intStr k) := Val.str.inj h
  have hn : ∀ c : Char, isDigit c = false → c ≠ '-' → c ≠ ' ' → c ∉ padLeft 5 (fltStr (intFlt k)) := by
    intro c h1 h2 h3 hc
    rw [h, padLeft] at hc
    rcases List.mem_append.1 hc with hc | hc
    · exact h3 (List.eq_of_mem_replicate hc)
    · exact intStr_notMem k h1 h2 hc
  rcases fltStr_mark (decide (k < 0)) (k.natAbs : ℚ≥0) with hm | hm
  · exact hn '.' (by decide) (by decide) (by decide) (List.mem_append_right _ hm)
  · exact hn 'e' (by decide) (by decide) (by decide) (List.mem_append_right _ hm)

/-- C103. Without a material all cells have the material one, by way of a Tecplot file or not. -/
theorem C103_tecplot_none (r : TecMesh) (h : r.cellData.lookup "material".toList = none) :
    r.materialVals = (materialList (materials r.cells.length none [])).map fun m => materialVal (padMaterial m) := by
  rw [TecMesh.materialVals, h]
  simp only [materials, materialList, List.map_replicate]
  exact List.map_const'

example : (⟨[], .tetra, [[0, 1, 2, 3]], [], []⟩ : TecMesh).cellData.lookup "material".toList = none := rfl

/-- The names of groups of a mesh for FLAC3D by way of a Tecplot file. -/
def groupsByTec (m : AvsMesh) : Except PyErr (List Str) := do
  let lines ← writeTecMesh false "1".toList m
  let r ← readTecMesh lines
  .ok r.groupLabels

/-- C100 is violated by Tecplot files: the groups of the materials 1 and 2 get the names 1.0 and
2.0 in a FLAC3D file. -/
theorem C100_tecplot_violated :
    groupsByTec (tetraExample twoTetras flatValues) = .ok ["1.0".toList, "2.0".toList] ∧
    [1, 2].map (flacLabel [] .zone) = ["1".toList, "2".toList] := by
  constructor <;> decide +kernel

/-- C100. Only the material zero, which is none, keeps its name by way of a Tecplot file. -/
theorem C100_tecplot_names (k : ℤ) : floatLabel (intFlt k) = flacLabel [] .zone k ↔ k = 0 := by
  constructor
  · intro h
    by_contra hk
    have h1 : floatLabel (intFlt k) = fltStr (intFlt k) := by
      unfold floatLabel
      rw [if_neg]
      have h0 : ((k.natAbs : ℕ) : ℚ≥0) ≠ 0 := by exact_mod_cast Int.natAbs_ne_zero.2 hk
      rintro (h | h) <;> exact h0 (Flt.fin.inj h).2
    have h2 : flacLabel [] .zone k = intStr k := if_neg hk
    rw [h1, h2] at h
    rcases fltStr_mark (decide (k < 0)) (k.natAbs : ℚ≥0) with hm | hm
    · exact intStr_notMem k (c := '.') (by decide) (by decide) (h ▸ hm)
    · exact intStr_notMem k (c := 'e') (by decide) (by decide) (h ▸ hm)
  · rintro rfl
    decide +kernel

end Verif.Mesh
