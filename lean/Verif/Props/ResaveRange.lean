import Verif.Props.ResaveFlac

/-!
# C98: numbers that change when a file is loaded and saved
-/

namespace Verif.Mesh
open Verif.Py Verif.Model Verif.Spec Verif.Props

/-- The smallest float above 10²³. -/
def aboveTen23 : Flt := .fin false 100000000000000008388608

/-- The largest float. -/
def largestFlt : Flt := .fin false ((2 ^ 53 - 1) * 2 ^ 971)

theorem aboveTen23_double : IsDouble aboveTen23 :=
  ⟨5960464477539063, 24, by norm_num, by norm_num, by norm_num, by simp; norm_num⟩

theorem largestFlt_double : IsDouble largestFlt :=
  ⟨2 ^ 53 - 1, 971, by norm_num, by norm_num, by norm_num, by simp; norm_num⟩

/-- A tetrahedron with an edge of the given length. -/
def longTetra (x : Flt) : FlacMesh where
  points := [⟨.fin false 0, .fin false 0, .fin false 0⟩, ⟨x, .fin false 0, .fin false 0⟩,
    ⟨.fin false 0, .fin false 1, .fin false 0⟩, ⟨.fin false 0, .fin false 0, .fin false 1⟩]
  cells := [⟨.tetra, [[0, 1, 2, 3]]⟩]
  cellData := []
  fieldData := []

/-- A mesh is saved for FLAC3D, loaded and saved. -/
def flacTwice (p : ℕ) (m : FlacMesh) : Except PyErr (List Str) := do
  let lines ← writeFlac p turnsRight [] [] m
  let r ← readFlac lines
  saveFlacRead p turnsRight [] [] r

/-- C98 is violated by numbers of sixteen digits: the float above 10²³ is written as 10²³, but the
nearest float is below and is written as 9.999999999999999e22. (With fewer or more digits this does
not happen, by `C98_flac_digits` and `C98_flac_exact`.) -/
theorem C98_sixteen_violated :
    fmtE 15 aboveTen23 = "1.000000000000000e+23".toList ∧
    fmtE 15 (quant 15 aboveTen23) = "9.999999999999999e+22".toList ∧
    (flacTwice 15 (longTetra aboveTen23)).toBool = true ∧
    flacTwice 15 (longTetra aboveTen23) ≠ writeFlac 15 turnsRight [] [] (longTetra aboveTen23) := by
  refine ⟨?_, ?_, ?_, ?_⟩ <;> decide +kernel

/-- C98 is violated by the largest float: with four digits it is written as a number that is read as
infinity. -/
theorem C98_range_violated :
    fmtE 3 largestFlt = "1.798e+308".toList ∧ quant 3 largestFlt = .inf false ∧
    (flacTwice 3 (longTetra largestFlt)).toBool = true ∧
    flacTwice 3 (longTetra largestFlt) ≠ writeFlac 3 turnsRight [] [] (longTetra largestFlt) := by
  refine ⟨?_, ?_, ?_, ?_⟩ <;> decide +kernel

end Verif.Mesh
