import Verif.Lemmas.ResaveFlac
import Verif.Lemmas.NumFifteen

/-!
# C98: Mesh files of FLAC3D that are loaded and saved
-/

namespace Verif.Mesh
open Verif.Py Verif.Model Verif.Spec

/-- C98. The text file for FLAC3D of a mesh that is loaded and saved stays the same, also if
zones were turned to the right hand.

Left out: zones that are still not right-handed when they were turned (the claim is violated for
them, as shown below), numbers that change when they are read and written again, and what C66
leaves out. -/
theorem C98_flac_text_partial (p : ℕ) (pos : P3 Flt → P3 Flt → P3 Flt → P3 Flt → Bool) (version date : Str)
    {m : FlacMesh} (h : FlacOk m) (hg : ∀ mat, materialOfCells m = some mat → TextGroupsOk m mat)
    (hs : FlacSettled (quant p) pos m) (hp : PointsKept p m) :
    ∃ lines r, writeFlac p pos version date m = .ok lines ∧ readFlac lines = .ok r ∧
      saveFlacRead p pos version date r = .ok lines :=
  flac_again p pos version date h hg hs hp

/-- With at most fifteen digits, numbers stay as they are written. -/
theorem C98_flac_digits {p : ℕ} (hp : p ≤ 14) {m : FlacMesh}
    (h : ∀ q ∈ m.points, InRange q.x ∧ InRange q.y ∧ InRange q.z) : PointsKept p m := by
  intro q hq x hx
  obtain ⟨h1, h2, h3⟩ := h q hq
  simp only [List.mem_cons, List.not_mem_nil, or_false] at hx
  rcases hx with rfl | rfl | rfl
  · exact fmtE_quant_fifteen p hp _ h1
  · exact fmtE_quant_fifteen p hp _ h2
  · exact fmtE_quant_fifteen p hp _ h3

/-- So they do with at least seventeen digits. -/
theorem C98_flac_exact {p : ℕ} (hp : 16 ≤ p) {m : FlacMesh}
    (h : ∀ q ∈ m.points, IsDouble q.x ∧ IsDouble q.y ∧ IsDouble q.z) : PointsKept p m := by
  intro q hq x hx
  obtain ⟨h1, h2, h3⟩ := h q hq
  simp only [List.mem_cons, List.not_mem_nil, or_false] at hx
  rcases hx with rfl | rfl | rfl
  · rw [quant_double hp h1]
  · rw [quant_double hp h2]
  · rw [quant_double hp h3]

example : FlacOk flacExample ∧ (∀ mat, materialOfCells flacExample = some mat → TextGroupsOk flacExample mat) ∧
    FlacSettled (quant 16) turnsRight flacExample ∧ PointsKept 16 flacExample ∧
    ¬ RightHanded turnsRight flacExample.points (.wedge, [0, 1, 2, 3, 4, 5]) := by
  refine ⟨flacExample_ok, fun mat hm => ?_, flacSettled_of_check (by decide) (by decide +kernel),
    C98_flac_exact (le_refl _) ?_, fun h => ?_⟩
  · have : materialOfCells flacExample = some [1, 2, 3, 3] := by decide
    rw [this] at hm
    cases hm
    exact flacExample_groups
  · exact flacExample2_ok.2.1.doubles
  · rw [isRightHanded_iff] at h
    revert h
    decide +kernel

example : FlacSettled (quant 3) turnsRight flacExample ∧ ∀ q ∈ flacExample.points, InRange q.x ∧ InRange q.y ∧ InRange q.z := by
  refine ⟨flacSettled_of_check (by decide) (by decide +kernel), ?_⟩
  have h0 : InRange (.fin false 0) := .inl rfl
  have h1 : InRange (.fin false 1) := .inr ⟨by simpa using inv_le_one_of_one_le₀ (one_le_pow₀ (by norm_num)),
    by simpa using one_le_pow₀ (by norm_num)⟩
  intro q hq
  fin_cases hq <;> simp only [h0, h1, and_self]

/-- C98. The binary file for FLAC3D of a mesh that is loaded and saved stays the same. -/
theorem C98_flac_binary_partial (pos : P3 Flt → P3 Flt → P3 Flt → P3 Flt → Bool) {m : FlacMesh} (h : FlacOk m)
    (hb : BinOk m) (hg : ∀ mat, materialOfCells m = some mat → BinGroupsOk m mat) (hs : FlacSettled id pos m) :
    ∃ bytes r, writeFlacBin pos m = .ok bytes ∧ readFlacBin bytes = .ok r ∧ saveFlacBinRead pos r = .ok bytes :=
  flacBin_again pos h hb hg hs

example : FlacOk flacExample2 ∧ BinOk flacExample2 ∧
    (∀ mat, materialOfCells flacExample2 = some mat → BinGroupsOk flacExample2 mat) ∧
    FlacSettled id turnsRight flacExample2 :=
  ⟨flacExample2_ok.1, flacExample2_ok.2.1, flacExample2_ok.2.2, flacSettled_of_check (by decide) (by decide +kernel)⟩

/-- A tetrahedron without volume. -/
def flacFlat : FlacMesh where
  points := [⟨.fin false 0, .fin false 0, .fin false 0⟩, ⟨.fin false 1, .fin false 0, .fin false 0⟩,
    ⟨.fin false 0, .fin false 1, .fin false 0⟩, ⟨.fin false 1, .fin false 1, .fin false 0⟩]
  cells := [⟨.tetra, [[0, 1, 2, 3]]⟩]
  cellData := []
  fieldData := []

theorem flacFlat_ok : FlacOk flacFlat ∧ BinOk flacFlat ∧ materialOfCells flacFlat = none := by
  have h0 : IsDouble (.fin false 0) := ⟨0, 0, by norm_num, by norm_num, by norm_num, by simp⟩
  have h1 : IsDouble (.fin false 1) := ⟨1, 0, by norm_num, by norm_num, by norm_num, by simp⟩
  refine ⟨⟨⟨⟨.tetra, [[0, 1, 2, 3]]⟩, by decide, by decide⟩, ?_, by decide⟩, ⟨?_, by decide, by decide⟩, by decide⟩
  · intro b hb d t n hs
    fin_cases hb <;> cases hs <;> decide
  · intro q hq
    fin_cases hq <;> simp only [h0, h1, and_self]

/-- A zone without volume is mirrored every time it is saved. -/
theorem C98_flac_flat_violated : ∃ m, FlacOk m ∧ materialOfCells m = none ∧ PointsKept 16 m ∧
    ∃ lines lines' r, writeFlac 16 turnsRight [] [] m = .ok lines ∧ readFlac lines = .ok r ∧
      saveFlacRead 16 turnsRight [] [] r = .ok lines' ∧ lines ≠ lines' := by
  refine ⟨flacFlat, flacFlat_ok.1, flacFlat_ok.2.2, C98_flac_exact (le_refl _) flacFlat_ok.2.1.doubles, ?_⟩
  have hd : (do let ls ← writeFlac 16 turnsRight [] [] flacFlat; let r ← readFlac ls; saveFlacRead 16 turnsRight [] [] r) ≠
      writeFlac 16 turnsRight [] [] flacFlat := by decide +kernel
  have hk : (do let ls ← writeFlac 16 turnsRight [] [] flacFlat; let r ← readFlac ls
                saveFlacRead 16 turnsRight [] [] r).toBool = true := by decide +kernel
  cases hw : writeFlac 16 turnsRight [] [] flacFlat with
  | error e => rw [hw] at hk; cases hk
  | ok lines =>
    rw [hw, ok_bind] at hd hk
    cases hr : readFlac lines with
    | error e => rw [hr] at hk; cases hk
    | ok r =>
      rw [hr, ok_bind] at hd hk
      cases hs : saveFlacRead 16 turnsRight [] [] r with
      | error e => rw [hs] at hk; cases hk
      | ok lines' =>
        rw [hs] at hd
        exact ⟨lines, lines', r, rfl, hr, hs, fun h => hd (congrArg _ h.symm)⟩

end Verif.Mesh
