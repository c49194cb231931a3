import Verif.Lemmas.EarlyBin
import Verif.Lemmas.EarlyTec
import Verif.Lemmas.EarlyFlacGroups
import Verif.Props.Avsucd
import Verif.Props.TecplotMesh
import Verif.Props.Flac3d
import Verif.Props.Flac3dBin

/-!
# Mesh files that end early (C88)
-/

namespace Verif.Mesh
open Verif.Py Verif.Model Verif.Spec

/-! ### AVS-UCD -/

/-- C88. Whatever follows an AVS-UCD file that can be read is ignored; so if only the first
lines of a file are read, they are read as the whole file. -/
theorem C88_avs_prefix {junk : Flt} {ls : List Str} {r : AvsRead} (h : readAvs junk ls = .ok r) (more : List Str) :
    readAvs junk (ls ++ more) = .ok r :=
  readAvs_more h more

/-- C88. A written AVS-UCD file that lacks any number of its last lines is refused: with
`ValueError` while the points are missing, as their table then has too few rows, with
`IndexError` if nothing but the comment or some cells or data are missing. -/
theorem C88_avs (version : Str) {m : AvsMesh} (h : AvsOk m) {ls : List Str} (hw : writeAvs version m = .ok ls)
    {k : ℕ} (hk : k < ls.length) (junk : Flt) :
    readAvs junk (ls.take k) =
      .error (if k = 2 ∨ 2 + m.points.length ≤ k then .indexError else .valueError) :=
  readAvs_cut version h hw hk junk

example : AvsOk avsExample ∧ (writeAvs [] avsExample).map List.length = .ok 24 :=
  ⟨avsExample_ok, by decide +kernel⟩

/-- One cell with a large number. -/
def avsLarge : AvsMesh where
  points := [⟨avsNum 0, avsNum 1, avsNum 2⟩]
  cells := [⟨.other "vertex".toList, [[0]]⟩]
  pointData := []
  cellData := [("a".toList, ⟨some 1, [[avsNum 30000000000]]⟩)]

/-- If a file ends inside its last line, a number can lose digits: 3e+10 is read as 30. -/
theorem C88_avs_digits_violated : ∃ ls l, writeAvs "1.0".toList avsLarge = .ok (ls ++ [l]) ∧
    (readAvs .nan (ls ++ [l])).map (·.cellData) = .ok [("a".toList, ⟨none, [[avsNum 30000000000]]⟩)] ∧
    (readAvs .nan (ls ++ [l.take 21])).map (·.cellData) = .ok [("a".toList, ⟨none, [[avsNum 30]]⟩)] := by
  refine ⟨["# Written by toughio v1.0\n".toList, "1 1 0 1 0\n".toList, "1 0.0 1.0 2.0\n".toList, "1 0 pt 1\n".toList,
      "1 1\n".toList, "a, real\n".toList], "1 3.00000000000000e+10\n".toList, ?_, ?_, ?_⟩
  · decide +kernel
  · decide +kernel
  · decide +kernel

/-! ### Tecplot -/

/-- C88. A written Tecplot file that lacks any number of its last lines is not read as
a mesh. -/
theorem C88_tecplot (flat : Bool) (version : Str) {m : AvsMesh} (h : TecMeshOk m) {ls : List Str}
    (hw : writeTecMesh flat version m = .ok ls) {k : ℕ} (hk : k < ls.length) (r : TecMesh) :
    readTecMesh (ls.take k) ≠ .ok r := by
  intro hr
  have hlong : readTecMesh (ls.take (ls.length - 1)) = .ok r := by
    have := C65_later hr ((ls.take (ls.length - 1)).drop k)
    have e : ls.take k = (ls.take (ls.length - 1)).take k := by
      rw [List.take_take, Nat.min_eq_left (by omega)]
    rwa [e, List.take_append_drop] at this
  have hcut := C65_truncated_violated flat version h
  rw [hw, ok_bind, List.dropLast_eq_take, hlong] at hcut
  cases hcut

example : TecMeshOk tecExample := tecExample_ok

/-- Instead the reader does not come to an end, wherever the file ends after the four lines
before its numbers (five with data of cells). -/
theorem C88_tecplot_violated (flat : Bool) (version : Str) {m : AvsMesh} (h : TecMeshOk m) {ls : List Str}
    (hw : writeTecMesh flat version m = .ok ls) {k : ℕ} (hk : k < ls.length)
    (h0 : (if cellVariables m = [] then 4 else 5) ≤ k) : readTecMesh (ls.take k) = .error .diverges :=
  tecRead_cut flat version h hw hk h0

example : TecMeshOk tecExample ∧ cellVariables tecExample ≠ [] := ⟨tecExample_ok, by decide +kernel⟩

/-! ### FLAC3D -/

/-- C88. If the bytes `bs` are not refused for the end of the file, more bytes do not change
what is read. -/
theorem C88_binary_prefix (bs more : List ℕ) :
    readFlacBin bs = .error .structError ∨ readFlacBin (bs ++ more) = readFlacBin bs :=
  readFlacBin_more bs more

/-- C88. A written binary FLAC3D file that lacks any number of its last bytes is refused. -/
theorem C88_binary (pos : P3 Flt → P3 Flt → P3 Flt → P3 Flt → Bool) {m : FlacMesh} (h : FlacOk m)
    (hb : BinOk m) (hg : ∀ mat, materialOfCells m = some mat → BinGroupsOk m mat) {bs : List ℕ}
    (hw : writeFlacBin pos m = .ok bs) {k : ℕ} (hk : k < bs.length) :
    readFlacBin (bs.take k) = .error .structError :=
  writeFlacBin_cut pos h hb hg hw hk

example : FlacOk flacExample2 ∧ BinOk flacExample2 ∧
    ∀ mat, materialOfCells flacExample2 = some mat → BinGroupsOk flacExample2 mat := flacExample2_ok

/-- A FLAC3D text file that ends after the head or one of its points is read as a mesh of
the points so far. -/
theorem C88_text_points_violated (p : ℕ) (pos : P3 Flt → P3 Flt → P3 Flt → P3 Flt → Bool) (version date : Str)
    {m : FlacMesh} (h : FlacOk m) {ls : List Str} (hw : writeFlac p pos version date m = .ok ls) {k : ℕ}
    (hk : k ≤ m.points.length) :
    readFlac (ls.take (3 + k)) =
      .ok ⟨(m.points.take k).map fun q => [quant p q.x, quant p q.y, quant p q.z], [], none, []⟩ :=
  writeFlac_cut_points p pos version date h hw hk

/-- A FLAC3D text file that ends between its zones or before their groups is read as a mesh
of the zones so far, without any group. -/
theorem C88_text_zones_violated (p : ℕ) (pos : P3 Flt → P3 Flt → P3 Flt → P3 Flt → Bool) (version date : Str)
    {m : FlacMesh} (h : FlacOk m) {ls : List Str} (hw : writeFlac p pos version date m = .ok ls) {k : ℕ}
    (hk : k ≤ (cornersOf 3 m.cells).length) :
    ∃ r, readFlac (ls.take (4 + m.points.length + k)) = .ok r ∧
      r.points = m.points.map (fun q => [quant p q.x, quant p q.y, quant p q.z]) ∧
      List.Forall₂ (Oriented pos m.points) ((cornersOf 3 m.cells).take k) (typedCells r.cells) ∧
      r.group = none ∧ r.fieldData = [] :=
  writeFlac_cut_zones p pos version date h hw hk

example : FlacOk flacExample ∧ (cornersOf 3 flacExample.cells).length = 2 := ⟨flacExample_ok, by decide⟩

/-- The title after the zones makes no difference. -/
theorem C88_text_title_violated (p : ℕ) (pos : P3 Flt → P3 Flt → P3 Flt → P3 Flt → Bool) (version date : Str)
    {m : FlacMesh} (h : FlacOk m) {ls : List Str} (hw : writeFlac p pos version date m = .ok ls) :
    readFlac (ls.take (4 + m.points.length + (cornersOf 3 m.cells).length + 1)) =
      readFlac (ls.take (4 + m.points.length + (cornersOf 3 m.cells).length)) :=
  writeFlac_cut_title p pos version date h hw

example : FlacOk flacExample := flacExample_ok

/-- A FLAC3D text file that ends between the groups of its zones, after the first line of
the first group and before the last line of the last one, is refused. -/
theorem C88_text_zone_groups (p : ℕ) (pos : P3 Flt → P3 Flt → P3 Flt → P3 Flt → Bool) (version date : Str)
    {m : FlacMesh} (h : FlacOk m) (hg : ∀ mat, materialOfCells m = some mat → TextGroupsOk m mat) {ls : List Str}
    (hw : writeFlac p pos version date m = .ok ls) {j : ℕ} (h0 : 2 ≤ j)
    (hj : j < (flacGroupText "* ZONE GROUPS\n".toList "ZGROUP".toList 3 m).length) :
    readFlac (ls.take (4 + m.points.length + (cornersOf 3 m.cells).length + j)) = .error .valueError := by
  cases hm : materialOfCells m with
  | none => simp [flacGroupText, hm] at hj
  | some mat =>
    have e := groupText_eq h (fun _ => (hg mat hm).known) .zone
    exact writeFlac_cut_zoneGroups p pos version date h hm (hg mat hm) hw h0 (by rw [e]; exact hj)

/-- A FLAC3D text file that ends between its faces, or before their group, is read as a mesh
of all zones with their groups and of the faces so far without any group. -/
theorem C88_text_faces_violated (p : ℕ) (pos : P3 Flt → P3 Flt → P3 Flt → P3 Flt → Bool) (version date : Str)
    {m : FlacMesh} (h : FlacOk m) (hg : ∀ mat, materialOfCells m = some mat → TextGroupsOk m mat) {ls : List Str}
    (hw : writeFlac p pos version date m = .ok ls) {k : ℕ} (hk : k ≤ (cornersOf 2 m.cells).length + 2) :
    ∃ r zones, readFlac (ls.take (4 + m.points.length + (cornersOf 3 m.cells).length +
        (flacGroupText "* ZONE GROUPS\n".toList "ZGROUP".toList 3 m).length + k)) = .ok r ∧
      r.points = m.points.map (fun q => [quant p q.x, quant p q.y, quant p q.z]) ∧
      typedCells r.cells = zones ++ (cornersOf 2 m.cells).take (k - 1) ∧
      List.Forall₂ (Oriented pos m.points) (cornersOf 3 m.cells) zones ∧
      match materialOfCells m with
      | none => r.group = none ∧ r.fieldData = []
      | some mat => if cornersOf 3 m.cells = [] then r.group = none ∧ r.fieldData = []
        else ∃ gs, r.group = some (gs ++ List.replicate ((cornersOf 2 m.cells).take (k - 1)).length 0) ∧
          List.Forall₂ (fun e g => (groupName m.fieldData 3 e.2, g, 3) ∈ r.fieldData)
            ((groupKeys m.cells mat).take (cornersOf 3 m.cells).length) gs ∧
          ∀ e ∈ r.fieldData, e.2.1 ≠ 0 := by
  have e := groupText_eq h (fun hn => by
    obtain ⟨mat, hm⟩ := Option.ne_none_iff_exists'.1 hn
    exact (hg mat hm).known) .zone
  have := writeFlac_cut_faces p pos version date h hg hw hk
  rw [e] at this
  exact this

/-- A FLAC3D text file that ends inside the group of its faces is refused. -/
theorem C88_text_face_groups (p : ℕ) (pos : P3 Flt → P3 Flt → P3 Flt → P3 Flt → Bool) (version date : Str)
    {m : FlacMesh} (h : FlacOk m) (hg : ∀ mat, materialOfCells m = some mat → TextGroupsOk m mat) {ls : List Str}
    (hw : writeFlac p pos version date m = .ok ls) {j : ℕ} (h0 : 2 ≤ j)
    (hj : j < (flacGroupText "* FACE GROUPS\n".toList "FGROUP".toList 2 m).length) :
    readFlac (ls.take (5 + m.points.length + (cornersOf 3 m.cells).length +
      (flacGroupText "* ZONE GROUPS\n".toList "ZGROUP".toList 3 m).length + (cornersOf 2 m.cells).length + j)) =
      .error .valueError := by
  cases hm : materialOfCells m with
  | none => simp [flacGroupText, hm] at hj
  | some mat =>
    have e := groupText_eq h (fun _ => (hg mat hm).known) .zone
    have e' := groupText_eq h (fun _ => (hg mat hm).known) .face
    have := writeFlac_cut_faceGroups p pos version date h hm (hg mat hm) hw h0 (by rw [e']; exact hj)
    rw [e] at this
    exact this

example : ∃ mat, FlacOk flacExample ∧ materialOfCells flacExample = some mat ∧ TextGroupsOk flacExample mat ∧
    2 < (flacGroupText "* ZONE GROUPS\n".toList "ZGROUP".toList 3 flacExample).length ∧
    2 < (flacGroupText "* FACE GROUPS\n".toList "FGROUP".toList 2 flacExample).length :=
  ⟨_, flacExample_ok, rfl, flacExample_groups, by decide +kernel, by decide +kernel⟩

end Verif.Mesh
