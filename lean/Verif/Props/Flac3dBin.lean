import Verif.Lemmas.Flac3dFile
import Verif.Props.Flac3d

/-!
# C67: binary FLAC3D mesh files
-/

namespace Verif.Mesh
open Verif.Py Verif.Model Verif.Spec

/-- C67. A mesh written as a binary file for FLAC3D and read again: the points are the
same to the last bit; zones, faces and groups are as in a text file (C66), but names may
have blanks and quotation marks, and there may be several groups of faces.

Missing: materials when faces come before zones, cells of other types with a material,
names of groups that coincide, are not ASCII or have more than 65535 characters; what
happens then is shown below and for C66. -/
theorem C67_round_trip_partial (pos : P3 Flt → P3 Flt → P3 Flt → P3 Flt → Bool) {m : FlacMesh} (h : FlacOk m)
    (hb : BinOk m) (hg : ∀ mat, materialOfCells m = some mat → BinGroupsOk m mat) :
    ∃ r, (do let bs ← writeFlacBin pos m; readFlacBin bs) = .ok r ∧ SameMesh id pos m r ∧ SameGroups m r := by
  obtain ⟨bs, r, h1, h2, h3, h4⟩ := writeFlacBin_read pos h hb hg
  exact ⟨r, by rw [h1, ok_bind, h2], h3, h4⟩

/-- Two groups of faces, one with a blank in its name. -/
def flacExample2 : FlacMesh :=
  { flacExample with
    cellData := [("material".toList, [1, 2, 3, 4])]
    fieldData := [("rock".toList, 1, 3), ("the \"fault\"".toList, 3, 2)] }

theorem flacExample2_ok : FlacOk flacExample2 ∧ BinOk flacExample2 ∧
    ∀ mat, materialOfCells flacExample2 = some mat → BinGroupsOk flacExample2 mat := by
  have h0 : IsDouble (.fin false 0) := ⟨0, 0, by norm_num, by norm_num, by norm_num, by simp⟩
  have h1 : IsDouble (.fin false 1) := ⟨1, 0, by norm_num, by norm_num, by norm_num, by simp⟩
  refine ⟨⟨⟨⟨.tetra, [[0, 1, 2, 3]]⟩, by decide, by decide⟩, ?_, by decide⟩, ⟨?_, by decide, by decide⟩, ?_⟩
  · intro b hb d t n hs
    fin_cases hb <;> cases hs <;> decide
  · intro q hq
    fin_cases hq <;> simp only [h0, h1, and_self]
  · intro mat hm
    have : materialOfCells flacExample2 = some [1, 2, 3, 4] := by decide
    rw [this] at hm
    cases hm
    exact ⟨⟨by decide, by decide, by decide +kernel⟩, by decide +kernel, by decide +kernel⟩

/-- C67. All bytes of the binary file: the numbers that mark it, the points, and the zones
and faces as in a text file (C66), each with their groups. Here faces may come
before zones, and names of groups may coincide. -/
theorem C67_file (pos : P3 Flt → P3 Flt → P3 Flt → P3 Flt → Bool) {m : FlacMesh} (h : FlacOk m) (hb : BinOk m)
    (hg : ∀ mat, materialOfCells m = some mat → BinNames m mat) :
    ∃ zones, List.Forall₂ (Oriented pos m.points) (cornersOf 3 m.cells) zones ∧
      writeFlacBin pos m = .ok (flacBinFile m zones) :=
  writeFlacBin_bytes pos h hb hg

example : BinNames flacExample2 [1, 2, 3, 4] ∧
    flacCellBytes 2 (cornersOf 2 flacExample2.cells) =
      [2, 0, 0, 0, 3, 0, 0, 0, 3, 0, 0, 0, 1, 0, 0, 0, 2, 0, 0, 0, 3, 0, 0, 0,
        4, 0, 0, 0, 3, 0, 0, 0, 4, 0, 0, 0, 5, 0, 0, 0, 6, 0, 0, 0] ∧
    flacGroupBytes 3 flacExample2 = [2, 0, 0, 0, 4, 0, 114, 111, 99, 107, 7, 0, 68, 101, 102, 97, 117, 108, 116,
        1, 0, 0, 0, 1, 0, 0, 0, 1, 0, 50, 7, 0, 68, 101, 102, 97, 117, 108, 116, 1, 0, 0, 0, 2, 0, 0, 0] :=
  ⟨⟨by decide, by decide +kernel, by decide +kernel⟩, by decide +kernel, by decide +kernel⟩

/-- C67. The name of a group is read as it was written exactly if it is ASCII. -/
theorem C67_names_iff {name : Str} (hs : name.length < 2 ^ 16) (rest : List ℕ) :
    readBinText (bytesOf 2 name.length ++ (packText name.length (utf8 name) ++ rest)) = .ok (name, rest) ↔ Ascii name := by
  have hlen : name.length ≤ (utf8 name).length := by
    clear hs
    induction name with
    | nil => simp
    | cons c s ih =>
      rw [utf8, List.flatMap_cons, List.length_append, List.length_cons]
      have : 1 ≤ (utf8Char c).length := by
        simp only [utf8Char]
        split
        · simp
        · split
          · simp
          · split <;> simp
      rw [utf8] at ih
      omega
  have hp : packText name.length (utf8 name) = (utf8 name).take name.length := by
    rw [packText, Nat.sub_eq_zero_of_le hlen, List.replicate_zero, List.append_nil]
  have hl : ((utf8 name).take name.length).length = name.length := by
    rw [List.length_take]
    omega
  constructor
  · intro h
    rw [hp, readBinText, unpackUInt_append (by omega), ok_bind] at h
    simp only at h
    rw [takeBytes_append hl, ok_bind] at h
    simp only at h
    cases hd : utf8Decode ((utf8 name).take name.length) with
    | error e => rw [hd] at h; cases h
    | ok s =>
      rw [hd, ok_bind] at h
      simp only [Except.ok.injEq, Prod.mk.injEq, and_true] at h
      subst h
      exact (utf8Decode_length hd).2 hl.symm
  · intro ha
    rw [hp, utf8_ascii ha, List.take_of_length_le (by rw [List.length_map])]
    exact readBinText_ok ha hs rest

example : Ascii "rock salt".toList ∧ ¬ Ascii "grès".toList := by decide

/-- C67. With a name that is not ASCII, the file cannot be read or the name is cut. -/
theorem C67_names_violated :
    (do let bs ← writeFlacBin turnsRight
          { flacExample with cellData := [("material".toList, [1, 1, 1, 1])], fieldData := [("é".toList, 1, 3)] }
        readFlacBin bs) = .error .valueError ∧
    (do let bs ← writeFlacBin turnsRight
          { flacExample with cellData := [("material".toList, [1, 1, 1, 1])], fieldData := [("éa".toList, 1, 3)] }
        let r ← readFlacBin bs
        .ok r.fieldData) = (.ok [("é".toList, 1, 3), ("1".toList, 2, 2)] : Except PyErr (List (Str × ℕ × ℕ))) := by
  decide +kernel

/-- C67. A name with more than 65535 characters cannot be written. -/
theorem C67_long_name {name : Str} (h : 2 ^ 16 ≤ name.length) (data : List ℕ) :
    binGroup name data = .error .structError := by
  rw [binGroup, packUInt, if_neg (by omega)]
  rfl

example : 2 ^ 16 ≤ (List.replicate 70000 'a').length := by rw [List.length_replicate]; norm_num

/-- C67. Faces before zones: as with text files, the file cannot be read. -/
theorem C67_faces_first_violated :
    (do let bs ← writeFlacBin turnsRight
          { flacExample with
            cells := [⟨.triangle, [[0, 1, 2]]⟩, ⟨.tetra, [[0, 1, 2, 3]]⟩]
            cellData := [("material".toList, [1, 1])] }
        readFlacBin bs) = .error .keyError := by
  decide +kernel

/-- C67. What is written as a binary file is read as a binary file, and what is written
as a text file is read as a text file. -/
theorem C67_kind (p : ℕ) (pos : P3 Flt → P3 Flt → P3 Flt → P3 Flt → Bool) (version date : Str) (m : FlacMesh) :
    (∀ bs, writeFlacBin pos m = .ok bs → flacIsBinary bs = true) ∧
      ∀ ls, writeFlac p pos version date m = .ok ls → flacIsBinary (utf8 ls.flatten) = false := by
  constructor
  · intro bs h
    rw [writeFlacBin] at h
    obtain ⟨_, _, h⟩ := bind_ok_inv h
    obtain ⟨x, hx, h⟩ := bind_ok_inv h
    obtain ⟨_, _, h⟩ := bind_ok_inv h
    obtain ⟨_, _, h⟩ := bind_ok_inv h
    obtain ⟨_, _, h⟩ := bind_ok_inv h
    obtain ⟨_, _, h⟩ := bind_ok_inv h
    obtain ⟨_, _, h⟩ := bind_ok_inv h
    cases h
    rw [packMany_ok (by decide)] at hx
    cases hx
    rfl
  · intro ls h
    rw [writeFlac] at h
    obtain ⟨_, _, h⟩ := bind_ok_inv h
    obtain ⟨_, _, h⟩ := bind_ok_inv h
    obtain ⟨_, _, h⟩ := bind_ok_inv h
    cases h
    rfl

example : (writeFlacBin turnsRight flacExample).toBool = true ∧
    (writeFlac 16 turnsRight [] [] flacExample).toBool = true := by
  decide +kernel

/-- C67. All that is written are bytes. -/
theorem C67_bytes (pos : P3 Flt → P3 Flt → P3 Flt → P3 Flt → Bool) {m : FlacMesh} {bs : List ℕ}
    (h : writeFlacBin pos m = .ok bs) : ∀ b ∈ bs, b < 256 := by
  rw [writeFlacBin] at h
  obtain ⟨_, _, h⟩ := bind_ok_inv h
  obtain ⟨x₁, h₁, h⟩ := bind_ok_inv h
  obtain ⟨x₂, h₂, h⟩ := bind_ok_inv h
  obtain ⟨x₃, h₃, h⟩ := bind_ok_inv h
  obtain ⟨x₄, h₄, h⟩ := bind_ok_inv h
  obtain ⟨x₅, h₅, h⟩ := bind_ok_inv h
  obtain ⟨x₆, h₆, h⟩ := bind_ok_inv h
  cases h
  intro b hb
  simp only [List.mem_append] at hb
  rcases hb with hb | hb | hb | hb | hb | hb
  · exact allBytes_many _ _ h₁ b hb
  · exact allBytes_points _ _ h₂ b hb
  · exact allBytes_cells _ _ _ _ _ h₃ b hb
  · exact allBytes_groups _ _ _ h₄ b hb
  · exact allBytes_cells _ _ _ _ _ h₅ b hb
  · exact allBytes_groups _ _ _ h₆ b hb

example : (writeFlacBin turnsRight flacExample2).toBool = true := by
  decide +kernel

end Verif.Mesh
